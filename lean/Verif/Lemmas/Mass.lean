import Verif.Lemmas.Lists
import Verif.Spec.Water
/-
Storage: closed form, locality of edits.
-/
set_option linter.unusedSectionVars false
namespace LGAR

section Split
variable {β : Type}
theorem split1 {l : List β} {i : Nat} {x : β} (h : l[i]? = some x) :
    ∃ a b, l = a ++ x :: b ∧ a.length = i := by
  rw [List.getElem?_eq_some_iff] at h
  obtain ⟨hi, rfl⟩ := h
  refine ⟨l.take i, l.drop (i + 1), ?_, by simp; omega⟩
  rw [List.getElem_cons_drop]; simp

theorem split2 {l : List β} {i : Nat} {x y : β} (h : l[i]? = some x) (h1 : l[i + 1]? = some y) :
    ∃ a b, l = a ++ x :: y :: b ∧ a.length = i := by
  obtain ⟨a, b, rfl, rfl⟩ := split1 h
  rw [List.getElem?_append_right (by omega)] at h1
  cases b with
  | nil => simp at h1
  | cons z b => simp at h1; subst h1; exact ⟨a, b, rfl, rfl⟩

theorem split3 {l : List β} {i : Nat} {x y z : β} (h : l[i]? = some x) (h1 : l[i + 1]? = some y)
    (h2 : l[i + 2]? = some z) : ∃ a b, l = a ++ x :: y :: z :: b ∧ a.length = i := by
  obtain ⟨a, b, rfl, rfl⟩ := split2 h h1
  rw [List.getElem?_append_right (by omega)] at h2
  cases b with
  | nil => simp at h2
  | cons w b => simp at h2; subst h2; exact ⟨a, b, rfl, rfl⟩

theorem set_append_cons (a b : List β) (x y : β) : (a ++ x :: b).set a.length y = a ++ y :: b := by
  induction a with
  | nil => rfl
  | cons z a ih => simp

theorem set_append_cons1 (a b : List β) (x y z : β) : (a ++ x :: y :: b).set (a.length + 1) z = a ++ x :: z :: b := by
  induction a with
  | nil => rfl
  | cons z a ih => simp
end Split

section
variable {K : Type} [Field K] [LinearOrder K] [IsStrictOrderedRing K] [CMath K]

/-- Contribution of a front, given the rest of the list. -/
def slab (cum : List K) (f : Front K) (t : List (Front K)) : K :=
  match t with
  | n :: _ => if n.layer = f.layer then (f.depth - layerTop cum f.layer) * (f.theta - n.theta)
              else (f.depth - layerTop cum f.layer) * f.theta
  | [] => f.theta * (f.depth - layerTop cum f.layer)

/-- Closed form of lgar_calc_mass_bal. -/
def mass (cum : List K) : List (Front K) → K
  | [] => 0
  | f :: t => slab cum f t + mass cum t

theorem idxPred_layerTop {cum : List K} {k : Nat} (h1 : 1 ≤ k) (h2 : k < cum.length) :
    idxPred cum k = .ok (layerTop cum k) := by
  rw [idxPred_ok_iff, layerTop, List.getD_eq_getElem?_getD, List.getElem?_eq_getElem (by omega)]
  exact ⟨by omega, rfl⟩

theorem massBalGo_eq (cum : List K) (l : List (Front K)) (h : LayersInRange cum l) (s : K) :
    massBalGo cum s l = .ok (s + mass cum l) := by
  induction l generalizing s with
  | nil => simp [massBalGo, mass]
  | cons f t ih =>
    have hf := h f (by simp)
    have ht : LayersInRange cum t := fun g hg => h g (by simp [hg])
    unfold massBalGo
    rw [idxPred_layerTop hf.1 hf.2, ok_bind]
    cases t with
    | nil => simp [massBalGo, mass, slab]
    | cons n t =>
      rw [show mass cum (f :: n :: t) = slab cum f (n :: t) + mass cum (n :: t) from rfl]
      simp only [ih ht, slab]
      split <;> congr 1 <;> ring

theorem massBal_eq (cum : List K) (l : List (Front K)) (h : LayersInRange cum l) :
    massBal cum l = .ok (mass cum l) := by
  rw [massBal, massBalGo_eq cum l h, zero_add]

theorem massBalGo_ok {cum : List K} {l : List (Front K)} {s m : K} (h : massBalGo cum s l = .ok m)
    (hc : ∀ f ∈ l, f.layer < cum.length) : LayersInRange cum l := by
  induction l generalizing s with
  | nil => intro f hf; simp at hf
  | cons f t ih =>
    unfold massBalGo at h
    simp only [bind_ok_iff] at h
    obtain ⟨b, hb, h⟩ := h
    rw [idxPred_ok_iff] at hb
    have ht : LayersInRange cum t := by
      cases t with
      | nil => intro f hf; simp at hf
      | cons n t =>
        simp only at h
        split at h <;> exact ih h fun g hg => hc g (by simp_all)
    intro g hg
    rcases List.mem_cons.mp hg with rfl | hg
    · exact ⟨hb.1, hc g (by simp)⟩
    · exact ht g hg

/-- Abel summation: closed form = physical water. -/
theorem waterBelow_some (cum : List K) (p : Front K) (l : List (Front K)) :
    waterBelow cum (some p) l = mass cum l -
      (match l with
        | n :: _ => if n.layer = p.layer then (p.depth - layerTop cum p.layer) * n.theta else 0
        | [] => 0) := by
  induction l generalizing p with
  | nil => simp [waterBelow, mass]
  | cons f t ih =>
    simp only [waterBelow]
    rw [ih f, show mass cum (f :: t) = slab cum f t + mass cum t from rfl]
    generalize mass cum t = M
    by_cases hp : p.layer = f.layer
    · rw [if_pos hp, if_pos hp.symm, hp]
      cases t with
      | nil => simp only [slab]; ring
      | cons n t => simp only [slab]; split_ifs <;> ring
    · rw [if_neg hp, if_neg (Ne.symm hp)]
      cases t with
      | nil => simp only [slab]; ring
      | cons n t => simp only [slab]; split_ifs <;> ring

theorem water_eq_mass (cum : List K) (l : List (Front K)) : water cum l = mass cum l := by
  cases l with
  | nil => rfl
  | cons f t =>
    simp only [water, waterBelow, waterBelow_some, mass]
    cases t with
    | nil => simp [slab, mass]; ring
    | cons n t => simp only [slab]; split_ifs <;> ring

/-- Numbers do not matter. -/
theorem mass_congr_data (cum : List K) : ∀ (l l' : List (Front K)), l.map Front.data = l'.map Front.data →
    mass cum l = mass cum l'
  | [], [], _ => rfl
  | [], _ :: _, h => by simp at h
  | _ :: _, [], h => by simp at h
  | f :: t, f' :: t', h => by
    simp only [List.map_cons, List.cons.injEq] at h
    have hd := h.1
    simp only [Front.data, FrontData.mk.injEq] at hd
    have ih := mass_congr_data cum t t' h.2
    simp only [mass, ih]
    congr 1
    cases t <;> cases t' <;> simp_all [slab, Front.data]

theorem mass_dec (cum : List K) (l : List (Front K)) : mass cum (decFronts l) = mass cum l :=
  mass_congr_data cum _ _ (decFronts_data l)

theorem mass_inc (cum : List K) (l : List (Front K)) : mass cum (incFronts l) = mass cum l :=
  mass_congr_data cum _ _ (incFronts_data l)

/-- An edit below a prefix changes the storage only through the edited part, if the first edited front keeps its layer
and moisture. -/
theorem mass_append_cons (cum : List K) (a : List (Front K)) (x y : Front K) (u v : List (Front K))
    (hl : x.layer = y.layer) (ht : x.theta = y.theta) :
    mass cum (a ++ x :: u) - mass cum (x :: u) = mass cum (a ++ y :: v) - mass cum (y :: v) := by
  induction a with
  | nil => simp
  | cons f a ih =>
    simp only [List.cons_append, mass] at ih ⊢
    have hs : slab cum f (a ++ x :: u) = slab cum f (a ++ y :: v) := by
      cases a <;> simp [slab, hl, ht]
    rw [hs]; linear_combination ih

end
end LGAR
