import Verif.Lemmas.Tools
import Verif.Spec.Fronts
import Mathlib.Data.List.Basic
/-
Lemmas on the list primitives, numbering.
-/
namespace LGAR
variable {α : Type}

/-- Numbering from `k`, recursively. -/
def NumFrom : Int → List (Front α) → Prop
  | _, [] => True
  | k, f :: t => f.front = k ∧ NumFrom (k + 1) t

theorem numFrom_iff (k : Int) (l : List (Front α)) :
    NumFrom k l ↔ ∀ (i : Nat) (h : i < l.length), l[i].front = k + i := by
  induction l generalizing k with
  | nil => simp [NumFrom]
  | cons f t ih =>
    simp only [NumFrom, ih]
    constructor
    · rintro ⟨h0, h⟩ i hi
      cases i with
      | zero => simpa using h0
      | succ j => have := h j (by simpa using hi); simp only [List.getElem_cons_succ]; push_cast; omega
    · intro h
      refine ⟨by have := h 0 (by simp); simpa [List.getElem_cons_zero] using this, fun i hi => ?_⟩
      have := h (i + 1) (by simpa using hi)
      simp only [List.getElem_cons_succ] at this; push_cast at this; omega

theorem consecutive_iff (l : List (Front α)) : Consecutive l ↔ NumFrom 1 l := by
  rw [numFrom_iff, Consecutive]
  constructor <;> intro h i hi <;> have := h i hi <;> omega

theorem NumFrom.append {k : Int} {a b : List (Front α)} :
    NumFrom k (a ++ b) ↔ NumFrom k a ∧ NumFrom (k + a.length) b := by
  induction a generalizing k with
  | nil => simp [NumFrom]
  | cons f t ih =>
    simp only [List.cons_append, NumFrom, ih, List.length_cons]
    rw [show k + 1 + (t.length : Int) = k + ((t.length + 1 : Nat) : Int) by push_cast; ring]
    tauto

theorem NumFrom.dec {k : Int} {l : List (Front α)} (h : NumFrom (k + 1) l) : NumFrom k (decFronts l) := by
  induction l generalizing k with
  | nil => trivial
  | cons f t ih =>
    obtain ⟨h0, h1⟩ := h
    refine ⟨?_, ih h1⟩
    show f.front - 1 = k
    omega

theorem NumFrom.inc {k : Int} {l : List (Front α)} (h : NumFrom k l) : NumFrom (k + 1) (incFronts l) := by
  induction l generalizing k with
  | nil => trivial
  | cons f t ih =>
    obtain ⟨h0, h1⟩ := h
    refine ⟨?_, ih h1⟩
    show f.front + 1 = k + 1
    omega

/-- Replacing a front by one with the same number. -/
theorem NumFrom.set {k : Int} {l : List (Front α)} (h : NumFrom k l) (i : Nat) (f : Front α)
    (hf : ∀ c, l[i]? = some c → f.front = c.front) : NumFrom k (l.set i f) := by
  induction l generalizing k i with
  | nil => simp [NumFrom]
  | cons g t ih =>
    obtain ⟨h0, h1⟩ := h
    cases i with
    | zero => exact ⟨by rw [hf g (by simp)]; exact h0, h1⟩
    | succ j => exact ⟨h0, ih h1 j (by simpa using hf)⟩

theorem findFrom_some {key : Int} {l : List (Front α)} {i : Nat} :
    findFrom key l = some i ↔
      ∃ h : i < l.length, l[i].front = key ∧ ∀ j (hj : j < i), (l[j]'(by omega)).front ≠ key := by
  induction l generalizing i with
  | nil => simp [findFrom]
  | cons f t ih =>
    unfold findFrom
    split
    · rename_i hf
      constructor
      · intro h; obtain rfl : 0 = i := by simpa using h
        exact ⟨by simp, by simpa using hf, by omega⟩
      · rintro ⟨h, h1, h2⟩
        cases i with
        | zero => rfl
        | succ j => exact absurd hf (by simpa using h2 0 (by omega))
    · rename_i hf
      cases i with
      | zero => simp [hf]
      | succ j =>
        rw [show (Option.map (· + 1) (findFrom key t) = some (j + 1)) ↔ findFrom key t = some j by
          cases findFrom key t <;> simp, ih]
        constructor
        · rintro ⟨h, h1, h2⟩
          refine ⟨by simpa using h, by simpa using h1, ?_⟩
          intro m hm
          cases m with
          | zero => simpa using hf
          | succ m => simpa using h2 m (by omega)
        · rintro ⟨h, h1, h2⟩
          exact ⟨by simpa using h, by simpa using h1, fun m hm => by simpa using h2 (m + 1) (by omega)⟩

theorem findFrom_none {key : Int} {l : List (Front α)} :
    findFrom key l = none ↔ ∀ f ∈ l, f.front ≠ key := by
  induction l with
  | nil => simp [findFrom]
  | cons f t ih =>
    unfold findFrom
    split <;> simp_all

theorem findFrom_num {k : Int} {l : List (Front α)} (h : NumFrom k l) (i : Nat) (hi : i < l.length) :
    findFrom (k + i) l = some i := by
  rw [numFrom_iff] at h
  rw [findFrom_some]
  refine ⟨hi, h i hi, fun j hj => ?_⟩
  rw [h j (by omega)]; omega

theorem deleteGo_split {k : Int} {a b : List (Front α)} {f : Front α} (hf : f.front = k)
    (ha : ∀ g ∈ a, g.front ≠ k) : deleteGo k (a ++ f :: b) = a ++ decFronts b := by
  induction a with
  | nil => simp [deleteGo, hf]
  | cons g t ih =>
    simp only [List.cons_append, deleteGo]
    rw [if_neg (ha g (by simp)), ih fun x hx => ha x (by simp [hx])]

theorem findFrom_split {k : Int} {a b : List (Front α)} {f : Front α} (hf : f.front = k)
    (ha : ∀ g ∈ a, g.front ≠ k) : findFrom k (a ++ f :: b) = some a.length := by
  induction a with
  | nil => simp [findFrom, hf]
  | cons g t ih =>
    simp only [List.cons_append, findFrom]
    rw [if_neg (ha g (by simp)), ih fun x hx => ha x (by simp [hx])]
    simp

theorem listDeleteFront_split {k : Int} {a b : List (Front α)} {f : Front α} (hf : f.front = k)
    (ha : ∀ g ∈ a, g.front ≠ k) : listDeleteFront k (a ++ f :: b) = .ok (a.length, a ++ decFronts b) := by
  unfold listDeleteFront
  rw [findFrom_split hf ha, deleteGo_split hf ha]

theorem NumFrom.mem_lt {k : Int} {l : List (Front α)} (h : NumFrom k l) {f : Front α} (hf : f ∈ l) :
    k ≤ f.front ∧ f.front < k + l.length := by
  rw [numFrom_iff] at h
  obtain ⟨i, hi, rfl⟩ := List.getElem_of_mem hf
  rw [h i hi]; constructor <;> omega

/-- Deleting the front at a position of a numbered list, by its number. -/
theorem listDeleteFront_num {a b : List (Front α)} {f : Front α} {k : Int} (h : NumFrom k (a ++ f :: b)) :
    listDeleteFront f.front (a ++ f :: b) = .ok (a.length, a ++ decFronts b) := by
  rw [NumFrom.append] at h
  obtain ⟨h1, h2, h3⟩ := h
  apply listDeleteFront_split rfl
  intro g hg e
  have := h1.mem_lt hg
  omega

theorem numFrom_delete {a b : List (Front α)} {f : Front α} {k : Int} (h : NumFrom k (a ++ f :: b)) :
    NumFrom k (a ++ decFronts b) := by
  rw [NumFrom.append] at h ⊢
  obtain ⟨h1, h2, h3⟩ := h
  exact ⟨h1, h3.dec⟩

/-- Position form. -/
theorem listDeleteFront_at {l : List (Front α)} {k : Int} (h : NumFrom k l) (i : Nat) (hi : i < l.length) :
    listDeleteFront l[i].front l = .ok (i, l.take i ++ decFronts (l.drop (i + 1))) := by
  have e : l = l.take i ++ l[i] :: l.drop (i + 1) := by
    rw [List.getElem_cons_drop]; simp
  have h' : NumFrom k (l.take i ++ l[i] :: l.drop (i + 1)) := by rwa [← e]
  have := listDeleteFront_num h'
  rw [← e] at this
  rw [this]; simp; omega

theorem numFrom_delete_at {l : List (Front α)} {k : Int} (h : NumFrom k l) (i : Nat) (hi : i < l.length) :
    NumFrom k (l.take i ++ decFronts (l.drop (i + 1))) := by
  have e : l = l.take i ++ l[i] :: l.drop (i + 1) := by
    rw [List.getElem_cons_drop]; simp
  rw [e] at h
  exact numFrom_delete h

theorem listDeleteFront_ok {l l' : List (Front α)} {n : Int} {i : Nat} (h : listDeleteFront n l = .ok (i, l')) :
    ∃ a f b, l = a ++ f :: b ∧ f.front = n ∧ (∀ g ∈ a, g.front ≠ n) ∧ i = a.length ∧ l' = a ++ decFronts b := by
  unfold listDeleteFront at h
  split at h
  · simp at h
  · rename_i j hj
    obtain ⟨rfl, rfl⟩ : j = i ∧ deleteGo n l = l' := by simpa using h
    rw [findFrom_some] at hj
    obtain ⟨h0, h1, h2⟩ := hj
    have e : l = l.take j ++ l[j] :: l.drop (j + 1) := by
      rw [List.getElem_cons_drop]; simp
    have h2' : ∀ g ∈ l.take j, g.front ≠ n := by
      intro g hg
      obtain ⟨m, hm, rfl⟩ := List.getElem_of_mem hg
      simp only [List.getElem_take]
      exact h2 m (by simp at hm; omega)
    refine ⟨l.take j, l[j], l.drop (j + 1), e, h1, h2', by simp; omega, ?_⟩
    conv_lhs => rw [e]
    exact deleteGo_split h1 h2'

@[simp] theorem decFronts_length (l : List (Front α)) : (decFronts l).length = l.length := by simp [decFronts]
@[simp] theorem incFronts_length (l : List (Front α)) : (incFronts l).length = l.length := by simp [incFronts]
@[simp] theorem decFronts_nil : decFronts ([] : List (Front α)) = [] := rfl
@[simp] theorem decFronts_cons (f : Front α) (t : List (Front α)) :
    decFronts (f :: t) = { f with front := f.front - 1 } :: decFronts t := rfl

theorem decFronts_data (l : List (Front α)) : (decFronts l).map Front.data = l.map Front.data := by
  induction l with
  | nil => rfl
  | cons f t ih => simp only [decFronts_cons, List.map_cons, ih]; rfl

theorem incFronts_data (l : List (Front α)) : (incFronts l).map Front.data = l.map Front.data := by
  simp only [incFronts, List.map_map]; rfl

theorem listCopy_eq (l : List (Front α)) : listCopy l = l := by
  induction l with
  | nil => rfl
  | cons f t ih => simp [listCopy, ih]

theorem listReverseOrder_eq (l : List (Front α)) : listReverseOrder l = l.reverse := by
  have : ∀ (l acc : List (Front α)), l.foldl (fun prev c => c :: prev) acc = l.reverse ++ acc := by
    intro l
    induction l with
    | nil => simp
    | cons f t ih => intro acc; simp [ih]
  simp [listReverseOrder, this]

theorem insertGo_split {link p : Front α} {a b : List (Front α)} (hp : p.front = link.front - 1)
    (ha : ∀ g ∈ a, g.front ≠ link.front - 1) :
    insertGo link (a ++ p :: b) =
      if b = [] then .ok (a ++ [p, link])
      else .error (.ub "listInsertFront: endless renumbering loop, signed overflow") := by
  induction a with
  | nil =>
    cases b <;> simp [insertGo, hp]
  | cons g t ih =>
    simp only [List.cons_append, insertGo]
    rw [if_neg (ha g (by simp)), ih fun x hx => ha x (by simp [hx])]
    split <;> rfl

theorem insertGo_none {link : Front α} {l : List (Front α)} (h : ∀ g ∈ l, g.front ≠ link.front - 1) :
    insertGo link l = .error (.ub "NULL dereference") := by
  induction l with
  | nil => rfl
  | cons g t ih =>
    simp only [insertGo]
    rw [if_neg (h g (by simp)), ih fun x hx => h x (by simp [hx])]
    rfl

/-! ### depth sort -/
section DepthSort
variable [LinearOrder α]

/-- The data listSortFrontsByDepth carries along. -/
def swapData (f : Front α) : α × α × Nat × Int := (f.depth, f.theta, f.layer, f.front)

theorem sortSwap_perm (a b : Front α) :
    List.Perm [swapData (sortSwap a b).1, swapData (sortSwap a b).2] [swapData a, swapData b] := by
  unfold sortSwap; split
  · exact List.Perm.swap _ _ _
  · exact List.Perm.refl _

theorem sortPass_perm (n : Nat) (l : List (Front α)) :
    List.Perm ((sortPass n l).map swapData) (l.map swapData) := by
  induction n generalizing l with
  | zero => cases l <;> exact List.Perm.refl _
  | succ n ih =>
    match l with
    | [] => exact List.Perm.refl _
    | [a] => exact List.Perm.refl _
    | a :: b :: t =>
      simp only [sortPass, List.map_cons]
      have h1 := ih ((sortSwap a b).2 :: t)
      refine (List.Perm.cons _ h1).trans ?_
      have := (sortSwap_perm a b).append_right (t.map swapData)
      simpa using this

theorem sortPass_length (n : Nat) (l : List (Front α)) : (sortPass n l).length = l.length := by
  have := (sortPass_perm n l).length_eq; simpa using this

theorem sortPasses_perm (n : Nat) (l : List (Front α)) :
    List.Perm ((sortPasses n l).map swapData) (l.map swapData) := by
  induction n generalizing l with
  | zero => exact List.Perm.refl _
  | succ n ih => exact (ih _).trans (sortPass_perm _ _)

theorem sortSwap_fst_le (a b : Front α) : (sortSwap a b).1.depth ≤ (sortSwap a b).2.depth := by
  unfold sortSwap; split
  · exact le_of_lt ‹_›
  · exact le_of_not_gt ‹_›

/-- One pass with `n` comparisons touches positions `0..n` only and puts the maximum of those at position `n`. -/
theorem sortPass_spec (n : Nat) (l : List (Front α)) (hn : n < l.length) :
    (∀ i (hi : i < l.length), n < i → (sortPass n l)[i]'(by rw [sortPass_length]; exact hi) = l[i]) ∧
    (∀ i (hi : i ≤ n), ((sortPass n l)[i]'(by rw [sortPass_length]; omega)).depth ≤
        ((sortPass n l)[n]'(by rw [sortPass_length]; omega)).depth) ∧
    (∀ f, (∀ i (hi : i ≤ n), (l[i]'(by omega)).depth ≤ f) → ∀ i (hi : i ≤ n),
        ((sortPass n l)[i]'(by rw [sortPass_length]; omega)).depth ≤ f) := by
  induction n generalizing l with
  | zero =>
    match l, hn with
    | a :: t, _ =>
    refine ⟨fun i hi _ => rfl, fun i hi => ?_, fun f hf i hi => ?_⟩
    · obtain rfl : i = 0 := by omega
      exact le_rfl
    · obtain rfl : i = 0 := by omega
      exact hf 0 (by omega)
  | succ n ih =>
    match l, hn with
    | [_], hn => simp at hn
    | a :: b :: t, hn =>
      have hn' : n < ((sortSwap a b).2 :: t).length := by simpa using hn
      obtain ⟨h1, h2, h3⟩ := ih ((sortSwap a b).2 :: t) hn'
      have hle := sortSwap_fst_le a b
      refine ⟨?_, ?_, ?_⟩
      · intro i hi hin
        match i, hi, hin with
        | i + 2, hi, hin =>
          have := h1 (i + 1) (by simpa using hi) (by omega)
          simpa [sortPass] using this
      · intro i hi
        match i, hi with
        | 0, _ =>
          simp only [sortPass, List.getElem_cons_zero, List.getElem_cons_succ]
          refine le_trans hle ?_
          by_contra hcon
          rw [not_le] at hcon
          -- the first element of the rest, before the pass, is below the maximum after it
          have hmem : swapData (sortSwap a b).2 ∈ (sortPass n ((sortSwap a b).2 :: t)).map swapData :=
            (sortPass_perm n _).mem_iff.mpr (by simp)
          obtain ⟨g, hg, hge⟩ := List.mem_map.mp hmem
          obtain ⟨m, hm, rfl⟩ := List.getElem_of_mem hg
          by_cases hmn : m ≤ n
          · have := h2 m hmn
            have hd : ((sortPass n ((sortSwap a b).2 :: t))[m]).depth = (sortSwap a b).2.depth := by
              have := congrArg Prod.fst hge; simpa [swapData] using this
            rw [hd] at this
            exact absurd this (not_le.mpr hcon)
          · -- use bound (3) with f := max after the pass on an auxiliary argument
            have key : ∀ (n : Nat) (x : Front α) (u : List (Front α)) (hn : n < (x :: u).length),
                x.depth ≤ ((sortPass n (x :: u))[n]'(by rw [sortPass_length]; exact hn)).depth := by
              intro n
              induction n with
              | zero => intro x u _; exact le_rfl
              | succ n ihn =>
                intro x u hnu
                match u, hnu with
                | y :: u, hnu =>
                  simp only [sortPass, List.getElem_cons_succ]
                  refine le_trans ?_ (ihn (sortSwap x y).2 u (by simpa using hnu))
                  unfold sortSwap; split
                  · exact le_rfl
                  · exact le_of_not_gt ‹_›
            exact absurd (key n _ t hn') (not_le.mpr hcon)
        | i + 1, hi =>
          have := h2 i (by omega)
          simpa [sortPass] using this
      · intro f hf i hi
        have hab : (sortSwap a b).2.depth ≤ f := by
          have ha := hf 0 (by omega)
          have hb := hf 1 (by omega)
          simp only [List.getElem_cons_zero, List.getElem_cons_succ] at ha hb
          unfold sortSwap; split <;> assumption
        match i, hi with
        | 0, _ =>
          simp only [sortPass, List.getElem_cons_zero]
          exact le_trans hle hab
        | i + 1, hi =>
          have := h3 f (fun j hj => by
            cases j with
            | zero => simpa using hab
            | succ j => simpa using hf (j + 2) (by omega)) i (by omega)
          simpa [sortPass] using this

theorem sortPasses_length (n : Nat) (l : List (Front α)) : (sortPasses n l).length = l.length := by
  have := (sortPasses_perm n l).length_eq; simpa using this

/-- After the passes with `n, n-1, ..., 1` comparisons: positions above `n` untouched, positions `0..n` sorted. -/
theorem sortPasses_spec (n : Nat) (l : List (Front α)) (hn : n < l.length) :
    (∀ i (hi : i < l.length), n < i → (sortPasses n l)[i]'(by rw [sortPasses_length]; exact hi) = l[i]) ∧
    (∀ i j (hij : i ≤ j) (hj : j ≤ n), ((sortPasses n l)[i]'(by rw [sortPasses_length]; omega)).depth ≤
        ((sortPasses n l)[j]'(by rw [sortPasses_length]; omega)).depth) ∧
    (∀ f, (∀ i (hi : i ≤ n), (l[i]'(by omega)).depth ≤ f) → ∀ i (hi : i ≤ n),
        ((sortPasses n l)[i]'(by rw [sortPasses_length]; omega)).depth ≤ f) := by
  induction n generalizing l with
  | zero =>
    refine ⟨fun i hi _ => rfl, fun i j hij hj => ?_, fun f hf i hi => ?_⟩
    · obtain rfl : j = 0 := by omega
      obtain rfl : i = 0 := by omega
      exact le_rfl
    · exact hf i hi
  | succ n ih =>
    obtain ⟨p1, p2, p3⟩ := sortPass_spec (n + 1) l hn
    obtain ⟨h1, h2, h3⟩ := ih (sortPass (n + 1) l) (by rw [sortPass_length]; omega)
    simp only [sortPasses]
    have hlast : (sortPasses n (sortPass (n + 1) l))[n + 1]'(by rw [sortPasses_length, sortPass_length]; exact hn)
        = (sortPass (n + 1) l)[n + 1]'(by rw [sortPass_length]; exact hn) :=
      h1 (n + 1) (by rw [sortPass_length]; exact hn) (by omega)
    have hbound : ∀ i (hi : i ≤ n), ((sortPasses n (sortPass (n + 1) l))[i]'(by
        rw [sortPasses_length, sortPass_length]; omega)).depth ≤
        ((sortPass (n + 1) l)[n + 1]'(by rw [sortPass_length]; exact hn)).depth :=
      h3 _ (fun i hi => p2 i (by omega))
    refine ⟨?_, ?_, ?_⟩
    · intro i hi hin
      rw [h1 i (by rw [sortPass_length]; exact hi) (by omega), p1 i hi (by omega)]
    · intro i j hij hj
      rcases Nat.lt_or_ge n j with hjn | hjn
      · obtain rfl : j = n + 1 := by omega
        rcases Nat.lt_or_ge n i with hin | hin
        · obtain rfl : i = n + 1 := by omega
          exact le_rfl
        · rw [hlast]; exact hbound i hin
      · exact h2 i j hij hjn
    · intro f hf i hi
      rcases Nat.lt_or_ge n i with hin | hin
      · obtain rfl : i = n + 1 := by omega
        rw [hlast]; exact p3 f hf _ (le_refl _)
      · exact h3 f (fun j hj => p3 f hf j (by omega)) i hin
end DepthSort

end LGAR
