import Verif.Lemmas.SinglePass
import Verif.Spec.Storage
/-
Bounds of the storage by the moisture range.
-/
set_option linter.unusedSectionVars false
namespace LGAR

section Exact
variable {K : Type} [Field K] [LinearOrder K] [IsStrictOrderedRing K] [CMath K] [LawfulNum K]

/-- Top of the slice of a front of layer `s` below `above`. -/
def sliceTop (cum : List K) (above : Option (Front K)) (s : Nat) : K :=
  match above with
  | some p => if p.layer = s then p.depth else layerTop cum s
  | none => layerTop cum s

theorem waterBelow_cons (cum : List K) (above : Option (Front K)) (f : Front K) (t : List (Front K)) :
    waterBelow cum above (f :: t) = (f.depth - sliceTop cum above f.layer) * f.theta + waterBelow cum (some f) t := rfl

/-- What the layers from `s` on hold below the depth `tp` of layer `s`. -/
def fillBelow (th : Nat → K) (cum : List K) (N s : Nat) (tp : K) : K :=
  th s * (cum.getD s 0 - tp) + ((List.range' (s + 1) (N - s)).map fun k => th k * (cum.getD k 0 - layerTop cum k)).sum

theorem fillBelow_step {th : Nat → K} {cum : List K} {N s : Nat} {tp : K} (hs : s < N) :
    fillBelow th cum N s tp = th s * (cum.getD s 0 - tp) + fillBelow th cum N (s + 1) (layerTop cum (s + 1)) := by
  unfold fillBelow
  obtain ⟨d, rfl⟩ : ∃ d, N = s + 1 + d := ⟨N - (s + 1), by omega⟩
  rw [show s + 1 + d - s = d + 1 by omega, show s + 1 + d - (s + 1) = d by omega, List.range'_succ, List.map_cons, List.sum_cons]

theorem waterBelow_range {N : Nat} {cum : List K} {lo hi : Nat → K} : ∀ {l : List (Front K)} {above : Option (Front K)} {s : Nat},
    Col N cum s l → DepthOrder l → (∀ f ∈ l.head?, sliceTop cum above s ≤ f.depth) →
    (∀ f ∈ l, lo f.layer ≤ f.theta ∧ f.theta ≤ hi f.layer) →
    fillBelow lo cum N s (sliceTop cum above s) ≤ waterBelow cum above l ∧
      waterBelow cum above l ≤ fillBelow hi cum N s (sliceTop cum above s)
  | [], _, _, h, _, _, _ => by exact absurd h.layers (by simp [LayersFrom])
  | [f], above, s, h, _, ht, hb => by
    obtain ⟨h1, h2, _, h4⟩ := col_single_iff.mp h
    subst h1
    have ht := ht f (by simp)
    obtain ⟨b1, b2⟩ := hb f (by simp)
    rw [waterBelow_cons]
    unfold fillBelow waterBelow
    rw [h2, Nat.sub_self, List.range'_zero, ← h2, List.getD_eq_getElem?_getD, h4, Option.getD_some]
    simp only [List.map_nil, List.sum_nil, add_zero]
    have : 0 ≤ f.depth - sliceTop cum above f.layer := sub_nonneg.mpr ht
    rw [mul_comm (f.depth - _)]
    exact ⟨mul_le_mul_of_nonneg_right b1 this, mul_le_mul_of_nonneg_right b2 this⟩
  | f :: g :: t, above, s, h, ho, ht, hb => by
    obtain ⟨h1, h2, h3, h4, h5⟩ := col_cons_iff.mp h
    subst h1
    have ht := ht f (by simp)
    obtain ⟨b1, b2⟩ := hb f (by simp)
    have ho' : DepthOrder (g :: t) := by
      unfold DepthOrder at ho ⊢
      rw [List.map_cons, List.pairwise_cons] at ho
      exact ho.2
    have hfg : f.depth ≤ g.depth := by
      unfold DepthOrder at ho
      rw [List.map_cons, List.pairwise_cons] at ho
      exact ho.1 _ (by simp)
    have h0 : 0 ≤ f.depth - sliceTop cum above f.layer := sub_nonneg.mpr ht
    have m1 := mul_le_mul_of_nonneg_right b1 h0
    have m2 := mul_le_mul_of_nonneg_right b2 h0
    rw [waterBelow_cons, mul_comm (f.depth - _)]
    rcases h2 with h2 | h2
    · have e : sliceTop cum (some f) g.layer = f.depth := by simp [sliceTop, h2]
      obtain ⟨i1, i2⟩ := waterBelow_range (above := some f) h5 ho'
        (fun x hx => by simp only [List.head?_cons, Option.mem_some_iff] at hx; subst hx; rw [e]; exact hfg)
        (fun x hx => hb x (List.mem_cons_of_mem _ hx))
      rw [e, h2] at i1 i2
      unfold fillBelow at i1 i2 ⊢
      constructor <;> linarith
    · have hbt := h4 (h3.mpr (by omega))
      have ec : cum.getD f.layer 0 = f.depth := by rw [List.getD_eq_getElem?_getD, hbt, Option.getD_some]
      have et : layerTop cum (f.layer + 1) = f.depth := by unfold layerTop; rw [Nat.add_sub_cancel]; exact ec
      have e : sliceTop cum (some f) g.layer = f.depth := by simp [sliceTop, h2, et]
      obtain ⟨i1, i2⟩ := waterBelow_range (above := some f) h5 ho'
        (fun x hx => by simp only [List.head?_cons, Option.mem_some_iff] at hx; subst hx; rw [e]; exact hfg)
        (fun x hx => hb x (List.mem_cons_of_mem _ hx))
      have hN : f.layer < N := by
        have := h5.range g (by simp)
        omega
      rw [fillBelow_step hN, fillBelow_step hN, ec, et]
      rw [e, h2] at i1 i2
      constructor <;> linarith

/-- In a one-layer column whose fronts dry downwards the storage is at least that of the last front over its whole depth, and at most
that of the first front, whatever the order of the depths. -/
theorem mass_one {cum : List K} {column : K} (h0 : layerTop cum 1 = 0) : ∀ {l : List (Front K)} {b : Front K},
    (∀ f ∈ l, f.layer = 1) → StrictlyDrying l → (∀ f ∈ l, 0 < f.depth) → l.getLast? = some b →
    b.depth * b.theta ≤ mass cum l ∧
      ((∀ f ∈ l, f.depth ≤ column) → b.depth = column → ∀ f ∈ l.head?, mass cum l ≤ column * f.theta)
  | [], _, _, _, _, h => by simp at h
  | [f], b, hl, _, hp, h => by
    simp only [List.getLast?_singleton, Option.some.injEq] at h
    subst h
    have hm : mass cum [f] = f.theta * f.depth := by simp [mass, slab, hl f (by simp), h0]
    rw [hm, mul_comm]
    refine ⟨le_rfl, fun _ e x hx => ?_⟩
    simp only [List.head?_cons, Option.mem_some_iff] at hx
    subst hx
    rw [e, mul_comm]
  | f :: g :: t, b, hl, hd, hp, h => by
    rw [List.getLast?_cons_cons] at h
    obtain ⟨i1, i2⟩ := mass_one h0 (l := g :: t) (fun x hx => hl x (List.mem_cons_of_mem _ hx)) hd.2
      (fun x hx => hp x (List.mem_cons_of_mem _ hx)) h
    have hlt : g.theta < f.theta := hd.1 (by rw [hl f (by simp), hl g (by simp)])
    have hf := hp f (by simp)
    rw [mass_pair h0 (hl f (by simp)) (hl g (by simp))]
    refine ⟨by have := mul_pos hf (sub_pos.mpr hlt); linarith, fun hc e x hx => ?_⟩
    simp only [List.head?_cons, Option.mem_some_iff] at hx
    subst hx
    have := i2 (fun x hx => hc x (List.mem_cons_of_mem _ hx)) e g (by simp)
    have := mul_le_mul_of_nonneg_right (hc f (by simp)) (sub_pos.mpr hlt).le
    nlinarith

end Exact
end LGAR
