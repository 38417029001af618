import Verif.Lemmas.Infil
import Verif.Lemmas.PassSafe
import Verif.Model.Dzdt
import Mathlib.Algebra.BigOperators.Intervals
/-
Lemmas about lgar_dzdt_calc.
-/
set_option linter.unusedSectionVars false
namespace LGAR

section Free
variable {α : Type} [Add α] [Sub α] [Mul α] [Div α] [Neg α] [Zero α] [One α] [OfScientific α]
  [LT α] [LE α] [DecidableLT α] [DecidableLE α] [BEq α] [CMath α]

/-- What `dzdtGo` does to each front. -/
theorem dzdtGo_get {fuel : Nat} {closed : Bool} {nint : Int} {hp : α} {g : Geo α} : ∀ {l l' : List (Front α)},
    dzdtGo fuel closed nint hp g l = .ok l' →
      l'.length = l.length ∧ ∀ i c, l[i]? = some c → ¬ c.K < 0 ∧
        ((l[i + 1]? = none → l'[i]? = some c) ∧
         ∀ n, l[i + 1]? = some n → ∃ s ff v, g.soil c.layer = .ok s ∧ g.frozen[c.layer]? = some ff ∧
          dzdtVel fuel closed nint hp g s ff c n = .ok v ∧ l'[i]? = some { c with dzdt := v })
  | [], l', h => by simp [dzdtGo] at h; subst h; simp
  | [c], l', h => by
    unfold dzdtGo at h
    split at h
    · exact absurd h (by simp)
    · simp only [bind_ok_iff, idx_ok_iff] at h
      obtain ⟨s, hs, ff, hff, h⟩ := h
      simp only [Except.ok.injEq] at h
      subst h
      refine ⟨rfl, fun i c' hi => ?_⟩
      cases i with
      | zero =>
        simp only [List.getElem?_cons_zero, Option.some.injEq] at hi
        subst hi
        exact ⟨‹_›, fun _ => rfl, fun n hn => by simp at hn⟩
      | succ i => simp at hi
  | c :: n :: t, l', h => by
    unfold dzdtGo at h
    split at h
    · exact absurd h (by simp)
    · simp only [bind_ok_iff, idx_ok_iff] at h
      obtain ⟨s, hs, ff, hff, v, hv, r, hr, h⟩ := h
      simp only [Except.ok.injEq] at h
      subst h
      obtain ⟨hlen, hall⟩ := dzdtGo_get hr
      refine ⟨by simp [hlen], fun i c' hi => ?_⟩
      cases i with
      | zero =>
        simp only [List.getElem?_cons_zero, Option.some.injEq] at hi
        subst hi
        refine ⟨‹_›, fun hn => by simp at hn, fun n' hn => ?_⟩
        simp only [List.getElem?_cons_succ, List.getElem?_cons_zero, Option.some.injEq] at hn
        subst hn
        exact ⟨s, ff, v, hs, hff, hv, rfl⟩
      | succ i =>
        simp only [List.getElem?_cons_succ] at hi ⊢
        exact hall i c' hi

theorem dzdtCalc_go {fuel : Nat} {closed : Bool} {nint : Int} {hp : α} {g : Geo α} {l l' : List (Front α)}
    (h : dzdtCalc fuel closed nint hp g l = .ok l') : l ≠ [] ∧ dzdtGo fuel closed nint hp g l = .ok l' := by
  unfold dzdtCalc at h
  split at h
  · exact absurd h (by simp)
  · rename_i hne
    exact ⟨by simpa using hne, h⟩

/-- Everything of a front except its speed. -/
def Front.noSpeed (f : Front α) : α × α × α × α × Nat × Int × Bool :=
  (f.depth, f.theta, f.psi, f.K, f.layer, f.front, f.toBottom)

theorem dzdtCalc_frame {fuel : Nat} {closed : Bool} {nint : Int} {hp : α} {g : Geo α} {l l' : List (Front α)}
    (h : dzdtCalc fuel closed nint hp g l = .ok l') : l'.map Front.noSpeed = l.map Front.noSpeed := by
  obtain ⟨_, h⟩ := dzdtCalc_go h
  obtain ⟨hlen, hall⟩ := dzdtGo_get h
  apply List.ext_getElem?
  intro i
  rw [List.getElem?_map, List.getElem?_map]
  cases hi : l[i]? with
  | none =>
    have : l'[i]? = none := by rw [List.getElem?_eq_none_iff] at hi ⊢; omega
    rw [this]
  | some c =>
    obtain ⟨_, h1, h2⟩ := hall i c hi
    cases hn : l[i + 1]? with
    | none => rw [h1 hn]
    | some n =>
      obtain ⟨_, _, v, _, _, _, hv⟩ := h2 n hn
      rw [hv]; rfl

section Safety
variable {fb : Guard}

theorem spec_dzdtDenom {g : Geo α} (hg : g.Valid) {layer : Nat} (hl : layer ≤ g.numLayers) (psi : α) :
    ∀ {n k : Nat} {b : α}, 1 ≤ k → k + n ≤ layer → Spec fb (dzdtDenom g layer psi n k b) fun _ => True
  | 0, _, _, _, _ => Spec.ok trivial
  | n + 1, k, b, h1, h2 => by
    unfold dzdtDenom
    refine Spec.bindT ?_ fun t _ => spec_dzdtDenom hg hl psi (by omega) (by omega)
    unfold dzdtTerm
    refine Spec.bindT (spec_soil hg (by omega) (by omega)) fun s _ => ?_
    refine Spec.bindT (spec_calcThetaFromH ..) fun th _ => ?_
    refine Spec.bindT (spec_calcSeFromTheta ..) fun Se _ => ?_
    refine Spec.bindT (spec_frozen hg (by omega)) fun ff _ => ?_
    refine Spec.bindT (spec_calcKFromSe ..) fun kk _ => ?_
    refine Spec.bindT (spec_cum hg (by omega)) fun c1 _ => ?_
    refine Spec.bindT (spec_cumPred hg (by omega) (by omega)) fun c0 _ => ?_
    exact spec_cdiv fun _ => trivial

theorem spec_dzdtOne {fuel : Nat} {closed : Bool} {nint : Int} {hp : α} {g : Geo α} (hg : g.Valid) (s : SoilProps α)
    (ff : α) {c n : Front α} (h1 : 1 ≤ c.layer) (h2 : c.layer ≤ g.numLayers) :
    Spec .mem (dzdtOne fuel closed nint hp g s ff c n) fun _ => True := by
  unfold dzdtOne
  refine Spec.bindT ?_ fun bs _ => ?_
  · unfold dzdtBottomSum
    refine Spec.ite (fun _ => ?_) (fun _ => Spec.ok trivial)
    refine Spec.bindT (spec_cumPred hg h1 h2) fun base _ => ?_
    refine Spec.bindT (spec_cdiv fun _ => trivial) fun q _ => Spec.ok trivial
  · refine Spec.ite (fun _ => Spec.error (by simp [Err.bad])) (fun _ => ?_)
    dsimp only
    refine Spec.bindT (spec_calcGeff ..) fun G _ => ?_
    refine Spec.bindT ?_ fun v _ => Spec.pure trivial
    unfold dzdtRaw
    dsimp only
    refine Spec.ite (fun _ => ?_) (fun _ => ?_)
    · refine Spec.ite (fun _ => ?_) (fun _ => Spec.ok trivial)
      refine Spec.bindT (spec_cdiv fun _ => trivial) fun i _ => ?_
      refine Spec.bindT (spec_cdiv fun _ => trivial) fun q _ => Spec.ok trivial
    · refine Spec.bindT (spec_dzdtDenom hg h2 _ (le_refl 1) (by omega)) fun d _ => ?_
      refine Spec.ite (fun _ => ?_) (fun _ => Spec.ok trivial)
      refine Spec.bindT (spec_cdiv fun _ => trivial) fun i _ => ?_
      refine Spec.bindT (spec_cdiv fun _ => trivial) fun q1 _ => ?_
      refine Spec.bindT (spec_cdiv fun _ => trivial) fun q2 _ => Spec.ok trivial

theorem spec_dzdtGo {fuel : Nat} {closed : Bool} {nint : Int} {hp : α} {g : Geo α} (hg : g.Valid) :
    ∀ {l : List (Front α)}, InRange g.numLayers l → Spec .mem (dzdtGo fuel closed nint hp g l) fun _ => True
  | [], _ => Spec.ok trivial
  | c :: t, hr => by
    obtain ⟨h1, h2⟩ := hr c (by simp)
    unfold dzdtGo
    refine Spec.ite (fun _ => Spec.error (by simp [Err.bad])) (fun _ => ?_)
    refine Spec.bindT (spec_soil hg h1 h2) fun s _ => ?_
    refine Spec.bindT (spec_frozen hg h2) fun ff _ => ?_
    cases t with
    | nil => exact Spec.ok trivial
    | cons n t =>
      refine Spec.bindT ?_ fun v _ => ?_
      · unfold dzdtVel
        exact Spec.ite (fun _ => Spec.ok trivial) (fun _ => spec_dzdtOne hg s ff h1 h2)
      · exact Spec.bindT (spec_dzdtGo hg (fun f hf => hr f (by simp [hf]))) fun r _ => Spec.ok trivial

end Safety
end Free

section Exact
variable {K : Type} [Field K] [LinearOrder K] [IsStrictOrderedRing K] [CMath K] [LawfulNum K]

/-- Conductivity of layer `k` at head `psi`, as the code computes it. -/
def layerK (g : Geo K) (k : Nat) (psi : K) : Res K := do
  let s ← g.soil k
  let th ← calcThetaFromH psi s.vgAlpha s.vgM s.vgN s.thetaE s.thetaR
  let Se ← calcSeFromTheta th s.thetaE s.thetaR
  let ff ← idx g.frozen k
  calcKFromSe Se (s.Ksat * ff) s.vgM

theorem dzdtTerm_val {g : Geo K} {layer k : Nat} {psi t : K} (h : dzdtTerm g layer psi k = .ok t) :
    ∃ kk c1 c0, layerK g (layer - k) psi = .ok kk ∧ kk ≠ 0 ∧ g.cum[k]? = some c1 ∧ 0 < k ∧ g.cum[k - 1]? = some c0 ∧
      t = (c1 - c0) / kk := by
  unfold dzdtTerm at h
  simp only [bind_ok_iff, idx_ok_iff, idxPred_ok_iff, cdiv_ok] at h
  obtain ⟨s, hs, th, hth, Se, hSe, ff, hff, kk, hk, c1, hc1, c0, ⟨h0, hc0⟩, hne, rfl⟩ := h
  refine ⟨kk, c1, c0, ?_, hne, hc1, h0, hc0, rfl⟩
  unfold layerK
  simp only [bind_ok_iff, idx_ok_iff]
  exact ⟨s, hs, th, hth, Se, hSe, ff, hff, hk⟩

open Finset in
theorem dzdtDenom_val {g : Geo K} {layer : Nat} {psi : K} {T Kf : Nat → K}
    (hT : ∀ k c1 c0, 0 < k → g.cum[k]? = some c1 → g.cum[k - 1]? = some c0 → T k = c1 - c0)
    (hK : ∀ k kk, layerK g k psi = .ok kk → Kf k = kk) :
    ∀ {n k : Nat} {b d : K}, dzdtDenom g layer psi n k b = .ok d →
      d = b + ∑ i ∈ range n, T (k + i) / Kf (layer - (k + i))
  | 0, k, b, d, h => by simp [dzdtDenom] at h; simp [h]
  | n + 1, k, b, d, h => by
    unfold dzdtDenom at h
    simp only [bind_ok_iff] at h
    obtain ⟨t, ht, h⟩ := h
    obtain ⟨kk, c1, c0, hk, _, hc1, h0, hc0, rfl⟩ := dzdtTerm_val ht
    rw [dzdtDenom_val hT hK h, Finset.sum_range_succ']
    have : ∀ i, k + 1 + i = k + (i + 1) := fun i => by omega
    simp only [this, Nat.add_zero]
    rw [hT k c1 c0 h0 hc1 hc0, hK _ _ hk]
    ring

open Finset in
theorem fpBottomSum_val {g : Geo K} {T Kf : Nat → K}
    (hT : ∀ k c1 c0, 0 < k → g.cum[k]? = some c1 → g.cum[k - 1]? = some c0 → T k = c1 - c0)
    (hK : ∀ k s ff, g.soil k = .ok s → g.frozen[k]? = some ff → Kf k = s.Ksat * ff) :
    ∀ {n : Nat} {b d : K}, fpBottomSum g n b = .ok d → d = b + ∑ i ∈ range n, T (i + 1) / Kf (i + 1)
  | 0, b, d, h => by simp [fpBottomSum] at h; simp [h]
  | n + 1, b, d, h => by
    unfold fpBottomSum at h
    simp only [bind_ok_iff, idx_ok_iff, cdiv_ok] at h
    obtain ⟨s, hs, ff, hff, c1, hc1, c0, hc0, q, ⟨_, rfl⟩, h⟩ := h
    rw [fpBottomSum_val hT hK h, Finset.sum_range_succ, hT (n + 1) c1 c0 (by omega) hc1 hc0, hK _ _ _ hs hff]
    ring

theorem dzdtClamp_zero {v : K} (h : 0 ≤ v) : 0 < dzdtClamp v ∧ dzdtClamp v ≤ 1e4 := by
  unfold dzdtClamp
  have e9 : (0 : K) < 1e-9 := by norm_num
  have e4 : (1e-9 : K) ≤ 1e4 := by norm_num
  have e0 : (0 : K) < 1e4 := by norm_num
  simp only [beq_iff_eq]
  by_cases hv : v = 0
  · simp only [hv, if_true]
    rw [if_neg (not_lt.mpr e4)]
    exact ⟨e9, e4⟩
  · simp only [hv, if_false]
    split
    · exact ⟨e0, le_refl _⟩
    · exact ⟨lt_of_le_of_ne h (Ne.symm hv), not_lt.mp ‹_›⟩

end Exact
end LGAR
