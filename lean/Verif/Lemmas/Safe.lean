import Verif.Lemmas.Mass
/-
Absence of undefined behaviour in the soil functions and array look-ups (any arithmetic).
-/
set_option linter.unusedSectionVars false
namespace LGAR

variable {α : Type} [Add α] [Sub α] [Mul α] [Div α] [Neg α] [Zero α] [One α] [OfScientific α]
  [LT α] [LE α] [DecidableLT α] [DecidableLE α] [BEq α] [CMath α] {fb : Guard}

theorem Spec.bindT {β γ : Type} {x : Res β} {f : β → Res γ} {Q : γ → Prop}
    (hx : Spec fb x fun _ => True) (hf : ∀ a, x = .ok a → Spec fb (f a) Q) : Spec fb (x >>= f) Q :=
  Spec.bind (fun _ => True) hx fun a ha _ => hf a ha

theorem spec_calcThetaFromH (h a m n e r : α) : Spec fb (calcThetaFromH h a m n e r) fun _ => True := by
  unfold calcThetaFromH
  refine Spec.bindT (spec_cpow fun _ => trivial) fun _ _ => ?_
  refine Spec.bindT (spec_cpow fun _ => trivial) fun _ _ => ?_
  refine Spec.bindT (spec_cdiv fun _ => trivial) fun _ _ => ?_
  exact Spec.pure trivial

theorem spec_calcSeFromH (h a m n : α) : Spec fb (calcSeFromH h a m n) fun _ => True := by
  unfold calcSeFromH
  split
  · exact Spec.pure trivial
  · refine Spec.bindT (spec_cpow fun _ => trivial) fun _ _ => ?_
    refine Spec.bindT (spec_cpow fun _ => trivial) fun _ _ => ?_
    exact spec_cdiv fun _ => trivial

theorem spec_calcKFromSe (Se Ks m : α) : Spec fb (calcKFromSe Se Ks m) fun _ => True := by
  unfold calcKFromSe
  refine Spec.bindT (spec_csqrt fun _ => trivial) fun _ _ => ?_
  refine Spec.bindT (spec_cdiv fun _ => trivial) fun _ _ => ?_
  refine Spec.bindT (spec_cpow fun _ => trivial) fun _ _ => ?_
  refine Spec.bindT (spec_cpow fun _ => trivial) fun _ _ => ?_
  refine Spec.bindT (spec_cpow fun _ => trivial) fun _ _ => ?_
  exact Spec.pure trivial

theorem spec_calcHFromSe (Se a m n : α) : Spec fb (calcHFromSe Se a m n) fun _ => True := by
  unfold calcHFromSe
  refine Spec.bindT (spec_cdiv fun _ => trivial) fun _ _ => ?_
  refine Spec.bindT (spec_cdiv fun _ => trivial) fun _ _ => ?_
  refine Spec.bindT (spec_cpow fun _ => trivial) fun _ _ => ?_
  refine Spec.bindT (spec_cdiv fun _ => trivial) fun _ _ => ?_
  refine Spec.bindT (spec_cpow fun _ => trivial) fun _ _ => ?_
  exact Spec.pure trivial

theorem spec_calcSeFromTheta (t e r : α) : Spec fb (calcSeFromTheta t e r) fun _ => True :=
  spec_cdiv fun _ => trivial

theorem spec_geffLoop (a m n Ks hi : α) (fuel : Nat) (h2 dh K1 G : α) :
    Spec .mem (geffLoop a m n Ks hi fuel h2 dh K1 G) fun _ => True := by
  induction fuel generalizing h2 dh K1 G with
  | zero => exact Spec.error (by simp [Err.bad, Guard.mem])
  | succ f ih =>
    unfold geffLoop
    split
    · refine Spec.bindT (spec_calcSeFromH ..) fun _ _ => ?_
      refine Spec.bindT (spec_calcKFromSe ..) fun _ _ => ?_
      refine Spec.bindT (spec_cdiv fun _ => trivial) fun _ _ => ?_
      exact ih ..
    · exact Spec.ok trivial

theorem spec_calcGeff (fuel : Nat) (closed : Bool) (t1 t2 e r a n m Ks : α) (nint : Int) (la ps : α) :
    Spec .mem (calcGeff fuel closed t1 t2 e r a n m Ks nint la ps) fun _ => True := by
  unfold calcGeff
  split
  · refine Spec.bindT (spec_calcSeFromTheta ..) fun _ _ => ?_
    refine Spec.bindT (spec_calcSeFromTheta ..) fun _ _ => ?_
    refine Spec.bindT (spec_calcHFromSe ..) fun _ _ => ?_
    refine Spec.bindT (spec_calcHFromSe ..) fun _ _ => ?_
    refine Spec.bindT (spec_cdiv fun _ => trivial) fun _ _ => ?_
    refine Spec.bindT (spec_calcKFromSe ..) fun _ _ => ?_
    refine Spec.bindT (spec_geffLoop ..) fun _ _ => ?_
    refine Spec.bindT (spec_cdiv fun _ => trivial) fun _ _ => ?_
    exact Spec.pure trivial
  · refine Spec.bindT (spec_calcSeFromTheta ..) fun _ _ => ?_
    refine Spec.bindT (spec_calcSeFromTheta ..) fun _ _ => ?_
    refine Spec.bindT (spec_cdiv fun _ => trivial) fun _ _ => ?_
    refine Spec.bindT (spec_cdiv fun _ => trivial) fun _ _ => ?_
    dsimp only
    split
    · split <;> exact Spec.pure trivial
    · exact Spec.pure trivial

theorem spec_soil {g : Geo α} (hg : g.Valid) {k : Nat} (h1 : 1 ≤ k) (h2 : k ≤ g.numLayers) :
    Spec fb (g.soil k) fun _ => True := by
  obtain ⟨s, hs, h0, hl⟩ := hg.soil_ok k h1 h2
  unfold Geo.soil
  rw [idx_ok_iff.mpr hs, ok_bind]
  unfold idxI
  rw [if_neg (by omega)]
  exact spec_idx hl trivial

theorem spec_frozen {g : Geo α} (hg : g.Valid) {k : Nat} (h2 : k ≤ g.numLayers) :
    Spec fb (idx g.frozen k) fun _ => True :=
  spec_idx (by have := hg.frozen_len; omega) trivial

theorem spec_cum {g : Geo α} (hg : g.Valid) {k : Nat} (h2 : k ≤ g.numLayers) :
    Spec fb (idx g.cum k) fun _ => True :=
  spec_idx (by have := hg.cum_len; omega) trivial

theorem spec_cumPred {g : Geo α} (hg : g.Valid) {k : Nat} (h1 : 1 ≤ k) (h2 : k ≤ g.numLayers) :
    Spec fb (idxPred g.cum k) fun _ => True :=
  spec_idxPred (by omega) (by have := hg.cum_len; omega) trivial

theorem spec_soilType {g : Geo α} (hg : g.Valid) {k : Nat} (h2 : k ≤ g.numLayers) :
    Spec fb (idx g.soilType k) fun _ => True :=
  spec_idx (by have := hg.soil_len; omega) trivial

theorem spec_psiKOf {g : Geo α} (hg : g.Valid) {k : Nat} (h1 : 1 ≤ k) (h2 : k ≤ g.numLayers) (th : α) :
    Spec fb (psiKOf g k th) fun _ => True := by
  unfold psiKOf
  refine Spec.bindT (spec_soil hg h1 h2) fun _ _ => ?_
  refine Spec.bindT (spec_frozen hg h2) fun _ _ => ?_
  refine Spec.bindT (spec_calcSeFromTheta ..) fun _ _ => ?_
  refine Spec.bindT (spec_calcHFromSe ..) fun _ _ => ?_
  refine Spec.bindT (spec_calcKFromSe ..) fun _ _ => ?_
  exact Spec.pure trivial

theorem spec_massBalGo {g : Geo α} (hg : g.Valid) (l : List (Front α))
    (hl : ∀ f ∈ l, 1 ≤ f.layer ∧ f.layer ≤ g.numLayers) (s : α) :
    Spec fb (massBalGo g.cum s l) fun _ => True := by
  induction l generalizing s with
  | nil => exact Spec.ok trivial
  | cons f t ih =>
    have hf := hl f (by simp)
    have ht : ∀ f ∈ t, 1 ≤ f.layer ∧ f.layer ≤ g.numLayers := fun g hg => hl g (by simp [hg])
    unfold massBalGo
    refine Spec.bindT (spec_cumPred hg hf.1 hf.2) fun _ _ => ?_
    cases t with
    | nil => exact ih ht _
    | cons n t => simp only; split <;> exact ih ht _

end LGAR
