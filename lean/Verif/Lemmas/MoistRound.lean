import Verif.Lemmas.Tools
import Verif.Lemmas.Damp
import Verif.Num.Correct
/-
The soil functions in correctly rounded arithmetic: what they keep.
-/
namespace LGAR
open Rounded

variable {α : Type} [Add α] [Sub α] [Mul α] [Div α] [Neg α] [Zero α] [One α] [OfScientific α]
  [LT α] [LE α] [DecidableLT α] [DecidableLE α] [BEq α] [CMath α] [Rounded α] [Correct α]

/-- The largest moisture that the code can compute for the soil: saturation, or the value of the retention curve at head 0. -/
noncomputable def SoilProps.top (s : SoilProps α) : ℝ := max (val s.thetaE) (val (s.thetaE - s.thetaR + s.thetaR))

/-- A soil with parameters as in the shipped tables, seen by a rounded arithmetic: `thetaR` is a number of the arithmetic, the
moisture range is positive and at most 1 and not smaller than what is left after adding and subtracting the residual moisture. -/
structure SoilProps.Sane (s : SoilProps α) : Prop where
  alpha : 0 < val s.vgAlpha
  m : 0 < val s.vgM ∧ val s.vgM ≤ 1
  gap : 0 < val (s.thetaE - s.thetaR) ∧ val (s.thetaE - s.thetaR) ≤ 1
  num : Correct.Rounds α (val s.thetaR) (val s.thetaR)
  back : val (s.thetaE - s.thetaR + s.thetaR - s.thetaR) ≤ val (s.thetaE - s.thetaR)

/-- Between residual moisture and the largest moisture. -/
def SaneRange (s : SoilProps α) (t : α) : Prop := val s.thetaR ≤ val t ∧ val t ≤ s.top

section ops
variable (a b : α)

theorem cr_nonneg {x y : ℝ} (h : Correct.Rounds α x y) (hx : 0 ≤ x) : 0 ≤ y := Correct.mono Correct.zero h hx
theorem cr_nonpos {x y : ℝ} (h : Correct.Rounds α x y) (hx : x ≤ 0) : y ≤ 0 := Correct.mono h Correct.zero hx
theorem cr_one_le {x y : ℝ} (h : Correct.Rounds α x y) (hx : 1 ≤ x) : 1 ≤ y := Correct.mono Correct.one h hx
theorem cr_le_one {x y : ℝ} (h : Correct.Rounds α x y) (hx : x ≤ 1) : y ≤ 1 := Correct.mono h Correct.one hx

/-- A difference is zero only if the numbers are equal. -/
theorem sub_val_zero {a b : α} (h : val (a - b) = 0) : val a = val b := by
  have := sub_err a b
  rw [h, abs_zero, MulZeroClass.mul_zero] at this
  have := abs_nonpos_iff.mp this
  linarith
end ops

theorem SoilProps.Sane.lt {s : SoilProps α} (hs : s.Sane) : val s.thetaR < val s.thetaE := by
  by_contra h
  exact absurd hs.gap.1 (not_lt.mpr (cr_nonpos (Correct.sub s.thetaE s.thetaR) (by linarith)))

theorem calcTheta_sane {s : SoilProps α} (hs : s.Sane) {h t : α} (hh : 0 ≤ val h)
    (he : calcThetaFromH h s.vgAlpha s.vgM s.vgN s.thetaE s.thetaR = .ok t) : SaneRange s t := by
  unfold calcThetaFromH at he
  simp only [bind_ok_iff, cpow_ok_iff, cdiv_ok_iff, pure_eq_ok, Except.ok.injEq] at he
  obtain ⟨p, ⟨k1, rfl⟩, q, ⟨k2, rfl⟩, r, ⟨k3, rfl⟩, rfl⟩ := he
  have h1 : 0 ≤ val (s.vgAlpha * h) := Rounded.mul_nonneg _ _ hs.alpha.le hh
  have h2 := Correct.pow_nonneg _ _ h1 k1
  have h3 : 1 ≤ val (1 + CMath.pow (s.vgAlpha * h) s.vgN) :=
    cr_one_le (Correct.add _ _) (by rw [val_one]; linarith)
  have h4 := Correct.one_le_pow _ s.vgM h3 hs.m.1.le
  set q := CMath.pow (1 + CMath.pow (s.vgAlpha * h) s.vgN) s.vgM with hq
  have hq0 : 0 < val q := by linarith
  have h5 : 0 ≤ val (1 / q) := cr_nonneg (Correct.div _ _ hq0.ne') (by rw [val_one]; positivity)
  have h6 : val (1 / q) ≤ 1 := cr_le_one (Correct.div _ _ hq0.ne') (by rw [val_one, div_le_one hq0]; exact h4)
  have h7 : 0 ≤ val (1 / q * (s.thetaE - s.thetaR)) := Rounded.mul_nonneg _ _ h5 hs.gap.1.le
  have h8 : val (1 / q * (s.thetaE - s.thetaR)) ≤ val (s.thetaE - s.thetaR) :=
    Correct.mono (Correct.mul _ _) (Correct.again (Correct.sub s.thetaE s.thetaR)) (by nlinarith [hs.gap.1])
  constructor
  · exact Correct.mono hs.num (Correct.add _ _) (by linarith)
  · exact le_max_of_le_right (Correct.mono (Correct.add _ _) (Correct.add _ _) (by linarith))

theorem calcSe_sane {s : SoilProps α} (hs : s.Sane) {t Se : α} (ht : SaneRange s t)
    (he : calcSeFromTheta t s.thetaE s.thetaR = .ok Se) : 0 ≤ val Se ∧ val Se ≤ 1 := by
  unfold calcSeFromTheta at he
  rw [cdiv_ok_iff] at he
  obtain ⟨_, rfl⟩ := he
  have hg := hs.gap.1
  have h0 : 0 ≤ val (t - s.thetaR) := cr_nonneg (Correct.sub _ _) (by linarith [ht.1])
  have h1 : val (t - s.thetaR) ≤ val (s.thetaE - s.thetaR) := by
    rcases le_max_iff.mp ht.2 with h | h
    · exact Correct.mono (Correct.sub _ _) (Correct.sub _ _) (by linarith)
    · exact (Correct.mono (Correct.sub _ _) (Correct.sub _ _) (by linarith)).trans hs.back
  exact ⟨cr_nonneg (Correct.div _ _ hg.ne') (by positivity),
    cr_le_one (Correct.div _ _ hg.ne') (by rw [div_le_one hg]; exact h1)⟩

theorem calcH_sane {s : SoilProps α} (hs : s.Sane) {Se psi : α} (h0 : 0 ≤ val Se) (h1 : val Se ≤ 1)
    (hp : calcHFromSe Se s.vgAlpha s.vgM s.vgN = .ok psi) : 0 ≤ val psi := by
  unfold calcHFromSe at hp
  simp only [bind_ok_iff, cpow_ok_iff, cdiv_ok_iff, pure_eq_ok, Except.ok.injEq] at hp
  obtain ⟨ia, ⟨_, rfl⟩, e, ⟨_, rfl⟩, p, ⟨k1, rfl⟩, en, ⟨_, rfl⟩, q, ⟨k2, rfl⟩, rfl⟩ := hp
  have hm : val (-1 / s.vgM) ≤ -1 := by
    refine Correct.mono (Correct.div _ _ hs.m.1.ne') Correct.negOne ?_
    rw [Correct.neg, val_one, div_le_iff₀ hs.m.1]
    linarith [hs.m.2]
  have hSe : 0 < val Se := by
    rcases h0.lt_or_eq with h | h
    · exact h
    · have := Correct.powOk_zero _ _ h.symm k1
      linarith
  have h2 := Correct.one_le_pow_neg Se (-1 / s.vgM) hSe h1 (by linarith)
  have h3 : 0 ≤ val (CMath.pow Se (-1 / s.vgM) - 1) := cr_nonneg (Correct.sub _ _) (by rw [val_one]; linarith)
  have h4 := Correct.pow_nonneg _ _ h3 k2
  exact Rounded.mul_nonneg _ _ (cr_nonneg (Correct.div _ _ hs.alpha.ne') (by rw [val_one]; exact (div_pos one_pos hs.alpha).le)) h4

theorem SoilProps.Sane.keeps {s : SoilProps α} (hs : s.Sane) : Keeps SaneRange (fun h : α => 0 ≤ val h) s where
  theta _ _ h he := calcTheta_sane hs h he
  head _ _ _ ht he hp := calcH_sane hs (calcSe_sane hs ht he).1 (calcSe_sane hs ht he).2 hp
  clamp o := by
    have := hs.lt
    have ht : val s.thetaE ≤ s.top := le_max_left _ _
    cases o with
    | none =>
      show _ ≤ val (CMath.fmax _ _) ∧ val (CMath.fmax _ _) ≤ _
      rw [fmax_val]
      exact ⟨le_max_left _ _, max_le (by linarith) ht⟩
    | some t =>
      show _ ≤ val (CMath.fmax _ _) ∧ val (CMath.fmax _ _) ≤ _
      rw [fmax_val, fmin_val]
      exact ⟨le_max_left _ _, max_le (by linarith) ((min_le_right _ _).trans ht)⟩
  clampTop t := by
    have := hs.lt
    have ht : val s.thetaE ≤ s.top := le_max_left _ _
    show _ ≤ val (CMath.fmax _ _) ∧ val (CMath.fmax _ _) ≤ _
    rw [fmax_val, fmin_val]
    exact ⟨le_max_left _ _, max_le (by linarith) ((min_le_left _ _).trans ht)⟩
  fresh ponded dry theta1 a b t Se hsp hSe h0 := by
    have hle : val t ≤ val s.thetaE := by
      unfold surficialSplit at hsp
      split at hsp
      · simp only [bind_ok_iff, pure_eq_ok, Except.ok.injEq, Prod.mk.injEq] at hsp
        obtain ⟨q, _, _, _, rfl⟩ := hsp
        rw [fmin_val]; exact min_le_right _ _
      · simp only [pure_eq_ok, Except.ok.injEq, Prod.mk.injEq] at hsp
        rw [hsp.2.2]
    refine ⟨?_, hle.trans (le_max_left _ _)⟩
    rw [Correct.sqrtOk_iff] at h0
    unfold calcSeFromTheta at hSe
    rw [cdiv_ok_iff] at hSe
    obtain ⟨_, rfl⟩ := hSe
    by_contra hc
    push Not at hc
    have hg := hs.gap
    have hd : val (t - s.thetaR) < 0 := by
      rcases (cr_nonpos (Correct.sub t s.thetaR) (by linarith)).lt_or_eq with h | h
      · exact h
      · exact absurd (sub_val_zero h) hc.ne
    have : val ((t - s.thetaR) / (s.thetaE - s.thetaR)) ≤ val (t - s.thetaR) := by
      refine Correct.mono (Correct.div _ _ hg.1.ne') (Correct.again (Correct.sub t s.thetaR)) ?_
      rw [div_le_iff₀ hg.1]
      nlinarith
    linarith

/-- The largest moisture exceeds saturation by a few rounding errors at most. -/
theorem SoilProps.Sane.top_le {s : SoilProps α} (hs : s.Sane) (hr : 0 ≤ val s.thetaR) (he : val s.thetaE ≤ 1) :
    s.top ≤ val s.thetaE + 3 * eps α := by
  have e0 : 0 ≤ eps α := eps_nonneg
  have e1 : eps α ≤ 1 / 2 ^ 52 := eps_le
  refine max_le (by linarith) ?_
  have h1 := abs_le.mp (sub_err s.thetaE s.thetaR)
  have h2 := abs_le.mp (add_err (s.thetaE - s.thetaR) s.thetaR)
  have hg := hs.gap
  have h3 : 0 ≤ val (s.thetaE - s.thetaR + s.thetaR) := cr_nonneg (Correct.add _ _) (by linarith)
  rw [abs_of_pos hg.1] at h1
  rw [abs_of_nonneg h3] at h2
  set w := val (s.thetaE - s.thetaR + s.thetaR)
  set d := val (s.thetaE - s.thetaR)
  have h4 : eps α * d ≤ eps α := by nlinarith
  have h5 : w ≤ 2 := by
    by_contra hc
    push Not at hc
    have : eps α * w ≤ 1 / 2 ^ 52 * w := mul_le_mul_of_nonneg_right e1 h3
    norm_num at this e1
    linarith
  nlinarith

end LGAR
