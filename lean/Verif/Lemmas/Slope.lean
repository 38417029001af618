import Verif.Lemmas.Converge
import Verif.Spec.Slope
import Mathlib.Analysis.SpecialFunctions.Pow.Deriv
import Mathlib.Analysis.Calculus.MeanValue
/-
The slope of the water content of a stack of slabs (C89).
-/
namespace LGAR
open Real

theorem moistAt_deriv {s : SoilProps ℝ} (hs : s.Physical) {h : ℝ} (hh : 0 < h) : HasDerivAt (moistAt s) (-slopeAt s h) h := by
  have hu : 0 < s.vgAlpha * h := mul_pos hs.alpha hh
  have hb : 0 < 1 + (s.vgAlpha * h) ^ s.vgN := by positivity
  have d1 : HasDerivAt (fun x : ℝ => s.vgAlpha * x) s.vgAlpha h := by simpa using (hasDerivAt_id h).const_mul s.vgAlpha
  have d2 := d1.rpow_const (p := s.vgN) (.inl hu.ne')
  have d3 := (d2.const_add 1).rpow_const (p := s.vgM) (.inl hb.ne')
  have d4 := ((hasDerivAt_const h (s.thetaE - s.thetaR)).div d3 (rpow_pos_of_pos hb _).ne').const_add s.thetaR
  unfold moistAt
  refine d4.congr_deriv ?_
  unfold slopeAt
  rw [rpow_sub_one hb.ne', rpow_add_one hb.ne']
  have := (rpow_pos_of_pos hb s.vgM).ne'
  field_simp
  ring

theorem slopeAt_pos {s : SoilProps ℝ} (hs : s.Physical) {h : ℝ} (hh : 0 < h) : 0 < slopeAt s h := by
  unfold slopeAt
  have hu : 0 < s.vgAlpha * h := mul_pos hs.alpha hh
  have := sub_pos.mpr hs.gap
  have := hs.m_pos
  have := hs.n_pos
  have := hs.alpha
  positivity

/-- The slopes at two heads differ at most by the ratio of the heads to the power n. -/
theorem slopeAt_ratio {s : SoilProps ℝ} (hs : s.Physical) {lo hi a b N : ℝ} (hlo : 0 < lo) (a1 : lo ≤ a) (a2 : a ≤ hi) (b1 : lo ≤ b) (b2 : b ≤ hi)
    (hN : s.vgN ≤ N) : slopeAt s a ≤ (hi / lo) ^ N * slopeAt s b := by
  have ha : 0 < a := by linarith
  have hb : 0 < b := by linarith
  have hal := hs.alpha
  have hn := hs.n
  have hm := hs.m_pos
  have hr1 : 1 ≤ hi / lo := (one_le_div hlo).mpr (by linarith)
  have hr0 : 0 < hi / lo := by linarith
  have hhi : 0 ≤ hi := by linarith
  unfold slopeAt
  have hC : 0 < (s.thetaE - s.thetaR) * s.vgM * s.vgN * s.vgAlpha := by
    have := sub_pos.mpr hs.gap
    have := hs.n_pos
    positivity
  rw [mul_left_comm]
  refine mul_le_mul_of_nonneg_left ?_ hC.le
  have hua : 0 < s.vgAlpha * a := mul_pos hal ha
  have hub : 0 < s.vgAlpha * b := mul_pos hal hb
  have pa : 0 < 1 + (s.vgAlpha * a) ^ s.vgN := by positivity
  have pb : 0 < 1 + (s.vgAlpha * b) ^ s.vgN := by positivity
  have hpow : (hi / lo) ^ s.vgN ≤ (hi / lo) ^ N := rpow_le_rpow_of_exponent_le hr1 hN
  rcases le_total a b with hab | hab
  · -- a ≤ b
    have hr : b / a ≤ hi / lo := by gcongr
    have hba : 1 ≤ b / a := (one_le_div ha).mpr hab
    have hba0 : 0 < b / a := by linarith
    have eb : s.vgAlpha * b = b / a * (s.vgAlpha * a) := by field_simp
    have h1 : 1 + (s.vgAlpha * b) ^ s.vgN ≤ (b / a) ^ s.vgN * (1 + (s.vgAlpha * a) ^ s.vgN) := by
      rw [eb, mul_rpow hba0.le hua.le]
      have : 1 ≤ (b / a) ^ s.vgN := one_le_rpow hba hs.n_pos.le
      linarith
    have h2 : (1 + (s.vgAlpha * b) ^ s.vgN) ^ (s.vgM + 1) ≤
        ((b / a) ^ s.vgN) ^ (s.vgM + 1) * (1 + (s.vgAlpha * a) ^ s.vgN) ^ (s.vgM + 1) := by
      rw [← mul_rpow (by positivity) pa.le]
      exact rpow_le_rpow pb.le h1 (by linarith)
    have h3 : ((b / a) ^ s.vgN) ^ (s.vgM + 1) = (b / a) ^ s.vgN * (b / a) ^ (s.vgN - 1) := by
      rw [← rpow_mul hba0.le, ← rpow_add hba0]
      congr 1
      rw [hs.m]; field_simp; ring
    rw [h3] at h2
    rw [div_le_iff₀ (by positivity), mul_assoc, div_mul_eq_mul_div, ← mul_div_assoc, le_div_iff₀ (by positivity)]
    rw [eb, mul_rpow (z := s.vgN - 1) hba0.le hua.le, ← eb]
    have h4 : (b / a) ^ s.vgN ≤ (hi / lo) ^ N := (rpow_le_rpow hba0.le hr hs.n_pos.le).trans hpow
    calc (s.vgAlpha * a) ^ (s.vgN - 1) * (1 + (s.vgAlpha * b) ^ s.vgN) ^ (s.vgM + 1)
        ≤ (s.vgAlpha * a) ^ (s.vgN - 1) *
          ((b / a) ^ s.vgN * (b / a) ^ (s.vgN - 1) * (1 + (s.vgAlpha * a) ^ s.vgN) ^ (s.vgM + 1)) := by gcongr
      _ ≤ (s.vgAlpha * a) ^ (s.vgN - 1) *
          ((hi / lo) ^ N * (b / a) ^ (s.vgN - 1) * (1 + (s.vgAlpha * a) ^ s.vgN) ^ (s.vgM + 1)) := by gcongr
      _ = _ := by ring
  · -- b ≤ a
    have hr : a / b ≤ hi / lo := by gcongr
    have hba : 1 ≤ a / b := (one_le_div hb).mpr hab
    have hba0 : 0 < a / b := by linarith
    have ea : s.vgAlpha * a = a / b * (s.vgAlpha * b) := by field_simp
    have h2 : (1 + (s.vgAlpha * b) ^ s.vgN) ^ (s.vgM + 1) ≤ (1 + (s.vgAlpha * a) ^ s.vgN) ^ (s.vgM + 1) := by
      have : s.vgAlpha * b ≤ s.vgAlpha * a := by gcongr
      gcongr
    have h4 : (a / b) ^ (s.vgN - 1) ≤ (hi / lo) ^ N :=
      (rpow_le_rpow hba0.le hr (by linarith)).trans (rpow_le_rpow_of_exponent_le hr1 (by linarith))
    calc (s.vgAlpha * a) ^ (s.vgN - 1) / (1 + (s.vgAlpha * a) ^ s.vgN) ^ (s.vgM + 1)
        ≤ (s.vgAlpha * a) ^ (s.vgN - 1) / (1 + (s.vgAlpha * b) ^ s.vgN) ^ (s.vgM + 1) := by gcongr
      _ = (a / b) ^ (s.vgN - 1) * (s.vgAlpha * b) ^ (s.vgN - 1) / (1 + (s.vgAlpha * b) ^ s.vgN) ^ (s.vgM + 1) := by
        rw [ea, mul_rpow hba0.le hub.le]
      _ = (a / b) ^ (s.vgN - 1) * ((s.vgAlpha * b) ^ (s.vgN - 1) / (1 + (s.vgAlpha * b) ^ s.vgN) ^ (s.vgM + 1)) := by ring
      _ ≤ _ := by gcongr

theorem stackWater_deriv {sl : List Slab} (hs : SlabsOk sl) {h : ℝ} (hh : 0 < h) : HasDerivAt (stackWater sl) (-stackSlope sl h) h := by
  induction sl with
  | nil =>
    have : stackWater [] = fun _ => 0 := by funext x; simp [stackWater]
    rw [this]
    simpa [stackSlope] using hasDerivAt_const h (0 : ℝ)
  | cons x sl ih =>
    have e : stackWater (x :: sl) = fun h => x.water h + stackWater sl h := by funext h; exact stackWater_cons
    rw [e]
    have d1 := ((moistAt_deriv (hs x (by simp)).2 hh).sub_const x.base).const_mul x.thick
    refine (d1.add (ih fun y hy => hs y (by simp [hy]))).congr_deriv ?_
    simp [stackSlope]
    ring

theorem stackSlope_ratio {sl : List Slab} (hs : SlabsOk sl) {lo hi a b N : ℝ} (hlo : 0 < lo) (a1 : lo ≤ a) (a2 : a ≤ hi) (b1 : lo ≤ b)
    (b2 : b ≤ hi) (hN : ∀ x ∈ sl, x.soil.vgN ≤ N) : stackSlope sl a ≤ (hi / lo) ^ N * stackSlope sl b := by
  induction sl with
  | nil => simp [stackSlope]
  | cons x sl ih =>
    have h1 := ih (fun y hy => hs y (by simp [hy])) (fun y hy => hN y (by simp [hy]))
    have h2 := mul_le_mul_of_nonneg_left (slopeAt_ratio (hs x (by simp)).2 hlo a1 a2 b1 b2 (hN x (by simp))) (hs x (by simp)).1
    simp only [stackSlope, List.map_cons, List.sum_cons] at h1 ⊢
    linarith

theorem stackSlope_nonneg {sl : List Slab} (hs : SlabsOk sl) {h : ℝ} (hh : 0 < h) : 0 ≤ stackSlope sl h := by
  unfold stackSlope
  refine List.sum_nonneg fun y hy => ?_
  obtain ⟨x, hx, rfl⟩ := List.mem_map.mp hy
  exact mul_nonneg (hs x hx).1 (slopeAt_pos (hs x hx).2 hh).le

/-- Where heads do not differ too much and the slope at the head sought is neither tiny nor huge, the search has a steady slope. -/
theorem Gentle.steady {sl : List Slab} (hs : SlabsOk sl) {psi h lo hi N : ℝ} (hg : Gentle sl psi h lo hi N) :
    ∃ mu L, SteadySlope (stackWater sl) h lo hi mu L (max 1 (psi / 100)) := by
  obtain ⟨hlo, hi7, p1, p2, hbe, hab, hN, hratio, hmin, hmax⟩ := hg
  have hf : (1 : ℝ) ≤ max 1 (psi / 100) := le_max_left _ _
  generalize max 1 (psi / 100) = f0 at *
  have hl : lo ≤ h := by linarith
  have hh : h ≤ hi := by linarith
  have hQ : 0 < (hi / lo) ^ N := rpow_pos_of_pos (div_pos (by linarith) hlo) N
  let S := stackSlope sl '' Set.Icc lo hi
  have hS : S.Nonempty := ⟨_, h, ⟨hl, hh⟩, rfl⟩
  have hbdd : BddBelow S := ⟨0, by rintro _ ⟨x, hx, rfl⟩; exact stackSlope_nonneg hs (lt_of_lt_of_le hlo hx.1)⟩
  have low : ∀ a, lo ≤ a → a ≤ hi → sInf S ≤ stackSlope sl a := fun a a1 a2 => csInf_le hbdd ⟨a, ⟨a1, a2⟩, rfl⟩
  have high : ∀ a, lo ≤ a → a ≤ hi → stackSlope sl a / (hi / lo) ^ N ≤ sInf S := fun a a1 a2 => by
    refine le_csInf hS ?_
    rintro _ ⟨b, hb, rfl⟩
    rw [div_le_iff₀ hQ, mul_comm]
    exact stackSlope_ratio hs hlo a1 a2 hb.1 hb.2 hN
  have hmu := high h hl hh
  have hD0 : 0 ≤ stackSlope sl h := stackSlope_nonneg hs (by linarith)
  have hmu0 : 1e-13 ≤ sInf S := by
    refine le_trans ?_ hmu
    rw [le_div_iff₀ hQ, mul_comm]
    exact hmin
  have hmupos : 0 < sInf S := by norm_num at hmu0; linarith
  have hL := mul_le_mul_of_nonneg_right hratio hmupos.le
  refine ⟨sInf S, (hi / lo) ^ N * sInf S, hlo.le, hi7, hf, hbe, hab, fun a b a1 hab' b2 => ?_, hmu0, ?_, hL⟩
  · rcases hab'.lt_or_eq with hlt | rfl
    swap
    · simp
    obtain ⟨c, hc, he⟩ := exists_hasDerivAt_eq_slope (stackWater sl) (fun x => -stackSlope sl x) hlt
      (fun x hx => (stackWater_deriv hs (lt_of_lt_of_le hlo (a1.trans hx.1))).continuousAt.continuousWithinAt)
      (fun x hx => stackWater_deriv hs (lt_of_lt_of_le hlo (a1.trans hx.1.le)))
    have hba : 0 < b - a := sub_pos.mpr hlt
    have e : stackWater sl a - stackWater sl b = stackSlope sl c * (b - a) := by
      rw [eq_div_iff hba.ne'] at he
      linarith
    have c1 : lo ≤ c := a1.trans hc.1.le
    have c2 : c ≤ hi := hc.2.le.trans b2
    rw [e]
    refine ⟨mul_le_mul_of_nonneg_right (low c c1 c2) hba.le, mul_le_mul_of_nonneg_right ?_ hba.le⟩
    have := high c c1 c2
    rwa [div_le_iff₀ hQ, mul_comm] at this
  · exact (mul_le_mul_of_nonneg_left (low h hl hh) hQ.le).trans hmax

end LGAR
