import Verif.Num.Real
/-
Soils with physically meaningful van Genuchten parameters.
-/
namespace LGAR

/-- Residual below saturated moisture, positive curve parameters, n > 1, m = 1 - 1/n, positive conductivity. -/
structure SoilProps.Physical {K : Type} [Field K] [LinearOrder K] (s : SoilProps K) : Prop where
  res : 0 ≤ s.thetaR
  gap : s.thetaR < s.thetaE
  alpha : 0 < s.vgAlpha
  n : 1 < s.vgN
  m : s.vgM = 1 - 1 / s.vgN
  ksat : 0 < s.Ksat

section
variable {K : Type} [Field K] [LinearOrder K] [IsStrictOrderedRing K]

theorem SoilProps.Physical.m_pos {s : SoilProps K} (h : s.Physical) : 0 < s.vgM := by
  have := h.n
  rw [h.m, sub_pos, div_lt_one (by linarith)]; exact this

theorem SoilProps.Physical.m_lt {s : SoilProps K} (h : s.Physical) : s.vgM < 1 := by
  have := h.n
  have : 0 < 1 / s.vgN := by positivity
  rw [h.m]; linarith

theorem SoilProps.Physical.n_pos {s : SoilProps K} (h : s.Physical) : 0 < s.vgN := by linarith [h.n]

end

/-- A loam-like soil: n = 2, m = 1/2. -/
noncomputable def loam : SoilProps ℝ :=
  { thetaR := 0, thetaE := 1, vgAlpha := 1/100, vgN := 2, vgM := 1/2, bcLambda := 1, bcPsib := 10, hMin := 1,
    Ksat := 1, thetaWp := 15/100 }

theorem loam_physical : loam.Physical := by
  refine ⟨?_, ?_, ?_, ?_, ?_, ?_⟩ <;> norm_num [loam]

end LGAR
