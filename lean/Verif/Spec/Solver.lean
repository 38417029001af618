import Verif.Spec.Physical
import Mathlib.Analysis.SpecialFunctions.Pow.Real
/-
The question that lgar_theta_mass_balance answers, stated without the functions of the model: a stack of soil slabs under one
common capillary head is to hold a given amount of water.
-/
namespace LGAR

/-- Moisture of a soil at capillary head `h` (van Genuchten 1980). -/
noncomputable def moistAt (s : SoilProps ℝ) (h : ℝ) : ℝ :=
  s.thetaR + (s.thetaE - s.thetaR) / (1 + (s.vgAlpha * h) ^ s.vgN) ^ s.vgM

/-- A slab of soil; its water is counted above the moisture `base`. -/
structure Slab where
  thick : ℝ
  base : ℝ
  soil : SoilProps ℝ

/-- Water of a slab at head `h`. -/
noncomputable def Slab.water (x : Slab) (h : ℝ) : ℝ := x.thick * (moistAt x.soil h - x.base)

/-- Water of the stack at the common head `h`. -/
noncomputable def stackWater (sl : List Slab) (h : ℝ) : ℝ := (sl.map (·.water h)).sum

/-- The slabs that the arrays `delta_thickness`, `delta_theta` and the soils of the layers 1 to `layer` describe. -/
def SlabsOf (g : Geo ℝ) (dTheta dThick : List ℝ) (layer : Nat) (sl : List Slab) : Prop :=
  sl.length = layer ∧ ∀ i x, sl[i]? = some x → dThick[i + 1]? = some x.thick ∧ dTheta[i + 1]? = some x.base ∧
    g.soil (i + 1) = .ok x.soil

/-- Meaningful slabs. -/
def SlabsOk (sl : List Slab) : Prop := ∀ x ∈ sl, 0 ≤ x.thick ∧ x.soil.Physical

end LGAR
