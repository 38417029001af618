import Verif.Spec.Solver
import Verif.Spec.Water
/-
What it means that a front carries its water along (C105): the water between a front and the profile below, as a stack of slabs.
-/
namespace LGAR

/-- The slabs from the surface down to depth `z` in layer `layer`, their water counted above the moisture `b`. -/
structure StackTo (g : Geo ℝ) (b : SoilProps ℝ → ℝ) (z : ℝ) (layer : Nat) (sl : List Slab) : Prop where
  length : sl.length = layer
  soil : ∀ (i : Nat) (x : Slab), sl[i]? = some x → g.soil (i + 1) = .ok x.soil
  base : ∀ (i : Nat) (x : Slab), sl[i]? = some x → x.base = b x.soil
  thick : ∀ (i : Nat) (x : Slab), sl[i]? = some x → x.thick = (if i + 1 = layer then z else layerTop g.cum (i + 2)) - layerTop g.cum (i + 1)

/-- How the search for the moisture ends (C89): with the wanted water to 1e-12 cm and the ET demand as it was, or too wet or too dry,
with the difference taken from the ET demand or not booked. -/
def SearchEnd (wanted found aet aet' : ℝ) : Prop :=
  (|found - wanted| ≤ 1e-12 ∧ aet' = aet) ∨
    (wanted + 1e-12 < found ∧ (found + aet' = wanted + aet + 1e-12 ∨ aet' = aet)) ∨
    (found < wanted - 1e-12 ∧ (found + aet' = wanted + aet - 2 * (wanted - found) + 1e-12 ∨ aet' = aet))

end LGAR
