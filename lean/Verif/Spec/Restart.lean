import Verif.Spec.Twin
/-
What an Update needs to know of the past (C92).
-/
namespace LGAR
variable {α : Type}

/-- The same fronts, soils, parameters with clock, inputs and water on the surface.  The books, the routing, the outputs and the copy of
the previous fronts may differ. -/
structure SameSoil (s t : State α) : Prop where
  head : t.head = s.head
  soils : t.soils = s.soils
  p : t.p = s.p
  calib : t.calib = s.calib
  precip : t.precipMm = s.precipMm
  pet : t.petMm = s.petMm
  pond : t.mb.volonT = s.mb.volonT

/-- The water moved in the last Update is the same: rain, infiltration, surface water left, storage, actual and potential ET,
percolation, runoff. -/
structure SameFluxes (s t : State α) : Prop where
  precip : t.mb.volprecipT = s.mb.volprecipT
  infil : t.mb.volinT = s.mb.volinT
  pond : t.mb.volonT = s.mb.volonT
  storage : t.mb.volendT = s.mb.volendT
  aet : t.mb.volAETT = s.mb.volAETT
  pet : t.mb.volPETT = s.mb.volPETT
  rech : t.mb.volrechT = s.mb.volrechT
  runoff : t.mb.volrunoffT = s.mb.volrunoffT

/-- At least one ordinate, as many as the object says, and a queue with one place more. -/
def Routable (s : State α) : Prop :=
  s.giuhOrd ≠ [] ∧ s.numGiuh = s.giuhOrd.length ∧ s.giuhQueue.length = s.giuhOrd.length + 1

end LGAR
