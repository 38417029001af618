import Verif.Spec.Physical
/-
Moisture of a front within the range of the soil of its layer; layers with different soil types.
-/
namespace LGAR
variable {K : Type} [Field K] [LinearOrder K] [CMath K]

/-- Moisture between the residual and the saturated moisture of the soil of its layer, capillary head not negative. -/
def Bounded (g : Geo K) (f : Front K) : Prop :=
  ∃ s, g.soil f.layer = .ok s ∧ s.thetaR ≤ f.theta ∧ f.theta ≤ s.thetaE ∧ 0 ≤ f.psi

/-- Physically meaningful soils in every layer. -/
def PhysGeo (g : Geo K) : Prop := ∀ k s, 1 ≤ k → g.soil k = .ok s → s.Physical

/-- No two layers have the same soil type. -/
def DistinctTypes (soilType : List Int) (N : Nat) : Prop :=
  ∀ (i j : Nat) (t : Int), 1 ≤ i → i ≤ N → 1 ≤ j → j ≤ N → soilType[i]? = some t → soilType[j]? = some t → i = j

end LGAR
