import Verif.Spec.Water
import Verif.Spec.Place
/-
Smallest and largest amount of water a column can hold.
-/
namespace LGAR
variable {K : Type} [Field K] [LinearOrder K] [CMath K]

/-- Water in the column when layer `k` has moisture `th k` throughout. -/
def filledTo (th : Nat → K) (cum : List K) (numLayers : Nat) : K :=
  ((List.range' 1 numLayers).map fun k => th k * (cum.getD k 0 - layerTop cum k)).sum

/-- Every moisture is between `lo` and `hi` of its layer. -/
def MoistureWithin (lo hi : Nat → K) (l : List (Front K)) : Prop := ∀ f ∈ l, lo f.layer ≤ f.theta ∧ f.theta ≤ hi f.layer

end LGAR
