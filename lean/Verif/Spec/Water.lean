import Verif.Spec.Fronts
import Verif.Num.Lawful
/-
Specification of water content and valid parameters.
-/
namespace LGAR

/-- Depth of the top of layer `k` (bottom of layer `k-1`); `cum[0]` is the surface. -/
def layerTop {K : Type} [Zero K] (cum : List K) (k : Nat) : K := cum.getD (k - 1) 0

/-- Physical water content (cm) of the fronts `l` below the front `above` (none at the surface): sum over the slices of
thickness times moisture, where the slice of a front runs from the front above it in the same layer, or else from the
top of its layer, down to its own depth. -/
def waterBelow {K : Type} [Add K] [Sub K] [Mul K] [Zero K] (cum : List K) : Option (Front K) → List (Front K) → K
  | _, [] => 0
  | above, f :: t =>
    let top := match above with
      | some p => if p.layer = f.layer then p.depth else layerTop cum f.layer
      | none => layerTop cum f.layer
    (f.depth - top) * f.theta + waterBelow cum (some f) t

/-- Physical water content of the column. -/
def water {K : Type} [Add K] [Sub K] [Mul K] [Zero K] (cum : List K) (l : List (Front K)) : K := waterBelow cum none l

/-- Every layer number is between 1 and the number of layers of the depth array. -/
def LayersInRange {K : Type} (cum : List K) (l : List (Front K)) : Prop :=
  ∀ f ∈ l, 1 ≤ f.layer ∧ f.layer < cum.length

/-- The parameter arrays are large enough and every layer has an existing soil type. -/
structure Geo.Valid {K : Type} (g : Geo K) : Prop where
  cum_len : g.cum.length = g.numLayers + 1
  frozen_len : g.numLayers < g.frozen.length
  soil_len : g.numLayers < g.soilType.length
  soil_ok : ∀ k, 1 ≤ k → k ≤ g.numLayers → ∃ s, g.soilType[k]? = some s ∧ 0 ≤ s ∧ s.toNat < g.soils.length

end LGAR
