import Verif.Num.Real
import Verif.Spec.Water
/-
What "colder" means for C80.
-/
namespace LGAR

/-- The frozen-soil factors `cold` are positive and nowhere above the factors `warm` (layers are numbered from 1). -/
def Colder (cold warm : List ℝ) : Prop :=
  ∀ (k : Nat) (x y : ℝ), 1 ≤ k → cold[k]? = some x → warm[k]? = some y → 0 < x ∧ x ≤ y

/-- The same column with other frozen-soil factors. -/
def Geo.withFrost {α : Type} (g : Geo α) (fz : List α) : Geo α := { g with frozen := fz }

end LGAR
