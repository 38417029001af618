import Verif.Model.Basic
/-
Where the wetting fronts lie between two Updates (C65), stated on the values read off a list of fronts.
-/
namespace LGAR

/-- Going down the list, depths do not decrease. -/
def DepthOrder {α : Type} [LE α] (l : List (Front α)) : Prop := (l.map (·.depth)).Pairwise (· ≤ ·)

/-- Every front lies below the surface and not below the bottom of the column. -/
def InColumn {α : Type} [LT α] [LE α] [OfNat α 0] (column : α) (l : List (Front α)) : Prop :=
  ∀ f ∈ l, 0 < f.depth ∧ f.depth ≤ column

/-- A front is wetter than the next one if both are in the same layer. -/
def WetterAbove {α : Type} [LT α] (l : List (Front α)) : Prop :=
  ∀ (i : Nat) f n, l[i]? = some f → l[i + 1]? = some n → f.layer = n.layer → n.theta < f.theta

end LGAR
