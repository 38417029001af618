import Verif.Spec.Fronts
/-
The part of the column structure that survives the exact coincidences that break the stacking of the layers
(C15_cross_stray_fails): every layer that occurs has a front at its bottom below which the layer does not occur, and the layers
below it follow.
-/
namespace LGAR
variable {α : Type}

/-- What `f` owes to the fronts `t` below it. -/
structure HeldUp (N : Nat) (cum : List α) (f : Front α) (t : List (Front α)) : Prop where
  /-- The layer exists. -/
  low : 1 ≤ f.layer
  high : f.layer ≤ N
  /-- A flagged front lies at the bottom of its layer. -/
  depth : f.toBottom = true → cum[f.layer]? = some f.depth
  /-- The front directly below a flagged one is in another layer. -/
  next : f.toBottom = true → ∀ g, t.head? = some g → g.layer ≠ f.layer
  /-- Below a front that is not flagged there is a flagged one of its layer. -/
  below : f.toBottom = false → ∃ g ∈ t, g.layer = f.layer ∧ g.toBottom = true
  /-- Below a front that is not in the deepest layer there is one in the next layer. -/
  deeper : f.layer ≠ N → ∃ g ∈ t, g.layer = f.layer + 1

/-- Every front is held by the fronts below it. -/
def Anchored (N : Nat) (cum : List α) : List (Front α) → Prop
  | [] => True
  | f :: t => HeldUp N cum f t ∧ Anchored N cum t

/-- The layer bottoms increase, and adding nothing to the deepest one leaves it (true for all floating-point numbers but NaN and
infinities). -/
structure Layered [Add α] [Mul α] [Zero α] [LT α] (N : Nat) (cum : List α) : Prop where
  inc : cum.Pairwise (· < ·)
  still : ∀ d, cum[N]? = some d → ∀ t, d + 0 * t = d

/-- The first front is in layer 1. -/
def StartsAtTop (l : List (Front α)) : Prop := ∃ f t, l = f :: t ∧ f.layer = 1

end LGAR
