import Verif.Spec.Carry
import Verif.Spec.Slope
import Verif.Model.Update
/-
A dry spell over a column with one front per layer (C106).
-/
namespace LGAR

/-- The slabs of the whole column; their water is counted from zero moisture. -/
def ColumnStack (g : Geo ℝ) (sl : List Slab) : Prop := StackTo g (fun _ => 0) (layerTop g.cum (g.numLayers + 1)) g.numLayers sl

/-- Ten times the largest first step of a search from a head up to `hi`. -/
noncomputable def headMargin (hi : ℝ) : ℝ := 10 * max 1 (hi / 100)

/-- A range of heads over which the water of the column changes steadily with the head. -/
structure Mild (sl : List Slab) (lo hi N : ℝ) : Prop where
  lo_pos : 0 < lo
  wide : lo + headMargin hi ≤ hi - headMargin hi
  hi_le : hi ≤ 1e7
  shape : ∀ x ∈ sl, x.soil.vgN ≤ N
  ratio : (hi / lo) ^ N ≤ 90
  steep : ∀ h, lo ≤ h → h ≤ hi → (hi / lo) ^ N * 1e-13 ≤ stackSlope sl h
  flat : ∀ h, lo ≤ h → h ≤ hi → (hi / lo) ^ N * stackSlope sl h ≤ 10

/-- The column at head `psi` can lose `P` cm of water in `n` sub-timesteps without leaving the range. -/
structure Room (sl : List Slab) (lo hi psi P : ℝ) (n : Nat) : Prop where
  dry : stackWater sl (hi - headMargin hi) + P + n * 1e-12 ≤ stackWater sl psi
  wet : stackWater sl psi + n * 1e-12 ≤ stackWater sl (lo + headMargin hi)

/-- Updates without rain, one for each potential ET (mm/h) and array of soil temperatures. -/
noncomputable def drySpell (fuel : Nat) (sa : Bool) : List (ℝ × List ℝ) → State ℝ → Res (State ℝ)
  | [], s => .ok s
  | x :: xs, s => do
    let s1 ← update fuel sa { s with precipMm := 0, petMm := x.1, p := { s.p with soilTemp := x.2 } }
    drySpell fuel sa xs s1

/-- Potential ET of a dry spell in cm; `res` is the length of the forcing interval in hours. -/
noncomputable def spellPet (res : ℝ) (xs : List (ℝ × List ℝ)) : ℝ := (xs.map fun x => x.1 * 0.1 * res).sum

end LGAR
