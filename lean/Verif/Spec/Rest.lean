import Verif.Spec.Physical
import Verif.Model.Update
/-
A column at rest: one front per layer, all at the same head.  Calls of Update without rain and without evaporative demand.
-/
namespace LGAR

/-- A column of physical soils: layer bottoms increase from 0, every layer has a soil and a frost factor >= 0. -/
structure Ground (g : Geo ℝ) : Prop where
  pos : 0 < g.numLayers
  soil : ∀ k, 1 ≤ k → k ≤ g.numLayers → ∃ s, g.soil k = .ok s ∧ s.Physical
  frost : ∀ k, 1 ≤ k → k ≤ g.numLayers → ∃ ff, g.frozen[k]? = some ff ∧ 0 ≤ ff
  top : g.cum[0]? = some 0
  cum : ∀ k, k < g.numLayers → ∃ a b, g.cum[k]? = some a ∧ g.cum[k + 1]? = some b ∧ a < b

/-- The front of layer `k` in a column at rest at head `psi`. -/
structure RestFront (g : Geo ℝ) (psi : ℝ) (k : Nat) (f : Front ℝ) : Prop where
  layer : f.layer = k
  number : f.front = (k : Int)
  bottom : f.toBottom = true
  speed : f.dzdt = 0
  head : f.psi = psi
  cond : 0 ≤ f.K
  depth : g.cum[k]? = some f.depth
  theta : ∃ s, g.soil k = .ok s ∧ s.Physical ∧ calcThetaFromH psi s.vgAlpha s.vgM s.vgN s.thetaE s.thetaR = .ok f.theta

/-- One front per layer, at the bottom of the layer, not moving, at head `psi`. -/
structure Rest (g : Geo ℝ) (psi : ℝ) (l : List (Front ℝ)) : Prop where
  len : l.length = g.numLayers
  front : ∀ i f, l[i]? = some f → RestFront g psi (i + 1) f

/-- Updates without rain and without evaporative demand, one for each array of soil temperatures. -/
noncomputable def idle (fuel : Nat) (sa : Bool) : List (List ℝ) → State ℝ → Res (State ℝ)
  | [], s => .ok s
  | t :: ts, s => do
    let s1 ← update fuel sa { s with precipMm := 0, petMm := 0, p := { s.p with soilTemp := t } }
    idle fuel sa ts s1

/-- The same fronts except for their conductivities. -/
def SameFronts (l l' : List (Front ℝ)) : Prop := l.map (fun f => { f with K := 0 }) = l'.map fun f => { f with K := 0 }

end LGAR
