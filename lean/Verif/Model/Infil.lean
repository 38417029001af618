import Verif.Model.Merge
/-
Infiltration: /repo/src/lgar.cxx 1941-2229 (lgar_insert_water, lgar_create_surficial_front, lgar_calc_dry_depth).
-/
namespace LGAR

variable {α : Type} [Add α] [Sub α] [Mul α] [Div α] [Neg α] [Zero α] [One α] [OfScientific α]
  [LT α] [LE α] [DecidableLT α] [DecidableLE α] [BEq α] [CMath α]

/-- Loop at lgar.cxx 2010-2015: `bottom_sum` over the layers `fp-1, ..., 1`; `n = fp - k` counts down,
`n` is the layer visited next. -/
def fpBottomSum (g : Geo α) : Nat → α → Res α
  | 0, s => .ok s
  | n + 1, s => do
    let sk ← g.soil (n + 1)
    let ff ← idx g.frozen (n + 1)
    let c1 ← idx g.cum (n + 1)
    let c0 ← idx g.cum n
    let q ← cdiv (c1 - c0) (sk.Ksat * ff)
    fpBottomSum g n (s + q)

/-- Loop at lgar.cxx 2034-2038: water content of the fully saturated profile; `n` layers remain, `k` is next. -/
def maxStorageGo (g : Geo α) : Nat → Nat → α → Res α
  | 0, _, s => .ok s
  | n + 1, k, s => do
    let sk ← g.soil k
    let c1 ← idx g.cum k
    let c0 ← idxPred g.cum k
    maxStorageGo g n (k + 1) (s + sk.thetaE * (c1 - c0))

/-- `max_storage`, lgar.cxx 2033-2038. -/
def maxStorage (g : Geo α) : Res α := maxStorageGo g g.numLayers 1 0

/-- Potential infiltration rate before the storage cap, lgar.cxx 1961-2031.  `nFd` is `wf_free_drainage_demand`. -/
def fpPotential (fuel : Nat) (closed : Bool) (nint : Int) (g : Geo α) (dt aetDemand ponded precip : α) (nFd : Nat)
    (head : List (Front α)) : Res α := do
  let hp := CMath.fmax (ponded - precip * dt) 0
  let fd ← derefOpt head (listFindFront (Int.ofNat nFd) head [])
  let fdNext := listFindFront (Int.ofNat nFd + 1) head []
  let h0 ← deref head 0
  let s ← g.soil fd.layer
  let ff ← idx g.frozen h0.layer
  let Ksat := s.Ksat * ff
  let Geff ← if head.length = g.numLayers then .ok 0
    else do
      let below ← derefOpt head fdNext
      calcGeff fuel closed below.theta s.thetaE s.thetaE s.thetaR s.vgAlpha s.vgN s.vgM Ksat nint s.bcLambda s.bcPsib
  let fp ← if fd.layer = 1 then do
      let q ← cdiv (Geff + hp) fd.depth
      .ok (Ksat * (1 + q))
    else do
      let base ← idxPred g.cum fd.layer
      let b0 ← cdiv (fd.depth - base) Ksat
      let bs ← fpBottomSum g (fd.layer - 1) b0
      let q1 ← cdiv fd.depth bs
      let q2 ← cdiv ((Geff + hp) * Ksat) fd.depth
      .ok (q1 + q2)
  let sTop ← g.soil h0.layer
  if fd.layer = g.numLayers ∧ (fd.theta == sTop.thetaE) = true ∧ g.numLayers = head.length then do
    let q ← cdiv aetDemand dt
    return CMath.fmin fp q
  else return fp

/-- Potential infiltration rate `f_p`, lgar.cxx 1961-2042: limited by the free storage of the column. -/
def fpCapacity (fuel : Nat) (closed : Bool) (nint : Int) (g : Geo α) (dt aetDemand ponded precip : α) (nFd : Nat)
    (head : List (Front α)) : Res α := do
  let fp ← fpPotential fuel closed nint g dt aetDemand ponded precip nFd head
  let mass ← massBal g.cum head
  let mx ← maxStorage g
  let cap ← cdiv (mx - mass) dt
  return if cap < fp then cap else fp

/-- What happens to the ponded water once `f_p` is known, lgar.cxx 2049-2091:
`(runoff, volin_this_timestep, ponded_depth_cm)`.  When `ponded_depth_temp` equals `ponded_depth_max_cm > 0`, none of
the branches assigns anything (`volin` keeps its old value). -/
def partitionPond (dt ponded volin pondMax fp : α) : Res (α × α × α) := do
  let temp := CMath.fmax (ponded - fp * dt - 0 * 0) 0
  let z ← cdiv 0 dt
  let fpCm := fp * dt + z
  if 0 < pondMax then
    if temp < pondMax then
      let v := CMath.fmin ponded fpCm
      return (0, v, ponded - v)
    else if pondMax < temp then
      return (temp - pondMax, fpCm, pondMax)
    else return (0, volin, ponded)
  else
    let v := CMath.fmin ponded fpCm
    return (if ponded < fpCm then 0 else ponded - v, v, 0)

/-- lgar_insert_water, lgar.cxx 1941-2092: `(runoff, volin_this_timestep, ponded_depth_cm)`. -/
def insertWater (fuel : Nat) (closed : Bool) (nint : Int) (g : Geo α) (dt aetDemand ponded volin precip : α)
    (nFd : Nat) (pondMax : α) (head : List (Front α)) : Res (α × α × α) := do
  let fp ← fpCapacity fuel closed nint g dt aetDemand ponded precip nFd head
  partitionPond dt ponded volin pondMax fp

/-- Infiltrated volume, water left on the surface and moisture of the new front, lgar.cxx 2122-2146. -/
def surficialSplit (ponded dryDepth theta1 thetaE : α) : Res (α × α × α) :=
  if ponded < dryDepth * (thetaE - theta1) then do
    let q ← cdiv ponded dryDepth
    return (ponded, 0, CMath.fmin (theta1 + q) thetaE)
  else return (dryDepth * (thetaE - theta1), ponded - dryDepth * (thetaE - theta1), thetaE)

/-- The new surficial front with its psi and K, lgar.cxx 2098-2157: `(ponded_depth_cm, volin, list)`.
The K value is multiplied by the frozen factor a second time at line 2155, as in the code. -/
def createFront (g : Geo α) (ponded dryDepth theta1 : α) (head : List (Front α)) :
    Res (α × α × List (Front α)) := do
  let s ← g.soil 1
  let (volin, ponded', thetaNew) ← surficialSplit ponded dryDepth theta1 s.thetaE
  let l := listInsertFirst 0 0 dryDepth thetaNew 1 1 false head
  let ff ← idx g.frozen 1
  let Se ← calcSeFromTheta thetaNew s.thetaE s.thetaR
  let psi ← calcHFromSe Se s.vgAlpha s.vgM s.vgN
  let K ← calcKFromSe Se (s.Ksat * ff) s.vgM
  let c ← deref l 0
  return (ponded', volin, l.set 0 { c with psi := psi, K := K * ff, dzdt := 0 })

/-- lgar_create_surficial_front, lgar.cxx 2098-2171: `(ponded_depth_cm, volin, list)`. -/
def createSurficial (g : Geo α) (ponded dryDepth theta1 : α) (head : List (Front α)) :
    Res (α × α × List (Front α)) := do
  let (ponded', volin, l1) ← createFront g ponded dryDepth theta1 head
  match head with
  | [] => return (ponded', volin, l1)
  | n :: _ =>
    if n.depth < dryDepth then
      let l2 ← mergeFronts g l1
      let l3 ← crossLayer g l2
      return (ponded', volin, l3)
    else return (ponded', volin, l1)

/-- lgar_calc_dry_depth, lgar.cxx 2180-2229: `(dry_depth, delta_theta)`. -/
def calcDryDepth (fuel : Nat) (closed : Bool) (nint : Int) (g : Geo α) (dt : α) (head : List (Front α)) :
    Res (α × α) := do
  let c ← deref head 0
  let s ← g.soil c.layer
  let ff ← idx g.frozen c.layer
  let Ksat := s.Ksat * ff
  let delta := s.thetaE - c.theta
  let tau ← cdiv (dt * Ksat) (s.thetaE - c.theta)
  let Geff ← calcGeff fuel closed c.theta s.thetaE s.thetaE s.thetaR s.vgAlpha s.vgN s.vgM Ksat nint s.bcLambda
    s.bcPsib
  let r ← csqrt (tau * tau + 4.0 * tau * Geff)
  let dry := 0.5 * (tau + r)
  let bot ← idx g.cum c.layer
  return (CMath.fmin bot dry, delta)

end LGAR
