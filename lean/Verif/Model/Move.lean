import Verif.Model.Dzdt
/-
lgar_move_wetting_fronts, /repo/src/lgar.cxx 964-1544.
-/
namespace LGAR

variable {α : Type} [Add α] [Sub α] [Mul α] [Div α] [Neg α] [Zero α] [One α] [OfScientific α]
  [LT α] [LE α] [DecidableLT α] [DecidableLE α] [BEq α] [CMath α]

/-- Accumulators of the loops over the layers above a front (lgar.cxx 1113-1138 and 1265-1294):
prior mass, new mass, `delta_thetas[0..]`, `delta_thickness[0..]` (entry 0 is not used). -/
structure MoveAcc (α : Type) where
  prior : α
  new : α
  dTheta : List α
  dThick : List α

/-- Moisture below a front at head `psi`, or 0 (lgar.cxx 1113-1138, 1265-1294). -/
def belowTheta (s : SoilProps α) (psi : Option α) : Res α :=
  match psi with
  | none => .ok 0
  | some p => calcThetaFromH p s.vgAlpha s.vgM s.vgN s.thetaE s.thetaR

/-- Loops at lgar.cxx 1113-1138 (`below = none`: theta_below = 0) and 1265-1294
(`below = some (psi_cm_below_old, psi_cm_below)`); layers `k, k+1, ...`, `n` left. -/
def moveLayers (g : Geo α) (psiOld psi : α) (below : Option (α × α)) : Nat → Nat → MoveAcc α → Res (MoveAcc α)
  | 0, _, a => .ok a
  | n + 1, k, a => do
    let s ← g.soil k
    let thOld ← calcThetaFromH psiOld s.vgAlpha s.vgM s.vgN s.thetaE s.thetaR
    let thBelowOld ← belowTheta s (below.map (fun b => b.1))
    let c1 ← idx g.cum k
    let c0 ← idxPred g.cum k
    let thick := c1 - c0
    let th ← calcThetaFromH psi s.vgAlpha s.vgM s.vgN s.thetaE s.thetaR
    let thBelow ← belowTheta s (below.map (fun b => b.2))
    moveLayers g psiOld psi below n (k + 1)
      { prior := a.prior + thick * (thOld - thBelowOld), new := a.new + thick * (th - thBelow),
        dTheta := a.dTheta ++ [thBelow], dThick := a.dThick ++ [thick] }

/-- `fmax(theta_r, fmin(theta_new, theta_e))` where `theta_new` may be NaN (`none`); C's fmin ignores a NaN. -/
def clampTheta (s : SoilProps α) : Option α → α
  | none => CMath.fmax s.thetaR s.thetaE
  | some t => CMath.fmax s.thetaR (CMath.fmin t s.thetaE)

/-- psi from theta (lines `Se = ...; current->psi_cm = ...`). -/
def psiOf (s : SoilProps α) (theta : α) : Res α := do
  let Se ← calcSeFromTheta theta s.thetaE s.thetaR
  calcHFromSe Se s.vgAlpha s.vgM s.vgN

/-- The deepest front interacting with precipitation and ET when there is one front per layer,
lgar.cxx 1087-1170. Result: new front and AET. -/
def moveDeepest (fuel : Nat) (g : Geo α) (dt precip : α) (isFd : Bool) (c old : Front α) (s : SoilProps α) (aet : α) :
    Res (Front α × α) := do
  let c := { c with depth := c.depth + c.dzdt * dt }
  let base ← idxPred g.cum c.layer
  let a0 : MoveAcc α := { prior := (old.depth - base) * (old.theta - 0), new := (c.depth - base) * (c.theta - 0),
                          dTheta := [0], dThick := [0] }
  let a ← moveLayers g old.psi c.psi none (c.layer - 1) 1 a0
  let prior := if isFd then a.prior + (precip - (0 + aet)) else a.prior
  let (th, aet) ← thetaMassBalance fuel g c.layer s c.psi a.new prior aet (a.dTheta ++ [0])
    (a.dThick ++ [c.depth - base])
  let theta := clampTheta s th
  let psi ← psiOf s theta
  return ({ c with theta := theta, psi := psi }, aet)

/-- A front in layer 1 with another front of layer 1 below, lgar.cxx 1190-1223.  `none`: the front was deleted. -/
def moveTopLayer (dt precip : α) (column : α) (isFd : Bool) (c n old oldNext : Front α) (s : SoilProps α) (aet : α) :
    Res (Option (Front α)) := do
  let prior := old.depth * (old.theta - oldNext.theta)
  let prior := if isFd then prior + (precip - (0 + aet)) else prior
  let c := { c with depth := CMath.fmin (c.depth + c.dzdt * dt) column }
  if (c.dzdt == 0) = true ∧ c.toBottom = false then return some c
  else
    let q ← cdiv prior c.depth
    if q + n.theta < s.thetaR then return none
    else return some { c with theta := CMath.fmax s.thetaR (CMath.fmin s.thetaE (q + n.theta)) }

/-- A front in layer 2 or deeper with another front of the same layer below, lgar.cxx 1245-1310.
`oldNext` is both `next_old` and `current_old->next`. -/
def moveInner (fuel : Nat) (g : Geo α) (dt precip : α) (isFd : Bool) (c n old oldNext oldSucc : Front α)
    (s : SoilProps α) (aet : α) : Res (Front α × α) := do
  let c := { c with depth := c.depth + c.dzdt * dt }
  let base ← idxPred g.cum c.layer
  let a0 : MoveAcc α := { prior := (old.depth - base) * (old.theta - oldNext.theta),
                          new := (c.depth - base) * (c.theta - n.theta), dTheta := [0], dThick := [0] }
  let a ← moveLayers g old.psi c.psi (some (oldSucc.psi, n.psi)) (c.layer - 1) 1 a0
  let prior := if isFd then a.prior + (precip - (0 + aet)) else a.prior
  let (th, aet) ← thetaMassBalance fuel g c.layer s c.psi a.new prior aet (a.dTheta ++ [n.theta])
    (a.dThick ++ [c.depth - base])
  return ({ c with theta := clampTheta s th }, aet)

/-- lgar.cxx 1016-1047: the front above is looked up and read. -/
def moveReadAbove (wf : Nat) (l : List (Front α)) : Res Unit :=
  if wf = 1 then .ok () else do
    let _ ← derefOpt l (listFindFront (Int.ofNat wf - 1) l [])
    .ok ()

/-- One iteration of the main loop, lgar.cxx 1007-1316, for front number `wf` of `n`.
`prev` is `state_previous`.  The deletion at line 1216 is followed by a read of the freed node at line 1313. -/
def moveOne (fuel : Nat) (g : Geo α) (dt precip : α) (nFd n wf : Nat) (prev : List (Front α)) (l : List (Front α))
    (aet : α) : Res (List (Front α) × α) := do
  let column ← idx g.cum g.numLayers
  let ci := listFindFront (Int.ofNat wf) l []
  let c ← derefOpt l ci
  let i := ci.getD 0
  let ni := if wf < n then listFindFront (Int.ofNat wf + 1) l [] else none
  let olds := if prev.isEmpty then l else prev
  let oi := listFindFront (Int.ofNat wf) l prev
  let oni := if wf < n then listFindFront (Int.ofNat wf + 1) l prev else none
  let s ← g.soil c.layer
  moveReadAbove wf l
  if wf < n then
    let nx ← derefOpt l ni
    if nx.layer ≠ c.layer then
      let th ← calcThetaFromH nx.psi s.vgAlpha s.vgM s.vgN s.thetaE s.thetaR
      return (l.set i { c with theta := th, psi := nx.psi }, aet)
    else if c.layer = 1 then
      let old ← derefOpt olds oi
      let oldNext ← derefOpt olds oni
      match ← moveTopLayer dt precip column (nFd == wf) c nx old oldNext s aet with
      | none => do
        let _ ← listDeleteFront c.front l
        .error (.uaf "current->theta, lgar.cxx 1313")
      | some c' =>
        let psi ← psiOf s c'.theta
        return (l.set i { c' with psi := psi }, aet)
    else
      let old ← derefOpt olds oi
      let oldNext ← derefOpt olds oni
      let oldSucc ← derefOpt olds (oi.map (· + 1))
      let (c', aet) ← moveInner fuel g dt precip (nFd == wf) c nx old oldNext oldSucc s aet
      let psi ← psiOf s c'.theta
      return (l.set i { c' with psi := psi }, aet)
  else if wf = n ∧ n = g.numLayers then
    let old ← derefOpt olds oi
    let (c', aet) ← moveDeepest fuel g dt precip (nFd == wf) c old s aet
    return (l.set i c', aet)
  else return (l, aet)

/-- Loop variables of the mass correction, lgar.cxx 1341-1403. -/
structure McState (α : Type) where
  depth : α
  factor : α
  switched : Bool
  mass : α
  err : α
  iter : Nat
  aug : Bool
  list : List (Front α)

/-- Mass-correction loop, lgar.cxx 1363-1401: depth of the front at position `p` is adjusted.
Result: state and whether the iteration limit was hit (`break_flag`). -/
def mcLoop (g : Geo α) (target column : α) (p : Nat) : Nat → McState α → Res (McState α × Bool)
  | 0, _ => .error .fuel
  | fuel + 1, st =>
    if (1e-10 : α) < CMath.fabs (st.err - 1e-10) then
      let iter := st.iter + 1
      if 10000 < iter then .ok ({ st with iter := iter }, true)
      else do
        let (factor, aug) := if 1000 < iter ∧ st.aug = false then (st.factor * 100.0, true) else (st.factor, st.aug)
        let up := decide (st.mass < target)
        let factor := if up then factor else if st.switched then factor else factor * 0.001
        let d := if up then st.depth + 0.01 * factor else st.depth - 0.01 * factor
        let w ← deref st.list p
        let d := if w.toBottom = true ∧ w.layer = g.numLayers then column else d
        let l := st.list.set p { w with depth := d }
        let m ← massBal g.cum l
        mcLoop g target column p fuel
          { depth := d, factor := factor, switched := !up, mass := m, err := CMath.fabs (m - target), iter := iter,
            aug := aug, list := l }
    else .ok (st, false)

/-- Fuel that is always enough for `mcLoop` (the C loop stops itself after 10001 rounds). -/
def mcFuel : Nat := 10002

/-- Initial step factor of the mass correction, lgar.cxx 1345-1350. -/
def mcFactor (w : Front α) (nx : Option (Front α)) : Res α :=
  match nx with
  | some n => if CMath.fabs (w.theta - n.theta) < 0.01 then cdiv 1 (CMath.fabs (w.theta - n.theta)) else .ok 1
  | none => .ok 1

/-- Mass correction at the end of the iteration `wf == 1`, lgar.cxx 1323-1415: list, AET, bottom flux. -/
def moveTop (g : Geo α) (oldMass precip : α) (l : List (Front α)) (aet : α) : Res (List (Front α) × α × α) := do
  let column ← idx g.cum g.numLayers
  let l ← crossLayer g l
  let nFd := wettingFrontFreeDrainage l
  let s1 ← g.soil nFd
  let pi := listFindFront (Int.ofNat nFd) l []
  let target := (oldMass + precip) - (aet + 0)
  cassert (0 < oldMass) "old_mass > 0.0"
  let w ← derefOpt l pi
  let p := pi.getD 0
  if CMath.fabs (w.theta - s1.thetaE) < 1e-15 then
    let m ← massBal g.cum l
    let factor ← mcFactor w l[p + 1]?
    let st0 : McState α := { depth := w.depth, factor := factor, switched := false, mass := m,
                             err := CMath.fabs (m - target), iter := 0, aug := false, list := l }
    let (st, brk) ← mcLoop g target column p mcFuel st0
    if brk then
      let aet := aet + st.err
      let m ← massBal g.cum st.list
      let target := (oldMass + precip) - (aet + 0)
      return (st.list, aet, 0 + (target - m))
    else return (st.list, aet, 0)
  else return (l, aet, 0)

/-- The main loop `for (int wf = number_of_wetting_fronts; wf != 0; wf--)` without the mass correction,
lgar.cxx 1007-1316; fronts `wf, wf-1, ..., 1` are still to be moved. -/
def moveOnes (fuel : Nat) (g : Geo α) (dt precip : α) (nFd n : Nat) (prev : List (Front α)) :
    Nat → List (Front α) → α → Res (List (Front α) × α)
  | 0, l, aet => .ok (l, aet)
  | wf + 1, l, aet => do
    let (l, aet) ← moveOne fuel g dt precip nFd n (wf + 1) prev l aet
    moveOnes fuel g dt precip nFd n prev wf l aet

/-- The main loop with the mass correction that its last iteration (`wf == 1`) ends with, lgar.cxx 1007-1417. -/
def moveMain (fuel : Nat) (g : Geo α) (dt oldMass precip : α) (nFd : Nat) (prev l : List (Front α)) (aet : α) :
    Res (List (Front α) × α × α) :=
  if l.isEmpty then .ok (l, aet, 0)
  else do
    let (l, aet) ← moveOnes fuel g dt precip nFd l.length prev l.length l aet
    moveTop g oldMass precip l aet

/-- `if (lgar_check_dry_over_wet(...)) lgar_fix_dry_over_wet(...)`, e.g. lgar.cxx 1446-1449. -/
def checkFix (g : Geo α) (mc : α) (l : List (Front α)) : Res (List (Front α) × α) := do
  let b ← checkDry l
  if b then fixDry g mc l else return (l, mc)

/-- psi/K refresh of one front, lgar.cxx 1509-1525. -/
def refreshOne (g : Geo α) (f : Front α) : Res (Front α) :=
  if 1 < f.psi then do
    let (psi, K) ← psiKOf g f.layer f.theta
    .ok { f with psi := psi, K := K }
  else .ok f

/-- psi/K refresh, lgar.cxx 1505-1528: all fronts except the last one. -/
def refresh (g : Geo α) : List (Front α) → Res (List (Front α))
  | [] => .error (.ub "NULL dereference")
  | [f] => .ok [f]
  | f :: n :: t => do
    let f' ← refreshOne g f
    let r ← refresh g (n :: t)
    return f' :: r

/-- lgar.cxx 1537-1541: a single remaining front sits at the bottom of layer 1. -/
def fixSingle (g : Geo α) (l : List (Front α)) : Res (List (Front α)) :=
  match l with
  | [f] => do
    let c1 ← idx g.cum 1
    if f.depth == c1 then return [f] else return [{ f with depth := c1 }]
  | _ => .ok l

/-- lgar.cxx 1437-1543: merging, crossing and clean-up after the main loop.
Input: list, AET, flux so far.  Result: list, AET, total bottom flux. -/
def movePost (g : Geo α) (l : List (Front α)) (aet flux : α) : Res (List (Front α) × α × α) := do
  let (l, mc) ← checkFix g 0 l
  let l ← mergeFronts g l
  let l ← crossLayer g l
  let (l, mc) ← checkFix g mc l
  let l ← mergeFronts g l
  let column ← idx g.cum g.numLayers
  let (f, l) ← crossDomain g column l
  let (l, mc) ← checkFix g mc l
  let aet := if (1.0e-7 : α) < CMath.fabs mc then aet - mc else aet
  let l ← refresh g l
  let l ← fixSingle g l
  return (l, aet, flux + f)

/-- lgar_move_wetting_fronts, lgar.cxx 964-1544.  `precip` is the incoming `*volin_cm`; result: list,
`*AET_demand_cm`, outgoing `*volin_cm` (the bottom flux). -/
def moveFronts (fuel : Nat) (g : Geo α) (dt precip : α) (nFd : Nat) (oldMass aet : α) (prev l : List (Front α)) :
    Res (List (Front α) × α × α) := do
  let (l, aet, flux) ← moveMain fuel g dt oldMass precip nFd prev l aet
  movePost g l aet flux

end LGAR
