import Verif.Model.Mass
/-
Merging, layer crossing, domain crossing, dry-over-wet repair: /repo/src/lgar.cxx 1545-1931.

Every loop keeps the C pointer `current` as a position and the C counter `wf`.  The fuel of a loop is
`length + 1`; `Verif/Lemmas` shows that it never runs out.
-/
namespace LGAR

variable {α : Type} [Add α] [Sub α] [Mul α] [Div α] [Neg α] [Zero α] [One α] [OfScientific α]
  [LT α] [LE α] [DecidableLT α] [DecidableLE α] [BEq α] [CMath α]

/-- psi and K from theta with the soil of `layer` and Ksat scaled by that layer's frozen factor
(the sequence `Se = ...; psi_cm = calc_h_from_Se; K_cm_per_h = calc_K_from_Se`, e.g. lgar.cxx 1591-1603). -/
def psiKOf (g : Geo α) (layer : Nat) (theta : α) : Res (α × α) := do
  let s ← g.soil layer
  let ff ← idx g.frozen layer
  let Se ← calcSeFromTheta theta s.thetaE s.thetaR
  let psi ← calcHFromSe Se s.vgAlpha s.vgM s.vgN
  let K ← calcKFromSe Se (s.Ksat * ff) s.vgM
  return (psi, K)

/-- Body of the loop of lgar_merge_wetting_fronts, lgar.cxx 1579-1622. -/
def mergeStep (g : Geo α) (cur : Nat) (l : List (Front α)) : Res (Nat × List (Front α)) := do
  let c ← deref l cur
  let n ← deref l (cur + 1)
  if n.depth < c.depth ∧ c.layer = n.layer ∧ n.toBottom = false then
    let nn ← deref l (cur + 2)
    let mass := c.depth * (c.theta - n.theta) + n.depth * (n.theta - nn.theta)
    let d ← cdiv mass (c.theta - nn.theta)
    cassert (0 < d) "current->depth_cm > 0.0"
    let (psi, K) ← psiKOf g c.layer c.theta
    let l1 := l.set cur { c with depth := d, psi := psi, K := K }
    let (del, l2) ← listDeleteFront n.front l1
    let cur' ← ptrAfterDelete cur del
    return (cur' + 1, l2)
  else return (cur + 1, l)

/-- Loop `for (int wf=1; wf != listLength(*head); wf++)`, lgar.cxx 1572-1623. -/
def mergeLoop (g : Geo α) : Nat → Nat → Nat → List (Front α) → Res (List (Front α))
  | 0, _, _, _ => .error .fuel
  | fuel + 1, wf, cur, l =>
    if wf = l.length then .ok l
    else do
      let (cur', l') ← mergeStep g cur l
      mergeLoop g fuel (wf + 1) cur' l'

/-- lgar_merge_wetting_fronts, lgar.cxx 1553-1631. -/
def mergeFronts (g : Geo α) (head : List (Front α)) : Res (List (Front α)) :=
  mergeLoop g (head.length + 1) 1 0 head

/-- Body of the loop of lgar_wetting_fronts_cross_layer_boundary, lgar.cxx 1663-1726. -/
def crossStep (g : Geo α) (cur : Nat) (l : List (Front α)) : Res (List (Front α)) := do
  let c ← deref l cur
  let s ← g.soil c.layer
  let ff ← idx g.frozen c.layer
  let n ← deref l (cur + 1)
  let bot ← idx g.cum c.layer
  if bot < c.depth ∧ (n.depth == bot) = true ∧ c.layer ≠ g.numLayers then
    let curTheta := CMath.fmin s.thetaE c.theta
    let over := c.depth - n.depth
    let s2 ← g.soil (c.layer + 1)
    let Se ← calcSeFromTheta c.theta s.thetaE s.thetaR
    let psi ← calcHFromSe Se s.vgAlpha s.vgM s.vgN
    let K ← calcKFromSe Se (s.Ksat * ff) s.vgM
    let thetaNew ← calcThetaFromH psi s2.vgAlpha s2.vgM s2.vgN s2.thetaE s2.thetaR
    let corr := over * (curTheta - n.theta)
    let nn ← deref l (cur + 2)
    let z ← if CMath.divInf corr (thetaNew - nn.theta) then do
              let c1 ← idx g.cum (c.layer + 1)
              cdiv c1 1e3
            else cdiv corr (thetaNew - nn.theta)
    let l1 := l.set cur { c with depth := bot, psi := psi, K := K, dzdt := 0, toBottom := true }
    return l1.set (cur + 1) { n with theta := thetaNew, psi := psi, depth := bot + z, layer := c.layer + 1,
                                     dzdt := c.dzdt, toBottom := false }
  else return l

/-- Loop of lgar_wetting_fronts_cross_layer_boundary, lgar.cxx 1656-1727. -/
def crossLoop (g : Geo α) : Nat → Nat → Nat → List (Front α) → Res (List (Front α))
  | 0, _, _, _ => .error .fuel
  | fuel + 1, wf, cur, l =>
    if wf = l.length then .ok l
    else do
      let l' ← crossStep g cur l
      crossLoop g fuel (wf + 1) (cur + 1) l'

/-- lgar_wetting_fronts_cross_layer_boundary, lgar.cxx 1641-1729. -/
def crossLayer (g : Geo α) (head : List (Front α)) : Res (List (Front α)) :=
  crossLoop g (head.length + 1) 1 0 head

/-- Loop of lgar_wetting_front_cross_domain_boundary, lgar.cxx 1762-1803: bottom flux and new list.
(`bottom_flux_cm_temp` is 0 wherever line 1800 is reached, so that `break` never fires.) -/
def domainLoop (g : Geo α) (domain : α) (length : Nat) : Nat → Nat → Nat → List (Front α) →
    Res (α × List (Front α))
  | 0, _, _, _ => .error .fuel
  | fuel + 1, wf, cur, l =>
    if wf = length then .ok (0, l)
    else if l.length ≤ wf then .ok (0, l)
    else do
      let c ← deref l cur
      let _ ← idx g.soilType c.layer
      let n ← deref l (cur + 1)
      if l.length ≤ cur + 2 ∧ domain ≤ c.depth then
        let flux := (c.theta - n.theta) * (c.depth - n.depth)
        let (psi, K) ← psiKOf g c.layer c.theta
        let l1 := l.set (cur + 1) { n with theta := c.theta, psi := psi, K := K }
        let (_, l2) ← listDeleteFront c.front l1
        .ok (0 + flux, l2)
      else domainLoop g domain length fuel (wf + 1) (cur + 1) l

/-- lgar_wetting_front_cross_domain_boundary, lgar.cxx 1738-1813. -/
def crossDomain (g : Geo α) (domain : α) (head : List (Front α)) : Res (α × List (Front α)) :=
  domainLoop g domain head.length (head.length + 1) 1 0 head

/-- lgar.cxx 1866-1881: psi and theta of the fronts above (from the head while `layer < k`) take the head `psi`. -/
def updAbove (g : Geo α) (psi : α) (k : Nat) : List (Front α) → Res (List (Front α))
  | [] => .error (.ub "NULL dereference")
  | f :: t =>
    if f.layer < k then do
      let s ← g.soil f.layer
      let th ← calcThetaFromH psi s.vgAlpha s.vgM s.vgN s.thetaE s.thetaR
      let r ← updAbove g psi k t
      return { f with psi := psi, theta := th } :: r
    else return f :: t

/-- Repair of one dry-over-wet pair, lgar.cxx 1843-1885: deletes the front at `cur`; result: position of the front that
was below, new list, absolute change of storage. -/
def fixDryRepair (g : Geo α) (c : Front α) (l : List (Front α)) : Res (Nat × List (Front α) × α) := do
  let before ← massBal g.cum l
  let (del, l1) ← listDeleteFront c.front l
  let l2 ← if 1 < c.layer then do
      let d ← deref l1 del
      let s ← g.soil d.layer
      let Se ← calcSeFromTheta d.theta s.thetaE s.thetaR
      let psi ← calcHFromSe Se s.vgAlpha s.vgM s.vgN
      updAbove g psi c.layer (l1.set del { d with psi := psi })
    else .ok l1
  let after ← massBal g.cum l2
  return (del, l2, CMath.fabs (after - before))

/-- Loop of lgar_fix_dry_over_wet_wetting_fronts, lgar.cxx 1833-1898 (`cnt` is the C counter `l`; `next != NULL` is
`cur + 1 < length`). -/
def fixDryLoop (g : Geo α) : Nat → Nat → Nat → List (Front α) → α → Res (List (Front α) × α)
  | 0, _, _, _, _ => .error .fuel
  | fuel + 1, cnt, cur, l, mc =>
    if l.length < cnt then .ok (l, mc)
    else if cur + 1 < l.length then do
      let c ← deref l cur
      let n ← deref l (cur + 1)
      if c.theta ≤ n.theta ∧ c.layer = n.layer then
        let (del, l', dm) ← fixDryRepair g c l
        let _ ← deref l' del
        fixDryLoop g fuel (cnt + 1) (del + 1) l' (mc + dm)
      else fixDryLoop g fuel (cnt + 1) (cur + 1) l mc
    else fixDryLoop g fuel (cnt + 1) cur l mc

/-- lgar_fix_dry_over_wet_wetting_fronts, lgar.cxx 1821-1900: new list and new `*mass_change`. -/
def fixDry (g : Geo α) (mc : α) (head : List (Front α)) : Res (List (Front α) × α) := do
  let _ ← deref head 0
  fixDryLoop g (head.length + 1) 1 0 head mc

/-- Loop of lgar_check_dry_over_wet_wetting_fronts, lgar.cxx 1913-1928. -/
def checkDryGo : List (Front α) → Bool
  | [] => false
  | [_] => false
  | c :: n :: t => if c.theta ≤ n.theta ∧ c.layer = n.layer then true else checkDryGo (n :: t)

/-- lgar_check_dry_over_wet_wetting_fronts, lgar.cxx 1907-1931. -/
def checkDry (head : List (Front α)) : Res Bool := do
  let _ ← deref head 0
  return checkDryGo head

end LGAR
