import Verif.Model.Infil
/-
Front velocities (lgar_dzdt_calc, /repo/src/lgar.cxx 2362-2506) and the iterative mass balance of one front
(lgar_theta_mass_balance, 2513-2654).
-/
namespace LGAR

variable {α : Type} [Add α] [Sub α] [Mul α] [Div α] [Neg α] [Zero α] [One α] [OfScientific α]
  [LT α] [LE α] [DecidableLT α] [DecidableLE α] [BEq α] [CMath α]

/-- Body of the loop at lgar.cxx 2462-2479 for one `k`: thickness of layer `k` divided by the conductivity that layer
`layer - k` has at head `psi`. -/
def dzdtTerm (g : Geo α) (layer : Nat) (psi : α) (k : Nat) : Res α := do
  let s ← g.soil (layer - k)
  let th ← calcThetaFromH psi s.vgAlpha s.vgM s.vgN s.thetaE s.thetaR
  let Se ← calcSeFromTheta th s.thetaE s.thetaR
  let ff ← idx g.frozen (layer - k)
  let K ← calcKFromSe Se (s.Ksat * ff) s.vgM
  let c1 ← idx g.cum k
  let c0 ← idxPred g.cum k
  cdiv (c1 - c0) K

/-- The loop `for (int k = 1; k < layer_num; k++)`, lgar.cxx 2462-2479; `n` iterations left. -/
def dzdtDenom (g : Geo α) (layer : Nat) (psi : α) : Nat → Nat → α → Res α
  | 0, _, d => .ok d
  | n + 1, k, d => do
    let t ← dzdtTerm g layer psi k
    dzdtDenom g layer psi n (k + 1) (d + t)

/-- lgar.cxx 2428-2432: contribution of the front's own layer to the denominator. -/
def dzdtBottomSum (g : Geo α) (c : Front α) : Res α :=
  if 1 < c.layer then do
    let base ← idxPred g.cum c.layer
    let q ← cdiv (c.depth - base) c.K
    .ok (0 + q)
  else .ok 0

/-- Velocity before the limits, lgar.cxx 2448-2488. -/
def dzdtRaw (g : Geo α) (Ksat Geff hp bottomSum : α) (c n : Front α) : Res α :=
  let delta := c.theta - n.theta
  if c.layer = 1 then
    if 0 < delta then do
      let inv ← cdiv 1 delta
      let q ← cdiv (Ksat * (Geff + hp)) c.depth
      .ok (inv * (q + c.K))
    else .ok 0
  else do
    let den ← dzdtDenom g c.layer c.psi (c.layer - 1) 1 bottomSum
    if 0 < delta then
      let inv ← cdiv 1 delta
      let q1 ← cdiv c.depth den
      let q2 ← cdiv (Ksat * (Geff + hp)) c.depth
      .ok (inv * (q1 + q2))
    else .ok 0

/-- lgar.cxx 2490-2498: 0 becomes 1e-9, at most 1e4. -/
def dzdtClamp (v : α) : α :=
  let v1 := if v == 0 then 1e-9 else v
  if 1e4 < v1 then 1e4 else v1

/-- New `dzdt_cm_per_h` of a front `c` with `to_bottom == FALSE` and successor `n`, lgar.cxx 2428-2500. -/
def dzdtOne (fuel : Nat) (closed : Bool) (nint : Int) (hp : α) (g : Geo α) (s : SoilProps α) (ff : α)
    (c n : Front α) : Res α := do
  let bottomSum ← dzdtBottomSum g c
  if c.theta < n.theta then .error (.exit 0)
  else
    let Ksat := s.Ksat * ff
    let Geff ← calcGeff fuel closed n.theta c.theta s.thetaE s.thetaR s.vgAlpha s.vgN s.vgM Ksat nint s.bcLambda
      s.bcPsib
    let v ← dzdtRaw g Ksat Geff hp bottomSum c n
    return dzdtClamp v

/-- lgar.cxx 2418-2426: a front at the bottom of its layer does not move. -/
def dzdtVel (fuel : Nat) (closed : Bool) (nint : Int) (hp : α) (g : Geo α) (s : SoilProps α) (ff : α)
    (c n : Front α) : Res α :=
  if c.toBottom then .ok 0 else dzdtOne fuel closed nint hp g s ff c n

/-- Loop of lgar_dzdt_calc, lgar.cxx 2394-2504. -/
def dzdtGo (fuel : Nat) (closed : Bool) (nint : Int) (hp : α) (g : Geo α) : List (Front α) → Res (List (Front α))
  | [] => .ok []
  | c :: t =>
    if c.K < 0 then .error (.abort "K is negative")
    else do
      let s ← g.soil c.layer
      let ff ← idx g.frozen c.layer
      match t with
      | [] => .ok [c]
      | n :: _ =>
        let v ← dzdtVel fuel closed nint hp g s ff c n
        let r ← dzdtGo fuel closed nint hp g t
        .ok ({ c with dzdt := v } :: r)

/-- lgar_dzdt_calc, lgar.cxx 2362-2506. -/
def dzdtCalc (fuel : Nat) (closed : Bool) (nint : Int) (hp : α) (g : Geo α) (head : List (Front α)) :
    Res (List (Front α)) :=
  if head.isEmpty then .error (.throw "lgar derivative function called for empty list")
  else dzdtGo fuel closed nint hp g head

/-- Loop variables of lgar_theta_mass_balance. -/
structure TmState (α : Type) where
  psi : α
  psiPrev : α
  factor : α
  switched : Bool
  newMass : α
  deltaMass : α
  deltaPrev : α
  count : Nat
  iter : Nat
  aug : Bool
  wanted : Bool
  theta : α

/-- Loop at lgar.cxx 2597-2605: mass of the layers `k, k+1, ...` (`n` left) for the trial head `psi`. -/
def tmLayers (g : Geo α) (psi : α) (dTheta dThick : List α) : Nat → Nat → α → Res α
  | 0, _, m => .ok m
  | n + 1, k, m => do
    let s ← g.soil k
    let th ← calcThetaFromH psi s.vgAlpha s.vgM s.vgN s.thetaE s.thetaR
    let dk ← idx dThick k
    let tk ← idx dTheta k
    tmLayers g psi dTheta dThick n (k + 1) (m + dk * (th - tk))

/-- lgar.cxx 2588-2607: theta of the front and total mass for the trial head. -/
def tmMass (g : Geo α) (layer : Nat) (s : SoilProps α) (dTheta dThick : List α) (psi : α) : Res (α × α) := do
  let th ← calcThetaFromH psi s.vgAlpha s.vgM s.vgN s.thetaE s.thetaR
  let dl ← idx dThick layer
  let tl ← idx dTheta layer
  let m ← tmLayers g psi dTheta dThick (layer - 1) 1 (0 + dl * (th - tl))
  return (th, m)

/-- The head update at the start of an iteration, lgar.cxx 2553-2582. -/
def tmMove (prior : α) (st : TmState α) : TmState α :=
  let iter := st.iter + 1
  let (factor, aug) := if 1000 < iter ∧ st.aug = false then (st.factor * 100.0, true) else (st.factor, st.aug)
  if prior < st.newMass then
    { st with iter := iter, aug := aug, factor := factor, psi := st.psi + 0.1 * factor, switched := false }
  else
    let factor := if st.switched then factor else factor * 0.1
    let prev := st.psi
    let psi := st.psi - 0.1 * factor
    let wanted := st.wanted || decide (psi < 0)
    let psi := if psi < 0 ∧ (prev == 0) = false then prev * 0.1 else psi
    { st with iter := iter, aug := aug, factor := factor, switched := true, psiPrev := prev, psi := psi,
              wanted := wanted }

/-- How the loop of lgar_theta_mass_balance ends: with a state, or with theta = NaN (`pow` of a negative head with a
non-integral exponent; `delta_mass` is then NaN, every later comparison is false, and NaN is returned). -/
inductive TmEnd (α : Type) where
  | done (st : TmState α)
  | nan

/-- Loop of lgar_theta_mass_balance, lgar.cxx 2553-2634. -/
def tmLoop (g : Geo α) (layer : Nat) (s : SoilProps α) (dTheta dThick : List α) (prior : α) :
    Nat → TmState α → Res (TmEnd α)
  | 0, _ => .error .fuel
  | fuel + 1, st =>
    if 1e-12 < st.deltaMass then
      let st := tmMove prior st
      match tmMass g layer s dTheta dThick st.psi with
      | .error (.nonfinite _) => .ok .nan
      | .error e => .error e
      | .ok (th, m) =>
        let delta := CMath.fabs (m - prior)
        let st := { st with theta := th, newMass := m, deltaMass := delta }
        if CMath.fabs (st.psi - st.psiPrev) < 1e-15 ∧ st.factor < 1e-13 then .ok (.done st)
        else
          let count := if CMath.fabs (delta - st.deltaPrev) < 1e-15 then st.count + 1 else 0
          let st := { st with count := count }
          if count = 5 then .ok (.done st)
          else if 1e7 < st.psi then .ok (.done st)
          else if st.psi ≤ 0 ∧ st.psiPrev < 0 then .ok (.done st)
          else tmLoop g layer s dTheta dThick prior fuel { st with deltaPrev := delta }
    else .ok (.done st)

/-- lgar_theta_mass_balance, lgar.cxx 2513-2654: returned theta (`none` for NaN) and new `*AET_demand_cm`. -/
def thetaMassBalance (fuel : Nat) (g : Geo α) (layer : Nat) (s : SoilProps α) (psi newMass prior aet : α)
    (dTheta dThick : List α) : Res (Option α × α) :=
  let delta := CMath.fabs (newMass - prior)
  if delta ≤ 1e-12 then do
    let th ← calcThetaFromH psi s.vgAlpha s.vgM s.vgN s.thetaE s.thetaR
    return (some th, aet)
  else do
    let st : TmState α :=
      { psi := psi, psiPrev := psi, factor := CMath.fmax 1 (psi / 100.0), switched := false, newMass := newMass,
        deltaMass := delta, deltaPrev := delta, count := 0, iter := 0, aug := false, wanted := false, theta := 0 }
    match ← tmLoop g layer s dTheta dThick prior fuel st with
    | .nan => return (none, aet)
    | .done st =>
      let aet := if 1e-12 < st.deltaMass ∧ st.wanted = false then aet - CMath.fabs (st.deltaMass - 1e-12) else aet
      let aet := if s.thetaE ≤ st.theta ∧ (st.psi == 0) = false then 0 else aet
      return (some st.theta, aet)

end LGAR
