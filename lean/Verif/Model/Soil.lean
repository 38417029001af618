import Verif.Model.LinkedList
/-
/repo/src/soil_funcs.cxx and /repo/src/aet.cxx.
-/
namespace LGAR

variable {α : Type} [Add α] [Sub α] [Mul α] [Div α] [Neg α] [Zero α] [One α] [OfScientific α]
  [LT α] [LE α] [DecidableLT α] [DecidableLE α] [BEq α] [CMath α]

/-- calc_theta_from_h, soil_funcs.cxx 147-150. -/
def calcThetaFromH (h alpha m n thetaE thetaR : α) : Res α := do
  let p ← cpow (alpha * h) n
  let q ← cpow (1 + p) m
  let r ← cdiv 1 q
  return r * (thetaE - thetaR) + thetaR

/-- calc_Se_from_h, soil_funcs.cxx 155-159. -/
def calcSeFromH (h alpha m n : α) : Res α :=
  if isEpsLess h 1.0e-10 then return 1
  else do
    let p ← cpow (alpha * h) n
    let q ← cpow (1 + p) m
    cdiv 1 q

/-- calc_K_from_Se, soil_funcs.cxx 164-167. -/
def calcKFromSe (Se Ksat m : α) : Res α := do
  let s ← csqrt Se
  let im ← cdiv 1 m
  let a ← cpow Se im
  let b ← cpow (1 - a) m
  let c ← cpow (1 - b) 2.0
  return Ksat * s * c

/-- calc_h_from_Se, soil_funcs.cxx 172-175. -/
def calcHFromSe (Se alpha m n : α) : Res α := do
  let ia ← cdiv 1 alpha
  let e ← cdiv (-1) m
  let p ← cpow Se e
  let en ← cdiv 1 n
  let q ← cpow (p - 1) en
  return ia * q

/-- calc_Se_from_theta, soil_funcs.cxx 180-183. -/
def calcSeFromTheta (theta e r : α) : Res α := cdiv (theta - r) (e - r)

/-- Adaptive trapezoid loop of calc_Geff, soil_funcs.cxx 81-111.  The `else` branch at line 100 (re-testing
`h2 < h_i` after the loop condition, `h2` unchanged in between) is dead and therefore omitted. -/
def geffLoop (alpha m n Ksat hi : α) : Nat → (h2 dh K1 G : α) → Res α
  | 0, _, _, _, _ => .error .fuel
  | fuel + 1, h2, dh, K1, G =>
    if h2 < hi then do
      let Se2 ← calcSeFromH h2 alpha m n
      let K2 ← calcKFromSe Se2 Ksat m
      let r ← cdiv (K1 - K2) K2
      let dh' := if 0.02 < r then dh * 0.5 else dh * 10.0
      geffLoop alpha m n Ksat hi fuel (h2 + dh') dh' K2 (G + (K1 + K2) * dh' / 2.0)
    else .ok G

/-- calc_Geff, soil_funcs.cxx 34-140.  (`h_min` is only used in an empty branch, line 56, and is dropped.)
Closed form, lines 123-138: a non-finite result is replaced by `H_c`. -/
def calcGeff (fuel : Nat) (closed : Bool) (theta1 theta2 thetaE thetaR alpha n m Ksat : α) (nint : Int)
    (lambda psib : α) : Res α :=
  if !closed then do
    let Sei ← calcSeFromTheta theta1 thetaE thetaR
    let Sef ← calcSeFromTheta theta2 thetaE thetaR
    let hi ← calcHFromSe Sei alpha m n
    let hf ← calcHFromSe Sef alpha m n
    let dh0 ← cdiv (hi - hf) (CMath.ofInt nint)
    let dh := dh0 * 0.01
    let K1 ← calcKFromSe Sei Ksat m
    let G ← geffLoop alpha m n Ksat hi fuel (hf + dh) dh K1 0
    let g ← cdiv G Ksat
    return CMath.fabs g
  else do
    let Sef ← calcSeFromTheta theta1 thetaE thetaR
    let Sei ← calcSeFromTheta theta2 thetaE thetaR
    let r ← cdiv (2.0 + 3.0 * lambda) (1 + 3.0 * lambda)
    let Hc := psib * r
    let il ← cdiv 1 lambda
    let e := 3.0 + il
    if CMath.powOk Sei e && CMath.powOk Sef e then
      let num := Hc * (CMath.pow Sei e - CMath.pow Sef e)
      let den := 1 - CMath.pow Sef e
      if CMath.divFin num den then return num / den else return Hc
    else return Hc

/-- calc_aet, aet.cxx 17-74 (AET_thresh_Theta and AET_expon are not used by the code). -/
def calcAet (PET dt wpPsi fcPsi : α) (g : Geo α) (head : List (Front α)) : Res α := do
  let c ← deref head 0
  let s ← g.soil c.layer
  let thetaFc ← calcThetaFromH fcPsi s.vgAlpha s.vgM s.vgN s.thetaE s.thetaR
  let wpTheta ← calcThetaFromH wpPsi s.vgAlpha s.vgM s.vgN s.thetaE s.thetaR
  let thetaWp := (thetaFc - wpTheta) * 1 / 2.0 + wpTheta
  let Se ← calcSeFromTheta thetaWp s.thetaE s.thetaR
  let psiWp ← calcHFromSe Se s.vgAlpha s.vgM s.vgN
  let q ← cdiv c.psi psiWp
  let p ← cpow q 3.0
  let hRatio := 1 + p
  let inv ← cdiv 1 hRatio
  let aet := PET * inv * dt
  if aet < 0 then return 0
  else if PET * dt < aet then return PET * dt
  else return aet

end LGAR
