/-
Outcome type, numeric interface and data types shared by every model file.

Sources: /repo/include/all.hxx (structs), C/C++ semantics of aborting calls.
-/
namespace LGAR

/-- Ways a C++ call can fail to return normally.
`ub`         undefined behaviour: NULL dereference, out-of-range array access, use of an uninitialised value;
`uaf`        undefined behaviour: use after free;
`assertFail` a failing `assert`;
`abort`      a call of `abort()`;
`exit`       a call of `exit(code)`;
`throw`      a C++ exception (`std::runtime_error`, `std::invalid_argument`, ...);
`nonfinite`  only in exact-arithmetic instances: the C expression would be inf or NaN at this point
             (division by zero, `pow`/`sqrt` outside their domain) and C would go on with that value;
`fuel`       a C loop without iteration bound has not finished within the fuel given to the model. -/
inductive Err where
  | ub (why : String)
  | uaf (why : String)
  | assertFail (why : String)
  | abort (why : String)
  | exit (code : Int)
  | throw (why : String)
  | nonfinite (why : String)
  | fuel
  deriving DecidableEq, Repr

/-- Result of a modelled call. -/
abbrev Res (β : Type) := Except Err β

/-- The part of `<cmath>` (and of IEEE behaviour) the code uses, as a law-free interface.
`divOk a b`  : the exact-arithmetic model may form `a / b` (on `Float` always true, as in C);
`divInf a b` : C's `isinf(a / b)`;
`divFin a b` : neither `isinf(a/b)` nor `isnan(a/b)`;
`powOk`, `sqrtOk` : same role as `divOk` for `pow` and `sqrt`;
`ofInt`, `toInt`  : C conversions `(double) i` and `int(x)` (truncation). -/
class CMath (α : Type) where
  pow : α → α → α
  powOk : α → α → Bool
  sqrt : α → α
  sqrtOk : α → Bool
  exp : α → α
  fabs : α → α
  fmin : α → α → α
  fmax : α → α → α
  divOk : α → α → Bool
  divInf : α → α → Bool
  divFin : α → α → Bool
  ofInt : Int → α
  toInt : α → Int

section
variable {α : Type} [Div α] [CMath α]

/-- `a / b` as a C expression. -/
def cdiv (a b : α) : Res α :=
  if CMath.divOk a b then .ok (a / b) else .error (.nonfinite "division")

/-- `pow(a, b)`. -/
def cpow (a b : α) : Res α :=
  if CMath.powOk a b then .ok (CMath.pow a b) else .error (.nonfinite "pow")

/-- `sqrt(a)`. -/
def csqrt (a : α) : Res α :=
  if CMath.sqrtOk a then .ok (CMath.sqrt a) else .error (.nonfinite "sqrt")
end

/-- `assert(p)`. -/
def cassert (p : Prop) [Decidable p] (why : String) : Res Unit :=
  if p then .ok () else .error (.assertFail why)

/-- Array read `a[i]`; out of range is undefined behaviour. -/
def idx {β : Type} (a : List β) (i : Nat) : Res β :=
  match a[i]? with
  | some x => .ok x
  | none => .error (.ub "array index out of range")

/-- Array read with an `int` index. -/
def idxI {β : Type} (a : List β) (i : Int) : Res β :=
  if i < 0 then .error (.ub "negative array index") else idx a i.toNat

/-- Array read `a[i-1]`. -/
def idxPred {β : Type} (a : List β) (i : Nat) : Res β :=
  match i with
  | 0 => .error (.ub "negative array index")
  | k + 1 => idx a k

/-- `struct wetting_front`, include/all.hxx 45-56 (without the `next` pointer: the list order carries it). -/
structure Front (α : Type) where
  depth : α
  theta : α
  psi : α
  K : α
  layer : Nat
  front : Int
  toBottom : Bool
  dzdt : α
  deriving DecidableEq, Repr

/-- `struct soil_properties_`, include/all.hxx 66-79 (name omitted, see `Model/SoilFile`). -/
structure SoilProps (α : Type) where
  thetaR : α
  thetaE : α
  vgAlpha : α
  vgN : α
  vgM : α
  bcLambda : α
  bcPsib : α
  hMin : α
  Ksat : α
  thetaWp : α
  deriving DecidableEq, Repr

/-- The arrays that almost every routine receives: `num_layers`, `cum_layer_thickness_cm` (index 0..num_layers),
`layer_soil_type` (index 0 unused), `frozen_factor` (index 0..num_layers), `soil_properties`. -/
structure Geo (α : Type) where
  numLayers : Nat
  cum : List α
  soilType : List Int
  frozen : List α
  soils : List (SoilProps α)

/-- `soil_properties[soil_type[layer]]`. -/
def Geo.soil {α : Type} (g : Geo α) (layer : Nat) : Res (SoilProps α) := do
  let s ← idx g.soilType layer
  idxI g.soils s

end LGAR
