import Verif.Model.Driver
/-
Instance for IEEE doubles: used to run the model (`/verif/validation`) and as one of the types the law-free theorems
apply to.  Nothing is proved about `Float` arithmetic itself.
-/
namespace LGAR

instance : Zero Float := ⟨0.0⟩
instance : One Float := ⟨1.0⟩

/-- C's `int(x)` for values in range. -/
def floatToInt (x : Float) : Int := x.toInt64.toInt

instance : CMath Float where
  pow := Float.pow
  powOk _ _ := true
  sqrt := Float.sqrt
  sqrtOk _ := true
  exp := Float.exp
  fabs := Float.abs
  fmin a b := if a.isNaN then b else if b.isNaN then a else if a ≤ b then a else b
  fmax a b := if a.isNaN then b else if b.isNaN then a else if b ≤ a then a else b
  divOk _ _ := true
  divInf a b := (a / b).isInf
  divFin a b := !(a / b).isInf && !(a / b).isNaN
  ofInt := Float.ofInt
  toInt := floatToInt

end LGAR
