import Verif.Model.Basic
/-
Reading arrays through pointers (C93).
-/
namespace LGAR

/-- `a[i]`. -/
def peek {β : Type} (a : Option (List β)) (i : Int) : Res β :=
  match a with
  | none => .error (.ub "NULL dereference")
  | some l =>
    if i < 0 then .error (.ub "index out of range")
    else match l[i.toNat]? with
      | some x => .ok x
      | none => .error (.ub "index out of range")

/-- `a[i][j]`. -/
def peek2 {β : Type} (a : Option (List (Option (List β)))) (i j : Int) : Res β := do
  let r ← peek a i
  peek r j

end LGAR
