import Verif.Model.Heap
/-
Several BMI objects in one process, as in a framework that runs many catchments: each object has its own
`struct model_state` with two list pointers (include/all.hxx 203-215, `state` in include/bmi_lgar.hxx 136), all nodes come
from the same memory.  The only variable shared by the objects is `verbosity`, /repo/src/bmi_lgar.cxx 18, which acts on
printing alone (not modelled).

Simplification: after Finalize the object is absent; the code keeps the stale pointers, so every later use is undefined
behaviour until the next Initialize.
-/
namespace LGAR

/-- The list pointers `head` and `state_previous` of each object (`none`: not initialized), and the memory. -/
structure Pool (α : Type) where
  mem : Mem α
  obj : Nat → Option (Option Nat × Option Nat)

/-- A call on object `i`. -/
inductive PoolEv (α : Type) where
  /-- Initialize, bmi_lgar.cxx 35-38. -/
  | create (i : Nat)
  /-- A list operation of Initialize or Update on this object. -/
  | cmd (i : Nat) (c : Cmd α)
  /-- Finalize, bmi_lgar.cxx 666-667. -/
  | finalize (i : Nat)

variable {α : Type}

/-- No object, no memory in use. -/
def Pool.start : Pool α := { mem := { cell := fun _ => none, log := [] }, obj := fun _ => none }

/-- New pointers for object `i`. -/
def Pool.setObj (P : Pool α) (i : Nat) (x : Option (Option Nat × Option Nat)) : Pool α :=
  { P with obj := fun j => if j = i then x else P.obj j }

/-- One call.  Initialize on an object that has lists already drops the pointers to them (bmi_lgar.cxx 36: the old
`model_state` is not deleted). -/
def Pool.exec [Zero α] (A : Alloc α) (P : Pool α) : PoolEv α → Res (Pool α)
  | .create i => .ok (P.setObj i (some (none, none)))
  | .cmd i c =>
    match P.obj i with
    | none => .error (.ub "call on an object without state")
    | some (h, p) => do
      let o ← Own.exec A { mem := P.mem, head := h, prev := p } c
      return { P with mem := o.mem }.setObj i (some (o.head, o.prev))
  | .finalize i =>
    match P.obj i with
    | none => .error (.ub "call on an object without state")
    | some (h, p) => do
      let m ← Own.finalize { mem := P.mem, head := h, prev := p }
      return { P with mem := m }.setObj i none

/-- A sequence of calls on the objects, in any order. -/
def Pool.run [Zero α] (A : Alloc α) : List (PoolEv α) → Pool α → Res (Pool α)
  | [], P => .ok P
  | e :: es, P => do
    let P ← P.exec A e
    Pool.run A es P

end LGAR
