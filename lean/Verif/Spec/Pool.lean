import Verif.Model.Pool
import Verif.Spec.Heap
/-
Specification vocabulary for several objects in one memory: the story of one object told from its own calls only.
-/
namespace LGAR
variable {α : Type}

/-- The object a call is made on. -/
def PoolEv.on : PoolEv α → Nat
  | .create i => i
  | .cmd i _ => i
  | .finalize i => i

/-- The calls on object `i`, in their order. -/
def callsOn (i : Nat) (es : List (PoolEv α)) : List (PoolEv α) := es.filter fun e => e.on == i

/-- What the calls on one object do to the contents of its two lists (`none`: no object). -/
def Story [Zero α] : List (PoolEv α) → Option (List (Front α) × List (Front α)) →
    Option (List (Front α) × List (Front α)) → Prop
  | [], x, y => y = x
  | .create _ :: es, _, y => Story es (some ([], [])) y
  | .cmd _ c :: es, x, y => ∃ a b, x = some a ∧ c.Does a b ∧ Story es (some b) y
  | .finalize _ :: es, x, y => x ≠ none ∧ Story es none y

/-- Object `i` has these contents in its two lists. -/
def Shows (P : Pool α) (i : Nat) : Option (List (Front α) × List (Front α)) → Prop
  | none => P.obj i = none
  | some (cur, old) => ∃ h p ns os, P.obj i = some (h, p) ∧ IsList P.mem h ns ∧ IsList P.mem p os ∧ vals ns = cur ∧
      vals os = old

/-- The address `a` is a node of one of the lists of object `i`. -/
def NodeOf (P : Pool α) (i a : Nat) : Prop :=
  ∃ h p ns os, P.obj i = some (h, p) ∧ IsList P.mem h ns ∧ IsList P.mem p os ∧ (a ∈ addrs ns ∨ a ∈ addrs os)

/-- Calls on one object that start with Initialize, are Finalized before the next Initialize, and end finalized. -/
def Closed : Bool → List (PoolEv α) → Prop
  | live, [] => live = false
  | live, .create _ :: es => live = false ∧ Closed true es
  | live, .cmd _ _ :: es => Closed live es
  | _, .finalize _ :: es => Closed false es

end LGAR
