import Verif.Model.Heap
/-
Specification vocabulary for lists in memory.  Uses the memory of `Model/Heap` but none of its programs.
-/
namespace LGAR
variable {α : Type}

/-- The pointer `p` starts a linked list with the given addresses and contents, ended by NULL. -/
def IsList (m : Mem α) : Option Nat → List (Nat × Front α) → Prop
  | p, [] => p = none
  | p, (a, f) :: t => p = some a ∧ ∃ nx, m.cell a = some ⟨f, nx⟩ ∧ IsList m nx t

/-- The addresses of the nodes. -/
abbrev addrs (ns : List (Nat × Front α)) : List Nat := ns.map Prod.fst
/-- The contents of the nodes. -/
abbrev vals (ns : List (Nat × Front α)) : List (Front α) := ns.map Prod.snd

/-- `malloc` never returns an address that is in use (as long as one is not in use). -/
def Alloc.Fresh (A : Alloc α) : Prop := ∀ m : Mem α, (∃ a, m.cell a = none) → m.cell (A.pick m) = none

/-- The address of an event. -/
def Ev.addr : Ev → Nat
  | .malloc a => a
  | .free a => a

/-- Every allocation is released exactly once: what happens at each address is malloc, free, malloc, free, ... and ends
with a free. -/
def ReleasedOnce (log : List Ev) : Prop :=
  ∀ a, ∃ k, log.filter (fun e => e.addr == a) = (List.replicate k [Ev.malloc a, Ev.free a]).flatten

/-- The allocated nodes are exactly those of the two lists of the model state, and no node is in both. -/
def Owned (o : Own α) (ns os : List (Nat × Front α)) : Prop :=
  IsList o.mem o.head ns ∧ IsList o.mem o.prev os ∧ (∀ a ∈ addrs ns, a ∉ addrs os) ∧
  ∀ a, (o.mem.cell a).isSome = true → a ∈ addrs ns ∨ a ∈ addrs os

/-- What a command does to the contents of the current list and of the snapshot, in terms of the list functions of the
model. -/
def Cmd.Does [Zero α] : Cmd α → List (Front α) × List (Front α) → List (Front α) × List (Front α) → Prop
  | .snapshot, x, y => y = (x.1, listCopy x.1)
  | .insertFirst d t n ly b, x, y => ∃ psi0 K0, y = (listInsertFirst psi0 K0 d t n ly b x.1, x.2)
  | .insertFront d t n ly b, x, y => ∃ psi0 K0 i l, listInsertFront psi0 K0 d t n ly b x.1 = .ok (i, l) ∧ y = (l, x.2)
  | .deleteFront k, x, y => ∃ i l, listDeleteFront k x.1 = .ok (i, l) ∧ y = (l, x.2)
  | .write i u, x, y => ∃ f, x.1[i]? = some f ∧ y = (x.1.set i (u f), x.2)

/-- A sequence of commands. -/
def Cmd.DoesAll [Zero α] : List (Cmd α) → List (Front α) × List (Front α) → List (Front α) × List (Front α) → Prop
  | [], x, y => y = x
  | c :: cs, x, y => ∃ z, c.Does x z ∧ Cmd.DoesAll cs z y

end LGAR
