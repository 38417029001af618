import Verif.Model.LinkedList
/-
/repo/src/linked_list.cxx at pointer level: nodes live in a memory with `malloc` and `free`, every access goes through
an address.  `Props/Heap` proves that these programs do what the list functions of `Model/LinkedList` say.

Also the places where the BMI object owns lists: Initialize (/repo/src/bmi_lgar.cxx 32-40), the snapshots in Update
(221-225, 351-355) and Finalize (666-667).

Simplification: `malloc` does not fail.  Reading a field that was never assigned is not an error here.
-/
namespace LGAR

/-- `struct wetting_front` with its `next` pointer, include/all.hxx 45-56. -/
structure Node (α : Type) where
  f : Front α
  next : Option Nat

/-- What happened to an address. -/
inductive Ev where
  | malloc (a : Nat)
  | free (a : Nat)
  deriving DecidableEq, Repr

/-- Memory: the node at each address, if one is allocated there, and the history of allocations (oldest first). -/
structure Mem (α : Type) where
  cell : Nat → Option (Node α)
  log : List Ev

/-- The allocator: which address `malloc` returns, and what the new node holds before it is written. -/
structure Alloc (α : Type) where
  pick : Mem α → Nat
  junk : Mem α → Node α

variable {α : Type}

/-- `*p`: the address and the node there.  NULL and freed addresses are undefined behaviour. -/
def Mem.load (m : Mem α) : Option Nat → Res (Nat × Node α)
  | none => .error (.ub "NULL dereference")
  | some a =>
    match m.cell a with
    | some n => .ok (a, n)
    | none => .error (.uaf "access to a freed front")

/-- Memory with `n` at address `a`. -/
def Mem.put (m : Mem α) (a : Nat) (n : Node α) : Mem α :=
  { m with cell := fun b => if b = a then some n else m.cell b }

/-- Write a node through a pointer. -/
def Mem.store (m : Mem α) (a : Nat) (n : Node α) : Res (Mem α) :=
  match m.cell a with
  | some _ => .ok (m.put a n)
  | none => .error (.uaf "write to a freed front")

/-- `malloc(sizeof(struct wetting_front))`. -/
def Mem.malloc (A : Alloc α) (m : Mem α) : Nat × Mem α :=
  (A.pick m, { (m.put (A.pick m) (A.junk m)) with log := m.log ++ [.malloc (A.pick m)] })

/-- `free(p)`; freeing twice is undefined behaviour. -/
def Mem.free (m : Mem α) (a : Nat) : Res (Mem α) :=
  match m.cell a with
  | some _ => .ok { cell := fun b => if b = a then none else m.cell b, log := m.log ++ [.free a] }
  | none => .error (.uaf "free of a freed front")

/-- listDelete, linked_list.cxx 36-43. -/
def hDelete : Nat → Mem α → Option Nat → Res (Mem α)
  | 0, _, _ => .error .fuel
  | _ + 1, m, none => .ok m
  | fuel + 1, m, some a => do
    let (_, n) ← m.load (some a)
    let m ← m.free a
    hDelete fuel m n.next

/-- listCopy, linked_list.cxx 68-91. -/
def hCopy (A : Alloc α) : Nat → Mem α → Option Nat → Res (Option Nat × Mem α)
  | 0, _, _ => .error .fuel
  | _ + 1, m, none => .ok (none, m)
  | fuel + 1, m, some a => do
    let (w, m) := m.malloc A
    let (_, c) ← m.load (some a)
    let (_, k) ← m.load (some w)
    let m ← m.store w { k with f := { depth := c.f.depth, theta := c.f.theta, psi := c.f.psi, K := c.f.K,
                                      layer := c.f.layer, front := c.f.front, toBottom := c.f.toBottom,
                                      dzdt := c.f.dzdt } }
    let (p, m) ← hCopy A fuel m c.next
    let (_, k) ← m.load (some w)
    let m ← m.store w { k with next := p }
    return (some w, m)

/-- `while (p != NULL) { p->front_num += d; p = p->next; }`, linked_list.cxx 118-121 (`d = 1`), 260-263 (`d = -1`). -/
def hShift (d : Int) : Nat → Mem α → Option Nat → Res (Mem α)
  | 0, _, _ => .error .fuel
  | _ + 1, m, none => .ok m
  | fuel + 1, m, some a => do
    let (_, n) ← m.load (some a)
    let m ← m.store a { n with f := { n.f with front := n.f.front + d } }
    hShift d fuel m n.next

/-- listInsertFirst, linked_list.cxx 97-123: the new value of `*head`. -/
def hInsertFirst [Zero α] (A : Alloc α) (fuel : Nat) (m : Mem α) (depth theta : α) (frontNum : Int) (layer : Nat)
    (bottom : Bool) (head : Option Nat) : Res (Option Nat × Mem α) := do
  let (w, m) := m.malloc A
  let (_, k) ← m.load (some w)
  let m ← m.store w { f := { k.f with depth := depth, theta := theta, front := frontNum, layer := layer,
                                      toBottom := bottom, dzdt := 0 }, next := head }
  let (_, k) ← m.load (some w)
  let m ← hShift 1 fuel m k.next
  return (some w, m)

/-- listLength, linked_list.cxx 157-167. -/
def hLength : Nat → Mem α → Option Nat → Res Nat
  | 0, _, _ => .error .fuel
  | _ + 1, _, none => .ok 0
  | fuel + 1, m, some a => do
    let (_, n) ← m.load (some a)
    let k ← hLength fuel m n.next
    return k + 1

/-- The search loop of listFindFront, linked_list.cxx 189-201 (`cur` is not NULL). -/
def hFindGo (key : Int) : Nat → Mem α → Option Nat → Res (Option Nat)
  | 0, _, _ => .error .fuel
  | fuel + 1, m, cur => do
    let (a, n) ← m.load cur
    if n.f.front = key then return some a
    else
      match n.next with
      | none => return none
      | some b => hFindGo key fuel m (some b)

/-- listFindFront, linked_list.cxx 173-202. -/
def hFind (fuel : Nat) (key : Int) (m : Mem α) (head headOld : Option Nat) : Res (Option Nat) :=
  match head with
  | none => .ok none
  | some a => hFindGo key fuel m (headOld.or (some a))

/-- The first loop of listDeleteFront, linked_list.cxx 218-223: does a front have this number? -/
def hHas (key : Int) : Nat → Mem α → Option Nat → Bool → Res Bool
  | 0, _, _, _ => .error .fuel
  | _ + 1, _, none, b => .ok b
  | fuel + 1, m, some a, b => do
    let (_, n) ← m.load (some a)
    hHas key fuel m n.next (if n.f.front = key then true else b)

/-- The second loop of listDeleteFront, linked_list.cxx 233-245: `previous` and `current` (`none`: `return NULL`). -/
def hWalk (key : Int) : Nat → Mem α → Option Nat → Option Nat → Res (Option (Option Nat × Nat))
  | 0, _, _, _ => .error .fuel
  | fuel + 1, m, prev, cur => do
    let (a, n) ← m.load cur
    if n.f.front = key then return some (prev, a)
    else
      match n.next with
      | none => return none
      | some b => hWalk key fuel m (some a) (some b)

/-- listDeleteFront, linked_list.cxx 208-266: returned pointer, new `*head`, memory. -/
def hDeleteFront (fuel : Nat) (m : Mem α) (key : Int) (head : Option Nat) :
    Res (Option Nat × Option Nat × Mem α) := do
  let found ← hHas key fuel m head false
  if found = false then .error (.abort "listDeleteFront: front not found")
  else
    match head with
    | none => return (none, none, m)
    | some _ =>
      match ← hWalk key fuel m none head with
      | none => return (none, head, m)
      | some (prev, cur) =>
        let (_, c) ← m.load (some cur)
        if head = some cur then
          let (_, h) ← m.load head
          let m ← m.free cur
          let m ← hShift (-1) fuel m h.next
          return (h.next, h.next, m)
        else
          let (b, p) ← m.load prev
          let m ← m.store b { p with next := c.next }
          let m ← m.free cur
          let m ← hShift (-1) fuel m c.next
          return (c.next, head, m)

/-- The insertion loop of listInsertFront, linked_list.cxx 303-329, at `previous`. -/
def hInsertGo [Zero α] (A : Alloc α) (depth theta : α) (num : Int) (layer : Nat) (bottom : Bool) :
    Nat → Mem α → Option Nat → Res (Nat × Mem α)
  | 0, _, _ => .error .fuel
  | fuel + 1, m, prev => do
    let (a, p) ← m.load prev
    if p.f.front = num - 1 then
      let (w, m) := m.malloc A
      let (_, k) ← m.load (some w)
      let (_, p) ← m.load prev
      let m ← m.store w { f := { k.f with depth := depth, theta := theta, front := num, layer := layer,
                                          toBottom := bottom, dzdt := 0 }, next := p.next }
      let m ← m.store a { p with next := some w }
      match p.next with
      | none => return (w, m)
      | some _ => .error (.ub "listInsertFront: endless renumbering loop, signed overflow")
    else hInsertGo A depth theta num layer bottom fuel m p.next

/-- listInsertFront, linked_list.cxx 274-331: returned pointer, new `*head`, memory. -/
def hInsertFront [Zero α] (A : Alloc α) (fuel : Nat) (m : Mem α) (depth theta : α) (num : Int) (layer : Nat)
    (bottom : Bool) (head : Option Nat) : Res (Option Nat × Option Nat × Mem α) :=
  match head with
  | none =>
    if num = 1 then do
      let (w, m) := m.malloc A
      let (_, k) ← m.load (some w)
      let m ← m.store w { f := { k.f with depth := depth, theta := theta, front := num, layer := layer,
                                          toBottom := bottom, dzdt := 0 }, next := none }
      return (some w, some w, m)
    else return (none, none, m)
  | some a => do
    let (w, m) ← hInsertGo A depth theta num layer bottom fuel m (some a)
    return (some w, some a, m)

/-- listReverseOrder, linked_list.cxx 533-548. -/
def hReverse : Nat → Mem α → Option Nat → Option Nat → Res (Option Nat × Mem α)
  | 0, _, _, _ => .error .fuel
  | _ + 1, m, prev, none => .ok (prev, m)
  | fuel + 1, m, prev, some a => do
    let (_, n) ← m.load (some a)
    let m ← m.store a { n with next := prev }
    hReverse fuel m (some a) n.next

/-- Assignments to fields of the front at position `i` (`current->theta = ...` and so on; never to `next`). -/
def hWrite (u : Front α → Front α) : Nat → Mem α → Option Nat → Res (Mem α)
  | 0, m, p => do
    let (a, n) ← m.load p
    m.store a { n with f := u n.f }
  | i + 1, m, p => do
    let (_, n) ← m.load p
    hWrite u i m n.next

/-- The list pointers of `struct model_state`, include/all.hxx 203-215, and the memory. -/
structure Own (α : Type) where
  mem : Mem α
  head : Option Nat
  prev : Option Nat

/-- What the program does to the lists between Initialize and Finalize. -/
inductive Cmd (α : Type) where
  /-- bmi_lgar.cxx 221-225 and 351-355: delete the old snapshot, copy the list. -/
  | snapshot
  /-- lgar.cxx 2129, 2139 and 2142 (lgar_create_surficial_front). -/
  | insertFirst (depth theta : α) (num : Int) (layer : Nat) (bottom : Bool)
  /-- lgar.cxx 757 (InitializeWettingFronts). -/
  | insertFront (depth theta : α) (num : Int) (layer : Nat) (bottom : Bool)
  /-- lgar.cxx 1216, 1615, 1793, 1844. -/
  | deleteFront (num : Int)
  /-- every assignment to a field of a front of the current list. -/
  | write (i : Nat) (u : Front α → Front α)

/-- Loop bound: no list has more nodes than there were allocations. -/
def Mem.bound (m : Mem α) : Nat := m.log.length + 1

/-- Execution of one command. -/
def Own.exec [Zero α] (A : Alloc α) (o : Own α) : Cmd α → Res (Own α)
  | .snapshot => do
    let m ← match o.prev with
      | none => .ok o.mem
      | some a => hDelete o.mem.bound o.mem (some a)
    let (p, m) ← hCopy A m.bound m o.head
    return { mem := m, head := o.head, prev := p }
  | .insertFirst d t n ly b => do
    let (h, m) ← hInsertFirst A o.mem.bound o.mem d t n ly b o.head
    return { o with mem := m, head := h }
  | .insertFront d t n ly b => do
    let (_, h, m) ← hInsertFront A o.mem.bound o.mem d t n ly b o.head
    return { o with mem := m, head := h }
  | .deleteFront k => do
    let (_, h, m) ← hDeleteFront o.mem.bound o.mem k o.head
    return { o with mem := m, head := h }
  | .write i u => do
    let m ← hWrite u i o.mem o.head
    return { o with mem := m }

/-- Execution of a sequence of commands. -/
def Own.run [Zero α] (A : Alloc α) : List (Cmd α) → Own α → Res (Own α)
  | [], o => .ok o
  | c :: cs, o => do
    let o ← o.exec A c
    Own.run A cs o

/-- Initialize, bmi_lgar.cxx 36-38: no list yet. -/
def Own.start : Own α := { mem := { cell := fun _ => none, log := [] }, head := none, prev := none }

/-- Finalize, bmi_lgar.cxx 666-667. -/
def Own.finalize (o : Own α) : Res (Mem α) := do
  let m ← hDelete o.mem.bound o.mem o.head
  hDelete m.bound m o.prev

end LGAR
