import Verif.Model.Basic
/-
/repo/src/linked_list.cxx.

A linked list is the `List` of its nodes in `next` order.  A pointer into the list is the position of the node;
NULL is `none` (or a position past the end).  `Verif/Heap` treats the same functions at pointer level.
-/
namespace LGAR

variable {α : Type}

/-- Dereference the pointer to position `i` (`current->...`); NULL is undefined behaviour. -/
def deref (l : List (Front α)) (i : Nat) : Res (Front α) :=
  match l[i]? with
  | some f => .ok f
  | none => .error (.ub "NULL dereference")

/-- Dereference a pointer returned by a search. -/
def derefOpt (l : List (Front α)) : Option Nat → Res (Front α)
  | some i => deref l i
  | none => .error (.ub "NULL dereference")

/-- listLength, linked_list.cxx 157-167. -/
def listLength (l : List (Front α)) : Nat := l.length

/-- listCopy, linked_list.cxx 68-91: a fresh list with the same contents. -/
def listCopy : List (Front α) → List (Front α)
  | [] => []
  | f :: t => { depth := f.depth, theta := f.theta, psi := f.psi, K := f.K, layer := f.layer,
                front := f.front, toBottom := f.toBottom, dzdt := f.dzdt } :: listCopy t

/-- `front_num++` on every node. -/
def incFronts (l : List (Front α)) : List (Front α) :=
  l.map fun f => { f with front := f.front + 1 }

/-- `front_num--` on every node. -/
def decFronts (l : List (Front α)) : List (Front α) :=
  l.map fun f => { f with front := f.front - 1 }

/-- listInsertFirst, linked_list.cxx 97-123.  `psi0`, `K0` stand for the uninitialised memory returned by malloc
(fields psi_cm, K_cm_per_h are not assigned by this function). -/
def listInsertFirst [Zero α] (psi0 K0 depth theta : α) (frontNum : Int) (layer : Nat) (bottom : Bool)
    (l : List (Front α)) : List (Front α) :=
  { depth := depth, theta := theta, psi := psi0, K := K0, layer := layer, front := frontNum,
    toBottom := bottom, dzdt := 0 } :: incFronts l

/-- The search loop of listFindFront, linked_list.cxx 189-201: position of the first node with number `key`. -/
def findFrom (key : Int) : List (Front α) → Option Nat
  | [] => none
  | f :: t => if f.front = key then some 0 else (findFrom key t).map (· + 1)

/-- listFindFront, linked_list.cxx 173-202.  Searches `headOld` if it is not NULL (here: not empty), else `head`;
returns NULL when `head` is NULL.  The result is a position in the list that was searched. -/
def listFindFront (key : Int) (head headOld : List (Front α)) : Option Nat :=
  if head.isEmpty then none
  else if headOld.isEmpty then findFrom key head else findFrom key headOld

/-- The unlinking and renumbering part of listDeleteFront, linked_list.cxx 232-263: the first node with number `k`
is removed, the numbers of all later nodes are decremented. -/
def deleteGo (k : Int) : List (Front α) → List (Front α)
  | [] => []
  | f :: t => if f.front = k then decFronts t else f :: deleteGo k t

/-- listDeleteFront, linked_list.cxx 208-266.  Aborts when no node has the number.  Returns the position of the freed
node (the returned C pointer is the node that now sits at this position, NULL if it was the last). -/
def listDeleteFront (k : Int) (l : List (Front α)) : Res (Nat × List (Front α)) :=
  match findFrom k l with
  | none => .error (.abort "listDeleteFront: front not found")
  | some i => .ok (i, deleteGo k l)

/-- A pointer to position `i` after the node at position `del` has been freed: dangling if it pointed there. -/
def ptrAfterDelete (i del : Nat) : Res Nat :=
  if i = del then .error (.uaf "pointer to a freed front") else if del < i then .ok (i - 1) else .ok i

/-- Insertion loop of listInsertFront, linked_list.cxx 303-329.  Walks until a node numbered `n-1`; running off the
end dereferences NULL.  If the new node is not the last one, lines 318-323 (`while(link->next != NULL)` with a body
that never changes `link`) increment the number of the following node forever, which ends in signed overflow (UB). -/
def insertGo (link : Front α) : List (Front α) → Res (List (Front α))
  | [] => .error (.ub "NULL dereference")
  | p :: t =>
    if p.front = link.front - 1 then
      match t with
      | [] => .ok [p, link]
      | _ :: _ => .error (.ub "listInsertFront: endless renumbering loop, signed overflow")
    else do
      let t' ← insertGo link t
      .ok (p :: t')

/-- listInsertFront, linked_list.cxx 274-331.  Result: position of the new node (`none` = NULL) and the list. -/
def listInsertFront [Zero α] (psi0 K0 depth theta : α) (n : Int) (layer : Nat) (bottom : Bool)
    (l : List (Front α)) : Res (Option Nat × List (Front α)) :=
  let link : Front α := { depth := depth, theta := theta, psi := psi0, K := K0, layer := layer, front := n,
                          toBottom := bottom, dzdt := 0 }
  match l with
  | [] => if n = 1 then .ok (some 0, [link]) else .ok (none, [])
  | _ :: _ => do
    let l' ← insertGo link l
    .ok (some l.length, l')

/-- listReverseOrder, linked_list.cxx 533-548 (front numbers are not touched). -/
def listReverseOrder (l : List (Front α)) : List (Front α) := l.foldl (fun prev c => c :: prev) []

section DepthSort
variable [LT α] [DecidableLT α]

/-- Body of the inner loop of listSortFrontsByDepth, linked_list.cxx 502-518: swaps depth, theta, layer_num and
front_num only. -/
def sortSwap (a b : Front α) : Front α × Front α :=
  if b.depth < a.depth then
    ({ a with depth := b.depth, theta := b.theta, layer := b.layer, front := b.front },
     { b with depth := a.depth, theta := a.theta, layer := a.layer, front := a.front })
  else (a, b)

/-- Inner loop (lines 501-522) with `n = k - 1` comparisons. -/
def sortPass : Nat → List (Front α) → List (Front α)
  | 0, l => l
  | _ + 1, [] => []
  | _ + 1, [a] => [a]
  | n + 1, a :: b :: t => (sortSwap a b).1 :: sortPass n ((sortSwap a b).2 :: t)

/-- Outer loop (lines 497-523): passes with n, n-1, ..., 1 comparisons. -/
def sortPasses : Nat → List (Front α) → List (Front α)
  | 0, l => l
  | n + 1, l => sortPasses n (sortPass (n + 1) l)

/-- listSortFrontsByDepth, linked_list.cxx 487-525. -/
def listSortFrontsByDepth (l : List (Front α)) : List (Front α) := sortPasses (l.length - 1) l
end DepthSort

section AtDepth
variable [Sub α] [Neg α] [LT α] [LE α] [DecidableLT α] [DecidableLE α] [CMath α] [OfScientific α] [One α]

/-- is_epsilon_less_than, util_funcs.cxx 27-33. -/
def isEpsLess (a eps : α) : Bool := decide (CMath.fabs a < eps)

/-- Loop of listFindLayer, linked_list.cxx 470-477, from `layer` on; `n` layers remain. -/
def findLayerGo (cum : List α) (depth : α) : Nat → Nat → Res (Option (Nat × Bool))
  | 0, _ => .ok none
  | n + 1, layer => do
    let c ← idx cum layer
    let b ← idxPred cum layer
    if depth ≤ c ∧ b < depth then
      .ok (some (layer, isEpsLess (depth - c) 1e-5))
    else findLayerGo cum depth n (layer + 1)

/-- listFindLayer, linked_list.cxx 461-482: the layer and the extends-to-bottom flag, `none` for FALSE. -/
def listFindLayer (numLayers : Nat) (cum : List α) (depth : α) : Res (Option (Nat × Bool)) :=
  findLayerGo cum depth numLayers 1

/-- Search loop of listInsertFrontAtDepth, linked_list.cxx 402-434, with `previous = p` and the rest of the list.
Returns the list with the link inserted, or `none` when no interval contains the depth. -/
def atDepthGo (numLayers : Nat) (cum : List α) (depth : α) (mk : Nat → Bool → Int → Front α) (p : Front α) :
    List (Front α) → Res (Option (Front α × List (Front α)))
  | [] => .error (.ub "NULL dereference")
  | c :: t =>
    if p.depth < depth ∧ depth ≤ c.depth then do
      match ← listFindLayer numLayers cum depth with
      | none => .ok none
      | some (ly, bt) =>
        let link := mk ly bt c.front
        .ok (some (link, p :: link :: incFronts (c :: t)))
    else
      match t with
      | [] => .ok none
      | _ :: _ => do
        match ← atDepthGo numLayers cum depth mk c t with
        | none => .ok none
        | some (link, r) => .ok (some (link, p :: r))

/-- listInsertFrontAtDepth, linked_list.cxx 339-455.  `head` is passed by value, so the list the caller sees is the
second component: unchanged when the new node became the head.  First component: the returned pointer's node.
`psi0 K0 front0` stand for uninitialised memory. -/
def listInsertFrontAtDepth (psi0 K0 : α) (front0 : Int) (numLayers : Nat) (cum : List α) (depth theta : α)
    (l : List (Front α)) : Res (Option (Front α) × List (Front α)) :=
  let mk := fun (ly : Nat) (bt : Bool) (n : Int) =>
    ({ depth := depth, theta := theta, psi := psi0, K := K0, layer := ly, front := n, toBottom := bt,
       dzdt := -1 } : Front α)
  match l with
  | [] => do
    match ← listFindLayer numLayers cum depth with
    | none => .ok (none, [])
    | some (ly, bt) => .ok (some (mk ly bt front0), [])
  | h :: t =>
    if depth < h.depth then do
      match ← listFindLayer numLayers cum depth with
      | none => .ok (none, h :: t)
      | some (ly, bt) => .ok (some (mk ly bt front0), h :: t)
    else do
      match ← atDepthGo numLayers cum depth mk h t with
      | none => .ok (none, h :: t)
      | some (link, r) => .ok (some link, r)
end AtDepth

end LGAR
