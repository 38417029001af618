import Verif.Model.Basic
/-
/repo/src/mem_funcs.cxx: the allocation helpers.  They are part of the library and of both programs (CMakeLists.txt 64-88) and are
called by the legacy driver (src/main.cxx 175-220).

An allocated block is the list of its elements, NULL is `none`.  Simplifications: the answer of the allocator to each request is given
from outside (`grant`, counted from 0); a request of 2^63 bytes or more is refused (PTRDIFF_MAX, as in glibc); one of zero bytes may be
granted or refused.  `int` has 32 bits, `size_t` 64.
-/
namespace LGAR

/-- A block of `n` elements of `width` bytes each, or NULL: `malloc(n*sizeof(T))` with an `int` n converted to `size_t`. -/
def request (ok : Bool) (n : Int) (width : Nat) : Option Nat :=
  if ok ∧ 0 ≤ n ∧ n * width < 2 ^ 63 then some n.toNat else none

/-- `size++` on an `int`. -/
def addOne (n : Int) : Res Int :=
  if n < 2 ^ 31 - 1 then .ok (n + 1) else .error (.ub "signed overflow")

/-- `d_alloc`, `i_alloc`, `f_alloc`, mem_funcs.cxx 97-142: one element more than asked for, all zero, or NULL. -/
def alloc1 {β : Type} (zero : β) (width : Nat) (grant : Nat → Bool) (size : Int) : Res (Option (List β)) := do
  let n ← addOne size
  .ok ((request (grant 0) n width).map fun k => List.replicate k zero)

/-- The loop over the rows, mem_funcs.cxx 43-52 and 80-89: `todo` rows are left, `k` requests were made.  A refused row ends the loop
(`i = frows`), the rows after it stay NULL from the `memset` of line 42. -/
def fillRows {β : Type} (zero : β) (width : Nat) (grant : Nat → Bool) (fcols : Int) : Nat → Nat → List (Option (List β))
  | 0, _ => []
  | todo + 1, k =>
    match request (grant k) fcols width with
    | some m => some (List.replicate m zero) :: fillRows zero width grant fcols todo (k + 1)
    | none => List.replicate (todo + 1) none

/-- `itwo_alloc`, `dtwo_alloc`, mem_funcs.cxx 26-55 and 62-92. -/
def alloc2 {β : Type} (zero : β) (width : Nat) (grant : Nat → Bool) (rows cols : Int) : Res (Option (List (Option (List β)))) := do
  if rows = 0 ∨ cols = 0 then .error (.exit 0)
  let frows ← addOne rows
  let fcols ← addOne cols
  match request (grant 0) frows 8 with
  | none => .ok none
  | some n => .ok (some (fillRows zero width grant fcols n 1))

end LGAR
