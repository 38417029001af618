import Mathlib.Algebra.Field.Basic
import Mathlib.Algebra.Order.Field.Basic
import Mathlib.Data.Nat.Cast.Basic

/-!
Strict readers for the two output files, written without reference to the printing functions: lines end with a newline, cells
are separated by commas, numbers are decimal.
-/
namespace LGAR

/-- A decimal digit. -/
def digitVal (c : Char) : Option Nat := if '0' ≤ c ∧ c ≤ '9' then some (c.toNat - 48) else none

/-- The number written with decimal digits; `none` for an empty text or another character. -/
def readNat (cs : List Char) : Option Nat :=
  if cs = [] then none else cs.foldl (fun a c => a.bind fun n => (digitVal c).map fun d => 10 * n + d) (some 0)

/-- Digits with an optional minus sign. -/
def readInt (cs : List Char) : Option Int :=
  match cs with
  | '-' :: r => (readNat r).map fun (n : Nat) => -(n : Int)
  | r => (readNat r).map fun (n : Nat) => (n : Int)

section
variable {K : Type} [Field K]

/-- Digits, a point, digits. -/
def readAbs (cs : List Char) : Option K :=
  match cs.splitOn '.' with
  | [a, b] => (readNat a).bind fun (m : Nat) => (readNat b).map fun (n : Nat) => (m : K) + (n : K) / 10 ^ b.length
  | _ => none

/-- A decimal number with an optional minus sign. -/
def readDec (cs : List Char) : Option K :=
  match cs with
  | '-' :: r => (readAbs r).map fun x => -x
  | r => readAbs r

/-- The lines of a text that ends with a newline. -/
def linesOf (text : List Char) : Option (List (List Char)) :=
  let ls := text.splitOn '\n'
  if ls.getLast? = some [] then some ls.dropLast else none

/-- A line of data_variables.csv: the time and the numbers. -/
def readRow (line : List Char) : Option (List Char × List K) :=
  match line.splitOn ',' with
  | t :: cs => (cs.mapM readDec).map fun xs => (t, xs)
  | [] => none

/-- data_variables.csv: column names and rows. -/
def readTable (text : List Char) : Option (List (List Char) × List (List Char × List K)) :=
  match linesOf text with
  | some (h :: ls) => (ls.mapM readRow).map fun rs => (h.splitOn ',', rs)
  | _ => none

/-- What data_layers.csv says about a front. -/
structure FrontRec (K : Type) where
  depthMm : K
  theta : K
  layer : Int
  front : Int
  psiMm : K

/-- Remove the first and the last character if they are `a` and `b`. -/
def inside (a b : Char) (cs : List Char) : Option (List Char) :=
  match cs with
  | c :: r => if c = a ∧ r.getLast? = some b then some r.dropLast else none
  | [] => none

/-- `(depth,theta,layer,front,psi)`. -/
def readFront (cs : List Char) : Option (FrontRec K) :=
  (inside '(' ')' cs).bind fun r =>
    match r.splitOn ',' with
    | [d, t, l, f, p] => do
      let d ← readDec d
      let t ← readDec t
      let l ← readInt l
      let f ← readInt f
      let p ← readDec p
      return ⟨d, t, l, f, p⟩
    | _ => none

/-- `[(...)|(...)|...]`. -/
def readFronts (line : List Char) : Option (List (FrontRec K)) :=
  (inside '[' ']' line).bind fun r => (r.splitOn '|').mapM readFront

end
end LGAR
