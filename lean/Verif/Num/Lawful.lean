import Verif.Model.Driver
import Mathlib.Algebra.Order.Field.Basic
import Mathlib.Algebra.Order.Field.Rat
import Mathlib.Algebra.Order.Group.Abs
import Mathlib.Data.Rat.Floor
import Mathlib.Tactic.NormNum
import Mathlib.Tactic.NormNum.OfScientific
import Mathlib.Tactic.Linarith
import Mathlib.Tactic.Ring
import Mathlib.Tactic.LinearCombination
import Mathlib.Tactic.FieldSimp
import Mathlib.Tactic.Positivity
import Mathlib.Tactic.SplitIfs
/-
Laws of exact arithmetic for the numeric interface.  `pow`, `sqrt`, `exp` stay arbitrary.
-/
namespace LGAR

/-- `K` is a linearly ordered field whose `CMath` operations other than pow, sqrt, exp, toInt are the exact ones. -/
class LawfulNum (K : Type) [Field K] [LinearOrder K] [IsStrictOrderedRing K] [CMath K] : Prop where
  divOk_iff : ∀ a b : K, CMath.divOk a b = true ↔ b ≠ 0
  divInf_iff : ∀ a b : K, CMath.divInf a b = true ↔ b = 0 ∧ a ≠ 0
  divFin_iff : ∀ a b : K, CMath.divFin a b = true ↔ b ≠ 0
  fabs_eq : ∀ a : K, CMath.fabs a = |a|
  fmin_eq : ∀ a b : K, CMath.fmin a b = min a b
  fmax_eq : ∀ a b : K, CMath.fmax a b = max a b
  ofInt_eq : ∀ i : Int, (CMath.ofInt i : K) = (i : K)

/-- `toInt` truncates towards zero, as C's `int(x)` does. -/
class LawfulInt (K : Type) [Field K] [LinearOrder K] [IsStrictOrderedRing K] [CMath K] : Prop where
  toInt_nonneg : ∀ x : K, 0 ≤ x → ((CMath.toInt x : Int) : K) ≤ x ∧ x < ((CMath.toInt x : Int) : K) + 1
  toInt_neg : ∀ x : K, x ≤ 0 → x ≤ ((CMath.toInt x : Int) : K) ∧ ((CMath.toInt x : Int) : K) - 1 < x

/-- Order properties of `pow` and `sqrt` on the arguments for which they are defined.  They hold for the real functions and also
for versions that round the result down to a multiple of a fixed unit that divides 1. -/
class LawfulPow (K : Type) [Field K] [LinearOrder K] [IsStrictOrderedRing K] [CMath K] : Prop where
  pow_nonneg : ∀ a b : K, 0 ≤ a → CMath.powOk a b = true → 0 ≤ CMath.pow a b
  one_le_pow : ∀ a b : K, 1 ≤ a → 0 ≤ b → 1 ≤ CMath.pow a b
  one_le_pow_neg : ∀ a b : K, 0 < a → a ≤ 1 → b ≤ 0 → 1 ≤ CMath.pow a b
  powOk_pos : ∀ a b : K, 0 < a → CMath.powOk a b = true
  powOk_zero : ∀ b : K, CMath.powOk 0 b = true ↔ 0 ≤ b
  sqrtOk_iff : ∀ a : K, CMath.sqrtOk a = true ↔ 0 ≤ a
  sqrt_nonneg : ∀ a : K, 0 ≤ CMath.sqrt a

export LawfulNum (divOk_iff divInf_iff divFin_iff fabs_eq fmin_eq fmax_eq ofInt_eq)

/-- Largest `r` with `r ^ q ≤ n`, by bisection between `lo` and `hi`. -/
def natRootGo (q n : Nat) : Nat → Nat → Nat → Nat
  | 0, lo, _ => lo
  | fuel + 1, lo, hi =>
    if hi ≤ lo + 1 then lo
    else
      let mid := (lo + hi) / 2
      if mid ^ q ≤ n then natRootGo q n fuel mid hi else natRootGo q n fuel lo mid

/-- Integer `q`-th root (0 for `q = 0`). -/
def natRoot (q n : Nat) : Nat := natRootGo q n (n + 2) 0 (n + 2)

/-- `q`-th root of numerator and denominator. -/
def ratRoot (q : Nat) (x : Rat) : Rat := (natRoot q x.num.natAbs : Rat) / (natRoot q x.den : Rat)

/-- `a ^ b` for `b = p / q`: root of `a ^ p`. -/
def ratPow (a b : Rat) : Rat := if b.den = 1 then a ^ b.num else ratRoot b.den (a ^ b.num)

/-- `ratPow` is exact: the base is allowed and the root is a rational number. -/
def ratPowOk (a b : Rat) : Bool :=
  if b.den = 1 then decide (a ≠ 0 ∨ 0 ≤ b.num)
  else decide (0 ≤ a ∧ (a ≠ 0 ∨ 0 ≤ b.num) ∧ ratRoot b.den (a ^ b.num) ^ b.den = a ^ b.num)

/-- Truncation towards zero. -/
def ratTrunc (x : Rat) : Int := if 0 ≤ x then x.floor else -((-x).floor)

/-- Rational instance for kernel-evaluated examples: `pow` and `sqrt` are exact where they are rational and
`nonfinite` otherwise; `exp` is only right at 0 (it is used by the frozen-soil factor alone). -/
instance : CMath Rat where
  pow := ratPow
  powOk := ratPowOk
  sqrt x := ratRoot 2 x
  sqrtOk x := decide (0 ≤ x ∧ ratRoot 2 x ^ 2 = x)
  exp x := if x = 0 then 1 else if x < 0 then 0 else 2
  fabs x := |x|
  fmin a b := min a b
  fmax a b := max a b
  divOk _ b := decide (b ≠ 0)
  divInf a b := decide (b = 0 ∧ a ≠ 0)
  divFin _ b := decide (b ≠ 0)
  ofInt i := (i : Rat)
  toInt := ratTrunc

instance : LawfulNum Rat where
  divOk_iff a b := by simp [CMath.divOk]
  divInf_iff a b := by simp [CMath.divInf]
  divFin_iff a b := by simp [CMath.divFin]
  fabs_eq a := rfl
  fmin_eq a b := rfl
  fmax_eq a b := rfl
  ofInt_eq i := rfl

instance : LawfulInt Rat where
  toInt_nonneg x hx := by
    show ((ratTrunc x : Int) : Rat) ≤ x ∧ x < ((ratTrunc x : Int) : Rat) + 1
    simp only [ratTrunc, hx, if_true]
    exact ⟨Int.floor_le x, Int.lt_floor_add_one x⟩
  toInt_neg x hx := by
    show x ≤ ((ratTrunc x : Int) : Rat) ∧ ((ratTrunc x : Int) : Rat) - 1 < x
    unfold ratTrunc
    split_ifs with h
    · obtain rfl : x = 0 := le_antisymm hx h
      have : Rat.floor 0 = 0 := by decide +kernel
      simp [this]
    · have h1 : ((⌊-x⌋ : Int) : Rat) ≤ -x := Int.floor_le (-x)
      have h2 := Int.lt_floor_add_one (-x)
      have h3 : (-x).floor = ⌊-x⌋ := rfl
      rw [h3]; push_cast
      constructor <;> linarith

end LGAR
