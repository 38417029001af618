import Verif.Num.Grid
import Mathlib.Data.Real.Basic
import Mathlib.Data.Rat.Cast.Order
/-
Rounded arithmetic.  `Rounded α` says that the numbers of type `α` denote real numbers and that every arithmetic operation
returns the exact result up to a relative error `eps` (of the result) and, for multiplication, division and constants, an
absolute error `tiny` (gradual underflow).  IEEE double precision with rounding to nearest has this property with eps = 2^-53 and
tiny = 2^-1075 as long as no operation overflows.  pow, sqrt and exp stay arbitrary.

`Dbl` is such a type: rational numbers where each operation rounds its result to 53 significant bits, ties to even.
-/
namespace LGAR

/-- Numbers with rounded operations. -/
class Rounded (α : Type) [Add α] [Sub α] [Mul α] [Div α] [Zero α] [One α] [OfScientific α] [LT α] [LE α] [BEq α] [CMath α] where
  /-- the real number that is meant -/
  val : α → ℝ
  /-- bound of the relative rounding error -/
  eps : ℝ
  /-- bound of the absolute error near underflow -/
  tiny : ℝ
  eps_nonneg : 0 ≤ eps
  eps_le : eps ≤ 1 / 2 ^ 52
  tiny_nonneg : 0 ≤ tiny
  tiny_le : tiny ≤ 1 / 2 ^ 100
  val_zero : val 0 = 0
  val_one : val 1 = 1
  add_err : ∀ a b : α, |val (a + b) - (val a + val b)| ≤ eps * |val (a + b)|
  sub_err : ∀ a b : α, |val (a - b) - (val a - val b)| ≤ eps * |val (a - b)|
  mul_err : ∀ a b : α, |val (a * b) - val a * val b| ≤ eps * |val (a * b)| + tiny
  mul_nonneg : ∀ a b : α, 0 ≤ val a → 0 ≤ val b → 0 ≤ val (a * b)
  divOk_iff : ∀ a b : α, CMath.divOk a b = true ↔ val b ≠ 0
  div_err : ∀ a b : α, val b ≠ 0 → |val (a / b) - val a / val b| ≤ eps * |val (a / b)| + tiny
  zero_div : ∀ a b : α, val a = 0 → val (a / b) = 0
  zero_mul : ∀ a b : α, val a = 0 → val (a * b) = 0
  lit_err : ∀ (m : Nat) (s : Bool) (e : Nat), |val (OfScientific.ofScientific m s e) - (OfScientific.ofScientific m s e : ℝ)| ≤
    eps * |val (OfScientific.ofScientific m s e)| + tiny
  lt_iff : ∀ a b : α, a < b ↔ val a < val b
  le_iff : ∀ a b : α, a ≤ b ↔ val a ≤ val b
  beq_iff : ∀ a b : α, (a == b) = true ↔ val a = val b
  fmin_val : ∀ a b : α, val (CMath.fmin a b) = min (val a) (val b)
  fmax_val : ∀ a b : α, val (CMath.fmax a b) = max (val a) (val b)
  fabs_val : ∀ a : α, val (CMath.fabs a) = |val a|
  toInt_nonneg : ∀ a : α, 0 ≤ val a → ((CMath.toInt a : Int) : ℝ) ≤ val a ∧ val a < ((CMath.toInt a : Int) : ℝ) + 1

/-- Rational numbers whose operations round to 53 significant bits. -/
def Dbl : Type := Rat

namespace Dbl

/-- The number, seen as a rational. -/
def toRat (x : Dbl) : Rat := x
/-- A rational, seen as a `Dbl`. -/
def ofRat (x : Rat) : Dbl := x

/-- Nearest integer, ties to even. -/
def nearest (y : Rat) : Int :=
  if y - y.floor < 1 / 2 then y.floor
  else if 1 / 2 < y - y.floor then y.floor + 1
  else if y.floor % 2 = 0 then y.floor else y.floor + 1

/-- Binary exponent: `2 ^ expo x ≤ |x| < 2 ^ (expo x + 1)` for `x ≠ 0`. -/
def expo (x : Rat) : Int :=
  let k : Int := (Nat.log2 x.num.natAbs : Int) - (Nat.log2 x.den : Int)
  if (2 : Rat) ^ k ≤ |x| then k else k - 1

/-- Rounding to 53 significant bits. -/
def rnd (x : Rat) : Rat :=
  if x = 0 then 0 else (nearest (x * 2 ^ (52 - expo x)) : Rat) / 2 ^ (52 - expo x)

theorem nearest_err (y : Rat) : |(nearest y : Rat) - y| ≤ 1 / 2 := by
  have h1 : ((y.floor : Int) : Rat) ≤ y := Int.floor_le y
  have h2 : y < ((y.floor : Int) : Rat) + 1 := Int.lt_floor_add_one y
  unfold nearest
  rw [abs_le]
  split_ifs <;> push_cast <;> constructor <;> linarith

theorem nearest_large {y : Rat} {n : Int} (h0 : 0 ≤ n) (h : (n : Rat) ≤ |y|) : (n : Rat) ≤ |(nearest y : Rat)| := by
  have h1 : ((y.floor : Int) : Rat) ≤ y := Int.floor_le y
  rcases le_abs.mp h with hy | hy
  · have hf : n ≤ y.floor := Rat.le_floor_iff.mpr hy
    have : n ≤ nearest y := by unfold nearest; split_ifs <;> omega
    exact le_abs.mpr (.inl (by exact_mod_cast this))
  · have hle : nearest y ≤ -n := by
      unfold nearest
      have hf : y.floor ≤ -n := by
        have : ((y.floor : Int) : Rat) ≤ ((-n : Int) : Rat) := by push_cast; linarith
        exact_mod_cast this
      rcases hf.lt_or_eq with hlt | he
      · split_ifs <;> omega
      · have hz : y - y.floor < 1 / 2 := by
          rw [he]; push_cast; linarith
        rw [if_pos hz]; exact hf
    refine le_abs.mpr (.inr ?_)
    have : ((nearest y : Int) : Rat) ≤ ((-n : Int) : Rat) := by exact_mod_cast hle
    push_cast at this; linarith

theorem two_pow_expo {x : Rat} (hx : x ≠ 0) : (2 : Rat) ^ expo x ≤ |x| := by
  unfold expo
  simp only
  split
  · assumption
  · have hn : x.num.natAbs ≠ 0 := by simpa using hx
    have e : |x| = (x.num.natAbs : Rat) / (x.den : Rat) := by
      conv_lhs => rw [← Rat.num_div_den x]
      rw [abs_div, Nat.abs_cast, Nat.cast_natAbs, Int.cast_abs]
    rw [e, le_div_iff₀ (by exact_mod_cast x.den_pos), sub_sub, zpow_sub₀ (by norm_num), zpow_add₀ (by norm_num)]
    simp only [zpow_natCast, zpow_one]
    have a1 : ((2 ^ Nat.log2 x.num.natAbs : Nat) : Rat) ≤ (x.num.natAbs : Rat) := by exact_mod_cast Nat.log2_self_le hn
    have a2 : (x.den : Rat) ≤ ((2 ^ (Nat.log2 x.den + 1) : Nat) : Rat) := by exact_mod_cast (Nat.lt_log2_self).le
    push_cast at a1 a2
    rw [div_mul_eq_mul_div, div_le_iff₀ (by positivity)]
    rw [pow_succ] at a2
    nlinarith [x.den_pos, pow_pos (show (0 : Rat) < 2 by norm_num) (Nat.log2 x.num.natAbs),
      pow_pos (show (0 : Rat) < 2 by norm_num) (Nat.log2 x.den), (by positivity : (0 : Rat) ≤ (x.num.natAbs : Rat))]

/-- The rounding error is at most 2^-53 times the result. -/
theorem rnd_err (x : Rat) : |rnd x - x| ≤ 1 / 2 ^ 53 * |rnd x| := by
  unfold rnd
  split
  · rename_i h; simp [h]
  · rename_i h
    have hs : (0 : Rat) < 2 ^ (52 - expo x) := zpow_pos (by norm_num) _
    generalize hS : (2 : Rat) ^ (52 - expo x) = S at hs ⊢
    have hy : ((2 ^ 52 : Int) : Rat) ≤ |x * S| := by
      rw [abs_mul, abs_of_pos hs]
      have := mul_le_mul_of_nonneg_right (two_pow_expo h) hs.le
      refine le_trans (le_of_eq ?_) this
      rw [← hS, ← zpow_add₀ (by norm_num)]
      norm_num
    have e1 := nearest_err (x * S)
    have e2 := nearest_large (by norm_num) hy
    have e3 : (nearest (x * S) : Rat) / S - x = ((nearest (x * S) : Rat) - x * S) / S := by field_simp
    rw [e3, abs_div, abs_div, abs_of_pos hs, mul_div_assoc', div_le_div_iff_of_pos_right hs]
    push_cast at e2
    linarith

theorem rnd_nonneg {x : Rat} (h : 0 ≤ x) : 0 ≤ rnd x := by
  unfold rnd
  split
  · exact le_refl _
  · have hs : (0 : Rat) < 2 ^ (52 - expo x) := zpow_pos (by norm_num) _
    have hf : 0 ≤ (x * 2 ^ (52 - expo x)).floor := Rat.le_floor_iff.mpr (by simpa using mul_nonneg h hs.le)
    have hn : 0 ≤ nearest (x * 2 ^ (52 - expo x)) := by unfold nearest; split_ifs <;> omega
    have : (0 : Rat) ≤ (nearest (x * 2 ^ (52 - expo x)) : Rat) := by exact_mod_cast hn
    positivity

theorem rnd_zero : rnd 0 = 0 := by simp [rnd]

instance : Add Dbl := ⟨fun a b => rnd (toRat a + toRat b)⟩
instance : Sub Dbl := ⟨fun a b => rnd (toRat a - toRat b)⟩
instance : Mul Dbl := ⟨fun a b => rnd (toRat a * toRat b)⟩
instance : Div Dbl := ⟨fun a b => rnd (toRat a / toRat b)⟩
instance : Neg Dbl := ⟨fun a => ofRat (-toRat a)⟩
instance : Zero Dbl := ⟨ofRat 0⟩
instance : One Dbl := ⟨ofRat 1⟩
instance : OfScientific Dbl := ⟨fun m s e => ofRat (rnd (Rat.ofScientific m s e))⟩
instance : LT Dbl := ⟨fun a b => toRat a < toRat b⟩
instance : LE Dbl := ⟨fun a b => toRat a ≤ toRat b⟩
instance : DecidableLT Dbl := fun a b => inferInstanceAs (Decidable (toRat a < toRat b))
instance : DecidableLE Dbl := fun a b => inferInstanceAs (Decidable (toRat a ≤ toRat b))
instance : DecidableEq Dbl := inferInstanceAs (DecidableEq Rat)
instance : Repr Dbl := inferInstanceAs (Repr Rat)

instance : CMath Dbl where
  pow a b := ofRat (rnd (Grid.pow (toRat a) (toRat b)))
  powOk a b := decide (0 < toRat a ∨ (toRat a = 0 ∧ 0 ≤ toRat b) ∨ (toRat a ≠ 0 ∧ (toRat b).den = 1))
  sqrt x := ofRat (rnd (Grid.root 2 (toRat x)))
  sqrtOk x := decide (0 ≤ toRat x)
  exp x := if toRat x = 0 then ofRat 1 else if toRat x < 0 then ofRat 0 else ofRat 2
  fabs x := ofRat |toRat x|
  fmin a b := ofRat (min (toRat a) (toRat b))
  fmax a b := ofRat (max (toRat a) (toRat b))
  divOk _ b := decide (toRat b ≠ 0)
  divInf a b := decide (toRat b = 0 ∧ toRat a ≠ 0)
  divFin _ b := decide (toRat b ≠ 0)
  ofInt i := ofRat (rnd i)
  toInt x := ratTrunc (toRat x)

theorem rnd_err_real (x : Rat) : |((rnd x : Rat) : ℝ) - (x : ℝ)| ≤ 1 / 2 ^ 53 * |((rnd x : Rat) : ℝ)| := by
  have h := rnd_err x
  have : ((|rnd x - x| : Rat) : ℝ) ≤ ((1 / 2 ^ 53 * |rnd x| : Rat) : ℝ) := by exact_mod_cast h
  push_cast at this
  exact this

noncomputable instance : Rounded Dbl where
  val x := ((toRat x : Rat) : ℝ)
  eps := 1 / 2 ^ 53
  tiny := 0
  eps_nonneg := by positivity
  eps_le := by norm_num
  tiny_nonneg := le_refl _
  tiny_le := by norm_num
  val_zero := Rat.cast_zero
  val_one := Rat.cast_one
  add_err a b := by
    have := rnd_err_real (toRat a + toRat b)
    push_cast at this; exact this
  sub_err a b := by
    have := rnd_err_real (toRat a - toRat b)
    push_cast at this; exact this
  mul_err a b := by
    have := rnd_err_real (toRat a * toRat b)
    push_cast at this; rw [add_zero]; exact this
  mul_nonneg a b ha hb := by
    have ha' : 0 ≤ toRat a := by exact_mod_cast ha
    have hb' : 0 ≤ toRat b := by exact_mod_cast hb
    have := rnd_nonneg (mul_nonneg ha' hb')
    exact_mod_cast this
  divOk_iff a b := by simp [CMath.divOk]
  div_err a b _ := by
    have := rnd_err_real (toRat a / toRat b)
    push_cast at this; rw [add_zero]; exact this
  zero_div a b h := by
    have h' : toRat a = 0 := by exact_mod_cast h
    show ((rnd (toRat a / toRat b) : Rat) : ℝ) = 0
    rw [h', _root_.zero_div, rnd_zero, Rat.cast_zero]
  zero_mul a b h := by
    have h' : toRat a = 0 := by exact_mod_cast h
    show ((rnd (toRat a * toRat b) : Rat) : ℝ) = 0
    rw [h', MulZeroClass.zero_mul, rnd_zero, Rat.cast_zero]
  lit_err m s e := by
    have := rnd_err_real (Rat.ofScientific m s e)
    rw [add_zero]
    have hc : (OfScientific.ofScientific m s e : ℝ) = ((Rat.ofScientific m s e : Rat) : ℝ) := by
      rw [show (Rat.ofScientific m s e : Rat) = (OfScientific.ofScientific m s e : Rat) from rfl, Rat.cast_ofScientific]
    rw [hc]; exact this
  lt_iff a b := by
    show toRat a < toRat b ↔ _
    exact Rat.cast_lt.symm
  le_iff a b := by
    show toRat a ≤ toRat b ↔ _
    exact Rat.cast_le.symm
  beq_iff a b := by
    rw [beq_iff_eq]
    exact (Rat.cast_inj (α := ℝ)).symm
  fmin_val a b := Rat.cast_min (K := ℝ) _ _
  fmax_val a b := Rat.cast_max (K := ℝ) _ _
  fabs_val a := Rat.cast_abs (K := ℝ) _
  toInt_nonneg a h := by
    have h' : 0 ≤ toRat a := by exact_mod_cast h
    obtain ⟨h1, h2⟩ := LawfulInt.toInt_nonneg (K := Rat) (toRat a) h'
    exact ⟨by exact_mod_cast h1, by exact_mod_cast h2⟩

end Dbl
end LGAR
