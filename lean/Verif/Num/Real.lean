import Verif.Num.Lawful
import Mathlib.Analysis.SpecialFunctions.Pow.Real
import Mathlib.Analysis.SpecialFunctions.Sqrt
import Mathlib.Algebra.Order.Archimedean.Real.Basic
/-
Instance for real numbers, with `Real.rpow`, `Real.sqrt`, `Real.exp`, and the agreement of the rational instance with it.
-/
namespace LGAR
open Classical in
/-- `powOk`: the cases in which C's `pow` is finite and equals `Real.rpow`.  `toInt` truncates. -/
noncomputable instance : CMath ℝ where
  pow a b := a ^ b
  powOk a b := decide (0 < a ∨ (a = 0 ∧ 0 ≤ b) ∨ (a ≠ 0 ∧ ∃ k : ℤ, b = k))
  sqrt := Real.sqrt
  sqrtOk a := decide (0 ≤ a)
  exp := Real.exp
  fabs a := |a|
  fmin a b := min a b
  fmax a b := max a b
  divOk _ b := decide (b ≠ 0)
  divInf a b := decide (b = 0 ∧ a ≠ 0)
  divFin _ b := decide (b ≠ 0)
  ofInt i := (i : ℝ)
  toInt x := if 0 ≤ x then ⌊x⌋ else ⌈x⌉

instance : LawfulNum ℝ where
  divOk_iff a b := by simp [CMath.divOk]
  divInf_iff a b := by simp [CMath.divInf]
  divFin_iff a b := by simp [CMath.divFin]
  fabs_eq a := rfl
  fmin_eq a b := rfl
  fmax_eq a b := rfl
  ofInt_eq i := rfl

instance : LawfulInt ℝ where
  toInt_nonneg x hx := by
    simp only [CMath.toInt, hx, if_true]
    exact ⟨Int.floor_le x, Int.lt_floor_add_one x⟩
  toInt_neg x hx := by
    simp only [CMath.toInt]
    split_ifs with h
    · obtain rfl : x = 0 := le_antisymm hx h
      simp
    · exact ⟨Int.le_ceil x, by linarith [Int.ceil_lt_add_one x]⟩

instance : LawfulPow ℝ where
  pow_nonneg a b ha _ := Real.rpow_nonneg ha b
  one_le_pow a b ha hb := Real.one_le_rpow ha hb
  one_le_pow_neg a b h0 h1 hb := Real.one_le_rpow_of_pos_of_le_one_of_nonpos h0 h1 hb
  powOk_pos a b ha := by simp [CMath.powOk, ha]
  powOk_zero b := by simp [CMath.powOk]
  sqrtOk_iff a := by simp [CMath.sqrtOk]
  sqrt_nonneg a := Real.sqrt_nonneg a

/-- Where the rational `pow` is defined it is the real power. -/
theorem ratPow_real (a b : ℚ) (ha : 0 ≤ a) (h : ratPowOk a b = true) :
    ((ratPow a b : ℚ) : ℝ) = ((a : ℚ) : ℝ) ^ ((b : ℚ) : ℝ) := by
  unfold ratPowOk at h
  unfold ratPow
  have haR : (0 : ℝ) ≤ (a : ℝ) := by exact_mod_cast ha
  split_ifs at h ⊢ with hd
  · have hb : (b : ℝ) = ((b.num : ℤ) : ℝ) := by
      have : (b : ℚ) = ((b.num : ℤ) : ℚ) := by
        have := Rat.num_div_den b
        rw [hd] at this; simpa using this.symm
      rw [this]; push_cast; simp
    rw [hb, Real.rpow_intCast]; push_cast; rfl
  · simp only [decide_eq_true_eq] at h
    obtain ⟨_, _, h3⟩ := h
    have hq : b.den ≠ 0 := b.den_nz
    have hr : (0 : ℝ) ≤ ((ratRoot b.den (a ^ b.num) : ℚ) : ℝ) := by
      unfold ratRoot; push_cast; positivity
    have h3' : ((ratRoot b.den (a ^ b.num) : ℚ) : ℝ) ^ b.den = (a : ℝ) ^ b.num := by exact_mod_cast h3
    have hb : (b : ℝ) = (b.num : ℝ) / (b.den : ℝ) := by
      have := Rat.num_div_den b
      conv_lhs => rw [← this]
      push_cast; rfl
    rw [hb, div_eq_mul_inv, Real.rpow_mul haR, Real.rpow_intCast, ← h3', Real.pow_rpow_inv_natCast hr hq]

end LGAR
