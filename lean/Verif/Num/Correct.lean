import Verif.Num.Rounded
/-
Correctly rounded arithmetic: the result of an operation depends on the exact result only, and monotonically.  IEEE 754 double
precision is such an arithmetic as long as nothing overflows; for pow and sqrt only signs and the position relative to 1 are used.
-/
namespace LGAR

/-- `Rounds x y`: a computation whose exact result is `x` delivers `y`. -/
class Correct (α : Type) [Add α] [Sub α] [Mul α] [Div α] [Neg α] [Zero α] [One α] [OfScientific α] [LT α] [LE α] [BEq α] [CMath α]
    [Rounded α] where
  Rounds : ℝ → ℝ → Prop
  mono : ∀ {x y x' y' : ℝ}, Rounds x y → Rounds x' y' → x ≤ x' → y ≤ y'
  /-- rounded numbers are not rounded again -/
  again : ∀ {x y : ℝ}, Rounds x y → Rounds y y
  zero : Rounds 0 0
  one : Rounds 1 1
  negOne : Rounds (-1) (-1)
  add : ∀ a b : α, Rounds (Rounded.val a + Rounded.val b) (Rounded.val (a + b))
  sub : ∀ a b : α, Rounds (Rounded.val a - Rounded.val b) (Rounded.val (a - b))
  mul : ∀ a b : α, Rounds (Rounded.val a * Rounded.val b) (Rounded.val (a * b))
  div : ∀ a b : α, Rounded.val b ≠ 0 → Rounds (Rounded.val a / Rounded.val b) (Rounded.val (a / b))
  neg : ∀ a : α, Rounded.val (-a) = -Rounded.val a
  pow_nonneg : ∀ a b : α, 0 ≤ Rounded.val a → CMath.powOk a b = true → 0 ≤ Rounded.val (CMath.pow a b)
  one_le_pow : ∀ a b : α, 1 ≤ Rounded.val a → 0 ≤ Rounded.val b → 1 ≤ Rounded.val (CMath.pow a b)
  one_le_pow_neg : ∀ a b : α, 0 < Rounded.val a → Rounded.val a ≤ 1 → Rounded.val b ≤ 0 → 1 ≤ Rounded.val (CMath.pow a b)
  powOk_zero : ∀ a b : α, Rounded.val a = 0 → CMath.powOk a b = true → 0 ≤ Rounded.val b
  sqrtOk_iff : ∀ a : α, CMath.sqrtOk a = true ↔ 0 ≤ Rounded.val a

namespace Dbl

theorem lt_two_pow_expo {x : Rat} (hx : x ≠ 0) : |x| < (2 : Rat) ^ (expo x + 1) := by
  have e : |x| = (x.num.natAbs : Rat) / (x.den : Rat) := by
    conv_lhs => rw [← Rat.num_div_den x]
    rw [abs_div, Nat.abs_cast, Nat.cast_natAbs, Int.cast_abs]
  unfold expo
  simp only
  split
  · rw [e, div_lt_iff₀ (by exact_mod_cast x.den_pos), zpow_add₀ (by norm_num), zpow_sub₀ (by norm_num)]
    simp only [zpow_natCast, zpow_one]
    have a1 : (x.num.natAbs : Rat) < ((2 ^ (Nat.log2 x.num.natAbs + 1) : Nat) : Rat) := by exact_mod_cast Nat.lt_log2_self
    have a2 : ((2 ^ Nat.log2 x.den : Nat) : Rat) ≤ (x.den : Rat) := by exact_mod_cast Nat.log2_self_le x.den_pos.ne'
    push_cast at a1 a2
    rw [pow_succ] at a1
    have hd : (0 : Rat) < 2 ^ Nat.log2 x.den := by positivity
    have hn : (0 : Rat) < 2 ^ Nat.log2 x.num.natAbs := by positivity
    rw [div_mul_eq_mul_div, div_mul_eq_mul_div, lt_div_iff₀ hd]
    nlinarith
  · rename_i h
    rw [sub_add_cancel]; exact not_le.mp h

theorem nearest_mono {y y' : Rat} (h : y ≤ y') : nearest y ≤ nearest y' := by
  have hf : y.floor ≤ y'.floor := Rat.le_floor_iff.mpr ((Int.floor_le y).trans h)
  rcases hf.lt_or_eq with hlt | he
  · unfold nearest; split_ifs <;> omega
  · unfold nearest
    rw [← he]
    have : y - y.floor ≤ y' - y.floor := by linarith
    split_ifs <;> first | omega | (exfalso; linarith)

theorem nearest_int (n : Int) : nearest (n : Rat) = n := by
  have hf : (n : Rat).floor = n := Rat.floor_intCast n
  unfold nearest
  rw [hf, if_pos (by simp)]

theorem expo_eq {x : Rat} {k : Int} (hx : x ≠ 0) (h1 : (2 : Rat) ^ k ≤ |x|) (h2 : |x| < (2 : Rat) ^ (k + 1)) : expo x = k := by
  have a := two_pow_expo hx
  have b := lt_two_pow_expo hx
  have c1 : k < expo x + 1 := (zpow_lt_zpow_iff_right₀ (by norm_num : (1 : Rat) < 2)).mp (lt_of_le_of_lt h1 b)
  have c2 : expo x < k + 1 := (zpow_lt_zpow_iff_right₀ (by norm_num : (1 : Rat) < 2)).mp (lt_of_le_of_lt a h2)
  omega

theorem expo_le {x y : Rat} (hx : x ≠ 0) (hy : y ≠ 0) (h : |x| ≤ |y|) : expo x ≤ expo y := by
  have a := two_pow_expo hx
  have b := lt_two_pow_expo hy
  have := (zpow_lt_zpow_iff_right₀ (by norm_num : (1 : Rat) < 2)).mp (lt_of_le_of_lt a (lt_of_le_of_lt h b))
  omega

/-- The scaled number lies between 2^52 and 2^53. -/
theorem scaled {x : Rat} (hx : x ≠ 0) : (2 : Rat) ^ 52 ≤ |x * 2 ^ (52 - expo x)| ∧ |x * 2 ^ (52 - expo x)| ≤ 2 ^ 53 := by
  have hs : (0 : Rat) < 2 ^ (52 - expo x) := zpow_pos (by norm_num) _
  rw [abs_mul, abs_of_pos hs]
  constructor
  · have := mul_le_mul_of_nonneg_right (two_pow_expo hx) hs.le
    rw [← zpow_add₀ (by norm_num), show expo x + (52 - expo x) = (52 : Int) by omega] at this
    exact_mod_cast this
  · have := mul_le_mul_of_nonneg_right (lt_two_pow_expo hx).le hs.le
    rw [← zpow_add₀ (by norm_num), show expo x + 1 + (52 - expo x) = (53 : Int) by omega] at this
    exact_mod_cast this

/-- A positive number rounds between the neighbouring powers of two. -/
theorem rnd_pos_range {x : Rat} (hx : 0 < x) : (2 : Rat) ^ expo x ≤ rnd x ∧ rnd x ≤ (2 : Rat) ^ (expo x + 1) := by
  obtain ⟨h1, h2⟩ := scaled hx.ne'
  have hs : (0 : Rat) < 2 ^ (52 - expo x) := zpow_pos (by norm_num) _
  rw [abs_of_pos (mul_pos hx hs)] at h1 h2
  have n1 := nearest_mono (y := ((2 ^ 52 : Int) : Rat)) (y' := x * 2 ^ (52 - expo x)) (by push_cast; exact h1)
  have n2 := nearest_mono (y' := ((2 ^ 53 : Int) : Rat)) (y := x * 2 ^ (52 - expo x)) (by push_cast; exact h2)
  rw [nearest_int] at n1 n2
  have m1 : ((2 ^ 52 : Int) : Rat) ≤ (nearest (x * 2 ^ (52 - expo x)) : Rat) := by exact_mod_cast n1
  have m2 : (nearest (x * 2 ^ (52 - expo x)) : Rat) ≤ ((2 ^ 53 : Int) : Rat) := by exact_mod_cast n2
  unfold rnd
  rw [if_neg hx.ne', le_div_iff₀ hs, div_le_iff₀ hs, ← zpow_add₀ (by norm_num), ← zpow_add₀ (by norm_num),
    show expo x + (52 - expo x) = (52 : Int) by omega, show expo x + 1 + (52 - expo x) = (53 : Int) by omega]
  exact ⟨by exact_mod_cast n1, by exact_mod_cast n2⟩

theorem rnd_neg_range {x : Rat} (hx : x < 0) : -(2 : Rat) ^ (expo x + 1) ≤ rnd x ∧ rnd x ≤ -(2 : Rat) ^ expo x := by
  obtain ⟨h1, h2⟩ := scaled hx.ne
  have hs : (0 : Rat) < 2 ^ (52 - expo x) := zpow_pos (by norm_num) _
  rw [abs_of_neg (mul_neg_of_neg_of_pos hx hs)] at h1 h2
  have n1 := nearest_mono (y' := ((-2 ^ 52 : Int) : Rat)) (y := x * 2 ^ (52 - expo x)) (by push_cast; linarith)
  have n2 := nearest_mono (y := ((-2 ^ 53 : Int) : Rat)) (y' := x * 2 ^ (52 - expo x)) (by push_cast; linarith)
  rw [nearest_int] at n1 n2
  have m1 : (nearest (x * 2 ^ (52 - expo x)) : Rat) ≤ ((-2 ^ 52 : Int) : Rat) := by exact_mod_cast n1
  have m2 : ((-2 ^ 53 : Int) : Rat) ≤ (nearest (x * 2 ^ (52 - expo x)) : Rat) := by exact_mod_cast n2
  unfold rnd
  rw [if_neg hx.ne, le_div_iff₀ hs, div_le_iff₀ hs, neg_mul, neg_mul, ← zpow_add₀ (by norm_num), ← zpow_add₀ (by norm_num),
    show expo x + (52 - expo x) = (52 : Int) by omega, show expo x + 1 + (52 - expo x) = (53 : Int) by omega]
  push_cast at m1 m2
  exact ⟨by exact_mod_cast m2, by exact_mod_cast m1⟩

theorem rnd_same {x y : Rat} (hx : x ≠ 0) (hy : y ≠ 0) (he : expo x = expo y) (h : x ≤ y) : rnd x ≤ rnd y := by
  unfold rnd
  rw [if_neg hx, if_neg hy, he]
  have hs : (0 : Rat) < 2 ^ (52 - expo y) := zpow_pos (by norm_num) _
  have := nearest_mono (mul_le_mul_of_nonneg_right h hs.le)
  exact div_le_div_of_nonneg_right (by exact_mod_cast this) hs.le

/-- Rounding is monotone. -/
theorem rnd_mono {x y : Rat} (h : x ≤ y) : rnd x ≤ rnd y := by
  have two : (1 : Rat) ≤ 2 := by norm_num
  rcases lt_trichotomy x 0 with hx | rfl | hx
  · have rx : rnd x ≤ 0 := (rnd_neg_range hx).2.trans (neg_nonpos.mpr (zpow_nonneg (by norm_num) _))
    rcases lt_trichotomy y 0 with hy | rfl | hy
    · rcases (expo_le hy.ne hx.ne (by rw [abs_of_neg hx, abs_of_neg hy]; linarith)).lt_or_eq with hlt | he
      · refine (rnd_neg_range hx).2.trans (le_trans ?_ (rnd_neg_range hy).1)
        exact neg_le_neg (zpow_le_zpow_right₀ two (by omega))
      · exact rnd_same hx.ne hy.ne he.symm h
    · rw [rnd_zero]; exact rx
    · exact rx.trans (rnd_nonneg hy.le)
  · rw [rnd_zero]; exact rnd_nonneg h
  · have hy := lt_of_lt_of_le hx h
    rcases (expo_le hx.ne' hy.ne' (by rw [abs_of_pos hx, abs_of_pos hy]; exact h)).lt_or_eq with hlt | he
    · refine (rnd_pos_range hx).2.trans (le_trans ?_ (rnd_pos_range hy).1)
      exact zpow_le_zpow_right₀ two (by omega)
    · exact rnd_same hx.ne' hy.ne' he h

/-- A number that is an integer when scaled is not changed. -/
theorem rnd_fix {x : Rat} (n : Int) (h : x * 2 ^ (52 - expo x) = n) : rnd x = x := by
  unfold rnd
  split
  · rename_i hx; exact hx.symm
  · have hs : (0 : Rat) < 2 ^ (52 - expo x) := zpow_pos (by norm_num) _
    rw [h, nearest_int, ← h, mul_div_cancel_right₀ _ hs.ne']

/-- Powers of two are not changed. -/
theorem rnd_two_pow (k : Int) : rnd ((2 : Rat) ^ k) = 2 ^ k := by
  have hp : (0 : Rat) < 2 ^ k := zpow_pos (by norm_num) _
  have e : expo ((2 : Rat) ^ k) = k := expo_eq hp.ne' (by rw [abs_of_pos hp])
    (by rw [abs_of_pos hp]; exact zpow_lt_zpow_right₀ (by norm_num) (by omega))
  refine rnd_fix (2 ^ 52) ?_
  rw [e, ← zpow_add₀ (by norm_num), show k + (52 - k) = (52 : Int) by omega]
  norm_cast

theorem rnd_neg_two_pow (k : Int) : rnd (-(2 : Rat) ^ k) = -2 ^ k := by
  have hp : (0 : Rat) < 2 ^ k := zpow_pos (by norm_num) _
  have e : expo (-(2 : Rat) ^ k) = k := expo_eq (neg_ne_zero.mpr hp.ne') (by rw [abs_neg, abs_of_pos hp])
    (by rw [abs_neg, abs_of_pos hp]; exact zpow_lt_zpow_right₀ (by norm_num) (by omega))
  refine rnd_fix (-2 ^ 52) ?_
  rw [e, neg_mul, ← zpow_add₀ (by norm_num), show k + (52 - k) = (52 : Int) by omega]
  norm_cast

/-- Rounded numbers are not changed. -/
theorem rnd_rnd (x : Rat) : rnd (rnd x) = rnd x := by
  rcases lt_trichotomy x 0 with hx | rfl | hx
  · obtain ⟨h1, h2⟩ := rnd_neg_range hx
    have hz : rnd x < 0 := lt_of_le_of_lt h2 (neg_lt_zero.mpr (zpow_pos (by norm_num) _))
    rcases h1.lt_or_eq with h1 | h1
    · have e : expo (rnd x) = expo x := expo_eq hz.ne (by rw [abs_of_neg hz]; linarith) (by rw [abs_of_neg hz]; linarith)
      refine rnd_fix (nearest (x * 2 ^ (52 - expo x))) ?_
      rw [e]
      conv_lhs => rw [rnd, if_neg hx.ne]
      rw [div_mul_cancel₀ _ (zpow_pos (by norm_num) _).ne']
    · rw [← h1, rnd_neg_two_pow]
  · rw [rnd_zero, rnd_zero]
  · obtain ⟨h1, h2⟩ := rnd_pos_range hx
    have hz : 0 < rnd x := lt_of_lt_of_le (zpow_pos (by norm_num) _) h1
    rcases h2.lt_or_eq with h2 | h2
    · have e : expo (rnd x) = expo x := expo_eq hz.ne' (by rw [abs_of_pos hz]; exact h1) (by rw [abs_of_pos hz]; exact h2)
      refine rnd_fix (nearest (x * 2 ^ (52 - expo x))) ?_
      rw [e]
      conv_lhs => rw [rnd, if_neg hx.ne']
      rw [div_mul_cancel₀ _ (zpow_pos (by norm_num) _).ne']
    · rw [h2, rnd_two_pow]

theorem rnd_one : rnd 1 = 1 := by simpa using rnd_two_pow 0
theorem rnd_neg_one : rnd (-1) = -1 := by simpa using rnd_neg_two_pow 0

theorem rnd_one_le {x : Rat} (h : 1 ≤ x) : 1 ≤ rnd x := by
  have := rnd_mono h
  rwa [rnd_one] at this

theorem one_le_val {a : Dbl} : 1 ≤ Rounded.val a ↔ 1 ≤ toRat a := by
  show (1 : ℝ) ≤ ((toRat a : Rat) : ℝ) ↔ _
  exact_mod_cast Iff.rfl

theorem val_le_one {a : Dbl} : Rounded.val a ≤ 1 ↔ toRat a ≤ 1 := by
  show ((toRat a : Rat) : ℝ) ≤ (1 : ℝ) ↔ _
  exact_mod_cast Iff.rfl

noncomputable instance : Correct Dbl where
  Rounds x y := ∃ q : Rat, x = (q : ℝ) ∧ y = ((rnd q : Rat) : ℝ)
  mono := by
    rintro _ _ _ _ ⟨p, rfl, rfl⟩ ⟨q, rfl, rfl⟩ h
    exact_mod_cast rnd_mono (by exact_mod_cast h)
  again := by
    rintro _ _ ⟨p, rfl, rfl⟩
    exact ⟨rnd p, rfl, by rw [rnd_rnd]⟩
  zero := ⟨0, by simp, by simp [rnd_zero]⟩
  one := ⟨1, by simp, by simp [rnd_one]⟩
  negOne := ⟨-1, by simp, by simp [rnd_neg_one]⟩
  add a b := ⟨toRat a + toRat b, (Rat.cast_add _ _).symm, rfl⟩
  sub a b := ⟨toRat a - toRat b, (Rat.cast_sub _ _).symm, rfl⟩
  mul a b := ⟨toRat a * toRat b, (Rat.cast_mul _ _).symm, rfl⟩
  div a b _ := ⟨toRat a / toRat b, (Rat.cast_div _ _).symm, rfl⟩
  neg a := Rat.cast_neg _
  pow_nonneg a b ha hok := by
    have := rnd_nonneg (LawfulPow.pow_nonneg (K := Grid) (toRat a) (toRat b) (Rat.cast_nonneg.mp ha) hok)
    exact Rat.cast_nonneg.mpr this
  one_le_pow a b ha hb := by
    have h1 : (1 : Rat) ≤ toRat a := one_le_val.mp ha
    have h2 : (0 : Rat) ≤ toRat b := Rat.cast_nonneg.mp hb
    exact one_le_val.mpr (rnd_one_le (LawfulPow.one_le_pow (K := Grid) (toRat a) (toRat b) h1 h2))
  one_le_pow_neg a b h0 h1 hb := by
    have h0' : (0 : Rat) < toRat a := Rat.cast_pos.mp h0
    have h1' : toRat a ≤ 1 := val_le_one.mp h1
    have hb' : toRat b ≤ 0 := Rat.cast_nonpos.mp hb
    exact one_le_val.mpr (rnd_one_le (LawfulPow.one_le_pow_neg (K := Grid) (toRat a) (toRat b) h0' h1' hb'))
  powOk_zero a b ha hok := by
    have ha' : toRat a = 0 := Rat.cast_eq_zero.mp ha
    have := of_decide_eq_true hok
    rw [ha'] at this
    have hb : 0 ≤ toRat b := by simpa using this
    exact Rat.cast_nonneg.mpr hb
  sqrtOk_iff a := by
    show decide (0 ≤ toRat a) = true ↔ (0 : ℝ) ≤ ((toRat a : Rat) : ℝ)
    rw [decide_eq_true_eq]
    exact_mod_cast Iff.rfl

end Dbl
end LGAR
