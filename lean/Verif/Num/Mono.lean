import Verif.Num.Grid
import Verif.Num.Real
/-
`pow` is monotone in the base.
-/
namespace LGAR

/-- For a nonnegative exponent and nonnegative bases `pow` is monotone in the base and at most 1 for bases up to 1. -/
class LawfulMono (K : Type) [Field K] [LinearOrder K] [IsStrictOrderedRing K] [CMath K] : Prop where
  pow_le_pow : ∀ a b c : K, 0 ≤ a → a ≤ b → 0 ≤ c → CMath.pow a c ≤ CMath.pow b c
  pow_le_one : ∀ a c : K, 0 ≤ a → a ≤ 1 → 0 ≤ c → CMath.pow a c ≤ 1

instance : LawfulMono ℝ where
  pow_le_pow a b c ha hab hc := Real.rpow_le_rpow ha hab hc
  pow_le_one a c ha h1 hc := Real.rpow_le_one ha h1 hc

namespace Grid

theorem rootGo_pow {q n : Nat} : ∀ (k lo step : Nat), lo ^ q ≤ n → rootGo q n k lo step ^ q ≤ n
  | 0, lo, step, h => h
  | k + 1, lo, step, h => by
    simp only [rootGo]
    refine rootGo_pow k _ _ ?_
    split
    · assumption
    · exact h

theorem rootGo_lt {q n : Nat} : ∀ (k lo step : Nat), step = 2 ^ k / 2 → rootGo q n k lo step < lo + 2 ^ k
  | 0, lo, step, _ => by simp [rootGo]
  | k + 1, lo, step, hs => by
    simp only [rootGo]
    have e : step = 2 ^ k := by rw [hs, pow_succ]; omega
    have := rootGo_lt (q := q) (n := n) k (if (lo + step) ^ q ≤ n then lo + step else lo) (step / 2) (by rw [e])
    refine lt_of_lt_of_le this ?_
    split
    · rw [e, pow_succ]; omega
    · rw [pow_succ]; omega

theorem rootGo_mono {q n n' : Nat} (hq : q ≠ 0) (h : n ≤ n') :
    rootGo q n 81 0 (2 ^ 80) ≤ rootGo q n' 81 0 (2 ^ 80) := by
  refine le_rootGo ((rootGo_pow (n := n) 81 0 _ (by simp [hq])).trans h) hq 81 0 ?_ _ (by norm_num)
  exact rootGo_lt 81 0 _ (by norm_num)

theorem root_mono {q : Nat} (hq : q ≠ 0) {x y : Rat} (h : x ≤ y) : root q x ≤ root q y := by
  unfold root
  simp only [Rat.mkRat_eq_div]
  have h1 : (x * ((1000000000 ^ q : Nat) : Rat)).floor ≤ (y * ((1000000000 ^ q : Nat) : Rat)).floor :=
    Int.floor_le_floor (mul_le_mul_of_nonneg_right h (by positivity))
  have h2 := rootGo_mono (q := q) hq (Int.toNat_le_toNat h1)
  refine div_le_div_of_nonneg_right ?_ (by norm_num)
  exact_mod_cast h2

theorem root_one {q : Nat} (hq : q ≠ 0) : root q 1 ≤ 1 := by
  unfold root
  simp only [one_mul, Rat.mkRat_eq_div]
  have h0 : ((1000000000 ^ q : Nat) : Rat).floor.toNat = 1000000000 ^ q := by
    have : ((1000000000 ^ q : Nat) : Rat).floor = ((1000000000 ^ q : Nat) : Int) := Int.floor_natCast (R := Rat) _
    rw [this]; exact Int.toNat_natCast _
  rw [h0, div_le_one (by norm_num)]
  have := rootGo_pow (q := q) (n := 1000000000 ^ q) 81 0 (2 ^ 80) (by simp [hq])
  have h1 : rootGo q (1000000000 ^ q) 81 0 (2 ^ 80) ≤ 1000000000 := (Nat.pow_le_pow_iff_left hq).mp this
  exact_mod_cast h1

theorem zpow_mono {a b : Rat} {n : Int} (ha : 0 ≤ a) (h : a ≤ b) (hn : 0 ≤ n) : a ^ n ≤ b ^ n := by
  obtain ⟨k, rfl⟩ := Int.eq_ofNat_of_zero_le hn
  simp only [zpow_natCast]
  exact pow_le_pow_left₀ ha h k

theorem pow_mono {a b c : Rat} (ha : 0 ≤ a) (h : a ≤ b) (hc : 0 ≤ c) : pow a c ≤ pow b c := by
  unfold pow
  split
  · exact zpow_mono ha h (Rat.num_nonneg.mpr hc)
  · exact root_mono c.den_nz (zpow_mono ha h (Rat.num_nonneg.mpr hc))

instance : LawfulMono Grid where
  pow_le_pow a b c ha h hc := pow_mono (a := a) (b := b) (c := c) ha h hc
  pow_le_one a c ha h hc := by
    refine le_trans (pow_mono (a := a) (b := (1 : Rat)) (c := c) ha h hc) ?_
    unfold pow
    rw [one_zpow]
    split
    · exact le_refl _
    · exact root_one c.den_nz

end Grid
end LGAR
