import Verif.Num.Lawful
/-
A third exact instance for kernel-evaluated examples of whole runs: rational numbers where `pow` and `sqrt` with irrational
value are rounded down to multiples of 1e-9.  It satisfies `LawfulNum`, `LawfulInt` and `LawfulPow`, so every theorem over
fields with these laws applies to it.
-/
namespace LGAR

/-- Rational numbers with rounded `pow` and `sqrt`. -/
def Grid : Type := Rat

namespace Grid
instance : Field Grid := inferInstanceAs (Field Rat)
instance : LinearOrder Grid := inferInstanceAs (LinearOrder Rat)
instance : IsStrictOrderedRing Grid := inferInstanceAs (IsStrictOrderedRing Rat)
instance : Repr Grid := inferInstanceAs (Repr Rat)

/-- The number, seen as a rational. -/
def toRat (x : Grid) : Rat := x
/-- A rational, seen as a grid number. -/
def ofRat (x : Rat) : Grid := x

/-- `q`-th root by bisection with `bits` rounds, for arguments below `2^bits`. -/
def rootGo (q n : Nat) : Nat → Nat → Nat → Nat
  | 0, lo, _ => lo
  | k + 1, lo, step => rootGo q n k (if (lo + step) ^ q ≤ n then lo + step else lo) (step / 2)

/-- `q`-th root of `x`, rounded down to a multiple of 1e-9. -/
def root (q : Nat) (x : Rat) : Rat :=
  let n := (x * ((1000000000 ^ q : Nat) : Rat)).floor.toNat
  mkRat (rootGo q n 81 0 (2 ^ 80)) 1000000000

/-- `a ^ b`, rounded when `b` is not an integer. -/
def pow (a b : Rat) : Rat := if b.den = 1 then a ^ b.num else root b.den (a ^ b.num)

instance : CMath Grid where
  pow a b := pow a b
  powOk a b := decide (0 < toRat a ∨ (toRat a = 0 ∧ 0 ≤ toRat b) ∨ (toRat a ≠ 0 ∧ (toRat b).den = 1))
  sqrt x := root 2 x
  sqrtOk x := decide (0 ≤ toRat x)
  exp x := if toRat x = 0 then (1 : Rat) else if toRat x < 0 then (0 : Rat) else (2 : Rat)
  fabs x := |x|
  fmin a b := min a b
  fmax a b := max a b
  divOk _ b := decide (b ≠ 0)
  divInf a b := decide (b = 0 ∧ a ≠ 0)
  divFin _ b := decide (b ≠ 0)
  ofInt i := (i : Rat)
  toInt := ratTrunc

instance : LawfulNum Grid where
  divOk_iff a b := by simp [CMath.divOk]
  divInf_iff a b := by simp [CMath.divInf]
  divFin_iff a b := by simp [CMath.divFin]
  fabs_eq a := rfl
  fmin_eq a b := rfl
  fmax_eq a b := rfl
  ofInt_eq i := rfl

instance : LawfulInt Grid where
  toInt_nonneg := LawfulInt.toInt_nonneg (K := Rat)
  toInt_neg := LawfulInt.toInt_neg (K := Rat)

theorem le_rootGo {q n t : Nat} (ht : t ^ q ≤ n) (hq : q ≠ 0) : ∀ (k lo : Nat), t < lo + 2 ^ k → ∀ step, step = 2 ^ k / 2 →
    t ≤ rootGo q n k lo step
  | 0, lo, h, step, _ => by simp only [rootGo]; simp at h; omega
  | k + 1, lo, h, step, hs => by
    simp only [rootGo]
    have e : step = 2 ^ k := by rw [hs, pow_succ]; omega
    refine le_rootGo ht hq k _ ?_ _ (by rw [e])
    split
    · rw [pow_succ] at h; omega
    · rename_i hc
      have : t < lo + step := by
        by_contra hle
        exact hc (le_trans (Nat.pow_le_pow_left (by omega) q) ht)
      omega

theorem root_nonneg (q : Nat) (x : Rat) : 0 ≤ root q x := by
  unfold root
  rw [Rat.mkRat_eq_div]
  positivity

theorem one_le_root {q : Nat} (hq : q ≠ 0) {x : Rat} (hx : 1 ≤ x) : 1 ≤ root q x := by
  unfold root
  have h1 : (1000000000 : Nat) ^ q ≤ (x * ((1000000000 ^ q : Nat) : Rat)).floor.toNat := by
    have : ((1000000000 ^ q : Nat) : Int) ≤ (x * ((1000000000 ^ q : Nat) : Rat)).floor := by
      rw [Rat.le_floor_iff]
      have : (0 : Rat) ≤ ((1000000000 ^ q : Nat) : Rat) := by positivity
      push_cast at this ⊢
      nlinarith
    omega
  have h2 := le_rootGo h1 hq 81 0 (by norm_num) (2 ^ 80) (by norm_num)
  rw [Rat.mkRat_eq_div, le_div_iff₀ (by norm_num)]
  push_cast
  have : ((1000000000 : Nat) : Rat) ≤ ((rootGo q (x * ((1000000000 ^ q : Nat) : Rat)).floor.toNat 81 0 (2 ^ 80) : Nat) : Rat) := by
    exact_mod_cast h2
  push_cast at this
  linarith

theorem pow_ge_one {a b : Rat} (h : 1 ≤ a ^ b.num) : 1 ≤ pow a b := by
  unfold pow
  split
  · exact h
  · exact one_le_root b.den_nz h

instance : LawfulPow Grid where
  pow_nonneg a b ha _ := by
    show (0 : Rat) ≤ pow a b
    unfold pow
    split
    · exact zpow_nonneg ha _
    · exact root_nonneg _ _
  one_le_pow a b ha hb := pow_ge_one (one_le_zpow₀ (a := toRat a) ha (Rat.num_nonneg.mpr hb))
  one_le_pow_neg a b h0 h1 hb := pow_ge_one (one_le_zpow_of_nonpos₀ (a := toRat a) h0 h1 (Rat.num_nonpos.mpr hb))
  powOk_pos a b ha := by simp only [CMath.powOk, decide_eq_true_eq]; exact Or.inl ha
  powOk_zero b := by
    simp only [CMath.powOk, decide_eq_true_eq]
    constructor
    · rintro (h | h | h)
      · exact absurd h (lt_irrefl _)
      · exact h.2
      · exact absurd rfl h.1
    · intro h; exact Or.inr (Or.inl ⟨rfl, h⟩)
  sqrtOk_iff a := by simp only [CMath.sqrtOk, decide_eq_true_eq]; rfl
  sqrt_nonneg a := root_nonneg 2 a

/-- Digits to a number. -/
def digits (s : List Char) : Nat := s.foldl (fun n c => n * 10 + (c.toNat - '0'.toNat)) 0

/-- Numbers of the form `12` or `12.34` at the start of a text, after blanks; the rest of the text. -/
def scan (s : List Char) : Option (Grid × List Char) :=
  let s := s.dropWhile isBlank
  let ip := s.takeWhile Char.isDigit
  if ip.isEmpty then none
  else
    match s.drop ip.length with
    | '.' :: t =>
      let fp := t.takeWhile Char.isDigit
      some (ofRat (mkRat (digits (ip ++ fp)) (10 ^ fp.length)), t.drop fp.length)
    | t => some (ofRat (digits ip : Rat), t)

end Grid
end LGAR
