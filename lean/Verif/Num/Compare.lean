import Verif.Num.Lawful
import Verif.Num.Rounded
/-
The comparisons of floating-point numbers.  The three laws hold for the comparisons of IEEE 754 on all values, NaN and infinities
included, because every comparison with NaN is false.
-/
namespace LGAR

class Compared (α : Type) [LT α] [LE α] [BEq α] : Prop where
  lt_irrefl : ∀ a : α, ¬ a < a
  not_le_of_lt : ∀ a b : α, a < b → ¬ b ≤ a
  not_lt_of_beq : ∀ a b : α, (a == b) = true → ¬ a < b ∧ ¬ b < a

/-- Exact numbers. -/
instance {K : Type} [LinearOrder K] : Compared K where
  lt_irrefl := _root_.lt_irrefl
  not_le_of_lt _ _ h := not_le.mpr h
  not_lt_of_beq a b h := by
    have : a = b := by simpa using h
    subst this
    exact ⟨_root_.lt_irrefl _, _root_.lt_irrefl _⟩

/-- Rounded numbers. -/
theorem Rounded.compared {α : Type} [Add α] [Sub α] [Mul α] [Div α] [Zero α] [One α] [OfScientific α] [LT α] [LE α] [BEq α]
    [CMath α] [Rounded α] : Compared α where
  lt_irrefl a h := by rw [Rounded.lt_iff] at h; exact _root_.lt_irrefl _ h
  not_le_of_lt a b h h' := by rw [Rounded.lt_iff] at h; rw [Rounded.le_iff] at h'; exact absurd h (not_lt.mpr h')
  not_lt_of_beq a b h := by
    rw [Rounded.beq_iff] at h
    rw [Rounded.lt_iff a b, Rounded.lt_iff b a, h]
    exact ⟨_root_.lt_irrefl _, _root_.lt_irrefl _⟩

instance : Compared Dbl := Rounded.compared

/-- Numbers with a NaN (`none`): every comparison with it is false. -/
def WithNaN : Type := Option Rat

namespace WithNaN
instance : LT WithNaN := ⟨fun (a b : Option Rat) => ∃ x y, a = some x ∧ b = some y ∧ x < y⟩
instance : LE WithNaN := ⟨fun (a b : Option Rat) => ∃ x y, a = some x ∧ b = some y ∧ x ≤ y⟩
instance : BEq WithNaN := ⟨fun (a b : Option Rat) => match a, b with | some x, some y => x == y | _, _ => false⟩

/-- NaN is not equal to itself, and the laws hold nevertheless. -/
instance : Compared WithNaN where
  lt_irrefl a := by
    rintro ⟨x, y, h1, h2, h⟩
    rw [h1] at h2
    cases h2
    exact _root_.lt_irrefl _ h
  not_le_of_lt a b := by
    rintro ⟨x, y, h1, h2, h⟩ ⟨x', y', h3, h4, h'⟩
    rw [h2] at h3
    rw [h1] at h4
    cases h3
    cases h4
    exact absurd h (not_lt.mpr h')
  not_lt_of_beq a b h := by
    have key : ∀ x y : Rat, a = some x → b = some y → x = y := by
      rintro x y rfl rfl
      have : (x == y) = true := h
      simpa using this
    constructor
    · rintro ⟨x, y, h1, h2, h⟩
      rw [key x y h1 h2] at h; exact _root_.lt_irrefl _ h
    · rintro ⟨x, y, h1, h2, h⟩
      rw [key y x h2 h1] at h; exact _root_.lt_irrefl _ h

/-- The NaN. -/
def nan : WithNaN := (none : Option Rat)

example : (nan == nan) = false := rfl

end WithNaN
end LGAR
