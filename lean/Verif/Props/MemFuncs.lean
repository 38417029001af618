import Verif.Model.MemFuncs
import Verif.Spec.MemFuncs
import Mathlib.Tactic.Ring
import Mathlib.Tactic.Linarith
import Mathlib.Algebra.Order.Ring.Int
/-
C93: the allocation helpers give arrays of zeros that can be numbered from 0 and from 1.
-/
namespace LGAR
variable {β : Type} (zero : β) (width : Nat) (grant : Nat → Bool)

theorem request_ok {n : Int} {width : Nat} (h0 : 0 ≤ n) (h1 : n < 2 ^ 31) (hw : width ≤ 8) : request true n width = some n.toNat := by
  unfold request
  rw [if_pos]
  refine ⟨rfl, h0, ?_⟩
  have : n * width ≤ n * 8 := Int.mul_le_mul_of_nonneg_left (by exact_mod_cast hw) h0
  omega

theorem peek_zeros (k : Nat) (i : Int) (x : β) :
    peek (some (List.replicate k zero)) i = .ok x ↔ 0 ≤ i ∧ i < k ∧ x = zero := by
  unfold peek
  simp only
  split
  · rename_i h
    constructor
    · intro h; simp at h
    · rintro ⟨h', _⟩; omega
  · rename_i h
    rw [List.getElem?_replicate]
    split
    · rename_i h'
      split at h'
      · simp only [Option.some.injEq] at h'
        subst h'
        simp only [Except.ok.injEq]
        constructor
        · rintro rfl; exact ⟨by omega, by omega, rfl⟩
        · rintro ⟨_, _, rfl⟩; rfl
      · simp at h'
    · rename_i h'
      constructor
      · intro h; simp at h
      · rintro ⟨_, _, _⟩
        rw [if_pos (by omega)] at h'
        simp at h'

/-- C93, one dimension: if the request is granted, exactly the elements 0 … size can be read and all are zero; so the array can be
numbered from 0 or from 1. -/
theorem C93_vector {size : Int} (h0 : 0 ≤ size) (h1 : size < 2 ^ 31 - 1) (hw : width ≤ 8) (hg : grant 0 = true) :
    ∃ a, alloc1 zero width grant size = .ok a ∧ ∀ i x, peek a i = .ok x ↔ 0 ≤ i ∧ i ≤ size ∧ x = zero := by
  unfold alloc1 addOne
  rw [if_pos h1, hg]
  refine ⟨_, rfl, fun i x => ?_⟩
  rw [request_ok (by omega) (by omega) hw, Option.map_some, peek_zeros]
  constructor
  · rintro ⟨k1, k2, k3⟩; exact ⟨k1, by omega, k3⟩
  · rintro ⟨k1, k2, k3⟩; exact ⟨k1, by omega, k3⟩

/-- C93: a refused request gives NULL, which no index can be read from. -/
theorem C93_vector_refused {size : Int} (h1 : size < 2 ^ 31 - 1) (hg : grant 0 = false) :
    alloc1 zero width grant size = .ok none ∧ ∀ i x, peek (none : Option (List β)) i ≠ .ok x := by
  unfold alloc1 addOne
  rw [if_pos h1, hg]
  refine ⟨?_, fun i x => by simp [peek]⟩
  simp [request, bind, Except.bind]

theorem fillRows_get (fcols : Int) (hc0 : 0 ≤ fcols) (hc1 : fcols < 2 ^ 31) (hw : width ≤ 8) : ∀ (todo k i : Nat), i < todo →
    (fillRows zero width grant fcols todo k)[i]? =
      some (if ∀ m, k ≤ m → m ≤ k + i → grant m = true then some (List.replicate fcols.toNat zero) else none)
  | 0, _, _, h => by omega
  | todo + 1, k, i, h => by
    unfold fillRows
    cases hg : grant k with
    | true =>
      rw [request_ok hc0 hc1 hw]
      cases i with
      | zero =>
        rw [if_pos]; · rfl
        intro m h1 h2
        have : m = k := by omega
        rw [this, hg]
      | succ i =>
        simp only [List.getElem?_cons_succ]
        rw [fillRows_get fcols hc0 hc1 hw todo (k + 1) i (by omega)]
        congr 2
        apply propext
        constructor
        · intro H m h1 h2
          rcases Nat.eq_or_lt_of_le h1 with e | e
          · rw [← e, hg]
          · exact H m (by omega) (by omega)
        · intro H m h1 h2
          exact H m (by omega) (by omega)
    | false =>
      have : request false fcols width = none := by simp [request]
      rw [this]
      simp only [List.getElem?_replicate, if_pos h]
      rw [if_neg]
      intro H
      have := H k le_rfl (by omega)
      rw [hg] at this
      cases this

theorem fillRows_length (fcols : Int) : ∀ (todo k : Nat), (fillRows zero width grant fcols todo k).length = todo
  | 0, _ => rfl
  | todo + 1, k => by
    unfold fillRows
    split
    · simp [fillRows_length]
    · simp

/-- C93, two dimensions: with the row pointers granted, element (i, j) can be read exactly if i is one of 0 … rows, j one of 0 … cols, and
no request up to that row was refused; it is zero. -/
theorem C93_table {rows cols : Int} (hr0 : 0 < rows) (hr1 : rows < 2 ^ 31 - 1) (hc0 : 0 < cols) (hc1 : cols < 2 ^ 31 - 1)
    (hw : width ≤ 8) (hg : grant 0 = true) :
    ∃ a, alloc2 zero width grant rows cols = .ok a ∧ ∀ i j x, peek2 a i j = .ok x ↔
      (0 ≤ i ∧ i ≤ rows) ∧ (0 ≤ j ∧ j ≤ cols) ∧ (∀ m : Nat, (m : Int) ≤ i + 1 → grant m = true) ∧ x = zero := by
  unfold alloc2 addOne
  rw [if_neg (by omega), if_pos hr1, if_pos hc1, hg]
  simp only [bind, Except.bind, pure, Except.pure]
  rw [request_ok (by omega) (by omega) (le_refl 8)]
  refine ⟨_, rfl, fun i j x => ?_⟩
  unfold peek2
  by_cases hi : 0 ≤ i ∧ i ≤ rows
  · have hp : peek (some (fillRows zero width grant (cols + 1) (rows + 1).toNat 1)) i =
        .ok (if ∀ m, 1 ≤ m → m ≤ 1 + i.toNat → grant m = true then some (List.replicate (cols + 1).toNat zero) else none) := by
      unfold peek
      simp only
      rw [if_neg (by omega), fillRows_get zero width grant (cols + 1) (by omega) (by omega) hw _ _ _ (by omega)]
    rw [hp]
    simp only [bind, Except.bind]
    split
    · rename_i H
      rw [peek_zeros]
      constructor
      · rintro ⟨k1, k2, k3⟩
        refine ⟨hi, ⟨k1, by omega⟩, fun m hm => ?_, k3⟩
        rcases Nat.eq_zero_or_pos m with rfl | hm'
        · exact hg
        · exact H m hm' (by omega)
      · rintro ⟨_, ⟨k1, k2⟩, _, k3⟩
        exact ⟨k1, by omega, k3⟩
    · rename_i H
      constructor
      · intro h; simp [peek] at h
      · rintro ⟨_, _, h, _⟩
        exact (H fun m h1 h2 => h m (by omega)).elim
  · constructor
    · intro h
      exfalso
      unfold peek at h
      simp only at h
      split at h
      · simp [bind, Except.bind] at h
      · rename_i h0
        rw [List.getElem?_eq_none (by rw [fillRows_length]; omega)] at h
        simp [bind, Except.bind] at h
    · rintro ⟨h, _⟩; exact (hi h).elim

/-- C93: with everything granted all (rows+1)·(cols+1) elements are zero. -/
theorem C93_table_granted {rows cols : Int} (hr0 : 0 < rows) (hr1 : rows < 2 ^ 31 - 1) (hc0 : 0 < cols) (hc1 : cols < 2 ^ 31 - 1)
    (hw : width ≤ 8) (hg : ∀ k, grant k = true) :
    ∃ a, alloc2 zero width grant rows cols = .ok a ∧ ∀ i j x, peek2 a i j = .ok x ↔
      (0 ≤ i ∧ i ≤ rows) ∧ (0 ≤ j ∧ j ≤ cols) ∧ x = zero := by
  obtain ⟨a, h1, h2⟩ := C93_table zero width grant hr0 hr1 hc0 hc1 hw (hg 0)
  refine ⟨a, h1, fun i j x => (h2 i j x).trans ?_⟩
  simp [hg]

/-- C93: asking for no rows or no columns ends the program, with the exit status of success. -/
theorem C93_empty_exits {rows cols : Int} (h : rows = 0 ∨ cols = 0) : alloc2 zero width grant rows cols = .error (.exit 0) := by
  unfold alloc2
  rw [if_pos h]
  rfl

/-- C93 fails for negative sizes: they are not rejected.  −1 rows give an array without a row, and no message. -/
theorem C93_negative_rows_fails {cols : Int} (hc0 : 0 < cols) (hc1 : cols < 2 ^ 31 - 1) (hg : grant 0 = true) :
    alloc2 zero width grant (-1) cols = .ok (some []) := by
  unfold alloc2 addOne
  rw [if_neg (by omega), if_pos (by omega), if_pos hc1, hg]
  simp [request, bind, Except.bind, pure, Except.pure, fillRows]

/-- Each element is 8 bytes wide and the third request (the second row) is refused: row 0 is there, row 1 is not. -/
example : (∃ a, alloc2 (0 : Int) 8 (fun k => k != 2) 2 3 = .ok a ∧ peek2 a 0 3 = .ok 0 ∧ ∀ x, peek2 a 1 1 ≠ .ok x) := by
  obtain ⟨a, h1, h2⟩ := C93_table (0 : Int) 8 (fun k => k != 2) (rows := 2) (cols := 3) (by omega) (by omega) (by omega) (by omega)
    (by omega) rfl
  refine ⟨a, h1, (h2 0 3 0).2 ⟨by omega, by omega, ?_, rfl⟩, fun x hx => ?_⟩
  · intro m hm
    have : m = 0 ∨ m = 1 := by omega
    rcases this with rfl | rfl <;> rfl
  · have := ((h2 1 1 x).1 hx).2.2.1 2 (by omega)
    simp at this

example : ∃ a, alloc1 (0 : Int) 8 (fun _ => true) 4 = .ok a ∧ peek a 4 = .ok 0 ∧ ∀ x, peek a 5 ≠ .ok x := by
  obtain ⟨a, h1, h2⟩ := C93_vector (0 : Int) 8 (fun _ => true) (size := 4) (by omega) (by omega) (by omega) rfl
  exact ⟨a, h1, (h2 4 0).2 ⟨by omega, by omega, rfl⟩, fun x hx => by have := (h2 5 x).1 hx; omega⟩

example : alloc1 (0 : Int) 4 (fun _ => false) 4 = .ok none := (C93_vector_refused 0 4 (fun _ => false) (size := 4) (by omega) rfl).1

example : alloc2 (0 : Int) 4 (fun _ => true) 0 4 = .error (.exit 0) := C93_empty_exits 0 4 (fun _ => true) (.inl rfl)

end LGAR
