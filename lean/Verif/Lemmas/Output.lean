import Verif.Model.Output
import Verif.Spec.Output
import Verif.Num.Lawful
import Verif.Num.Real
import Verif.Num.Grid
import Mathlib.Tactic.Ring
import Mathlib.Tactic.Linarith
import Mathlib.Tactic.NormNum
import Mathlib.Tactic.IntervalCases
import Mathlib.Tactic.FieldSimp

/-! Helper lemmas for the output files (C84). -/
set_option linter.unusedSectionVars false
namespace LGAR

/-- Digits, minus sign and point. -/
def numChar (c : Char) : Prop := ('0' ≤ c ∧ c ≤ '9') ∨ c = '-' ∨ c = '.'

theorem digit_spec (n : Nat) : digitVal (digit n) = some (n % 10) ∧ '0' ≤ digit n ∧ digit n ≤ '9' := by
  unfold digit
  have h : n % 10 < 10 := Nat.mod_lt _ (by omega)
  interval_cases (n % 10) <;> decide

theorem readFold_append (a b : List Char) (z : Option Nat) :
    (a ++ b).foldl (fun a c => a.bind fun n => (digitVal c).map fun d => 10 * n + d) z =
      b.foldl (fun a c => a.bind fun n => (digitVal c).map fun d => 10 * n + d)
        (a.foldl (fun a c => a.bind fun n => (digitVal c).map fun d => 10 * n + d) z) := List.foldl_append ..

theorem digitsW_fold : ∀ (w n : Nat), n < 10 ^ w →
    (digitsW w n).foldl (fun a c => a.bind fun n => (digitVal c).map fun d => 10 * n + d) (some 0) = some n
  | 0, n, h => by
    simp only [pow_zero, Nat.lt_one_iff] at h
    subst h; rfl
  | w + 1, n, h => by
    rw [digitsW, readFold_append, digitsW_fold w (n / 10) (by rw [Nat.div_lt_iff_lt_mul (by omega)]; rwa [pow_succ] at h)]
    simp only [List.foldl_cons, List.foldl_nil, Option.bind_some, (digit_spec n).1, Option.map_some, Option.some.injEq]
    omega

theorem digitsW_length : ∀ (w n : Nat), (digitsW w n).length = w
  | 0, _ => rfl
  | w + 1, n => by rw [digitsW, List.length_append, digitsW_length w]; rfl

theorem digitsW_chars : ∀ (w n : Nat) (c : Char), c ∈ digitsW w n → '0' ≤ c ∧ c ≤ '9'
  | 0, _, c, h => by simp [digitsW] at h
  | w + 1, n, c, h => by
    rw [digitsW, List.mem_append, List.mem_singleton] at h
    rcases h with h | rfl
    · exact digitsW_chars w _ c h
    · exact (digit_spec n).2

theorem natGo_fold : ∀ (fuel n : Nat), n < fuel →
    (natGo fuel n).foldl (fun a c => a.bind fun n => (digitVal c).map fun d => 10 * n + d) (some 0) = some n ∧ natGo fuel n ≠ []
  | 0, n, h => by omega
  | fuel + 1, n, h => by
    rw [natGo]
    split
    · refine ⟨?_, by simp⟩
      simp only [List.foldl_cons, List.foldl_nil, Option.bind_some, (digit_spec n).1, Option.map_some, Option.some.injEq]
      omega
    · refine ⟨?_, by simp⟩
      rw [readFold_append, (natGo_fold fuel (n / 10) (by omega)).1]
      simp only [List.foldl_cons, List.foldl_nil, Option.bind_some, (digit_spec n).1, Option.map_some, Option.some.injEq]
      omega

theorem natGo_chars : ∀ (fuel n : Nat) (c : Char), c ∈ natGo fuel n → '0' ≤ c ∧ c ≤ '9'
  | 0, _, c, h => by simp [natGo] at h
  | fuel + 1, n, c, h => by
    rw [natGo] at h
    split at h
    · rw [List.mem_singleton] at h; subst h; exact (digit_spec n).2
    · rw [List.mem_append, List.mem_singleton] at h
      rcases h with h | rfl
      · exact natGo_chars fuel _ c h
      · exact (digit_spec n).2

theorem natChars_read (n : Nat) : readNat (natChars n) = some n := by
  unfold readNat natChars
  obtain ⟨h1, h2⟩ := natGo_fold (n + 1) n (by omega)
  rw [if_neg h2, h1]

theorem natChars_chars {n : Nat} {c : Char} (h : c ∈ natChars n) : '0' ≤ c ∧ c ≤ '9' := natGo_chars _ _ _ h

theorem dash_not_digit : ¬ ('0' ≤ '-') := by decide
theorem point_not_digit : ¬ ('0' ≤ '.') := by decide

theorem readInt_pos {cs : List Char} (h : ∀ c ∈ cs, '0' ≤ c ∧ c ≤ '9') : readInt cs = (readNat cs).map fun (n : Nat) => (n : Int) := by
  unfold readInt
  split
  · next r => exact absurd (h '-' (by simp)).1 dash_not_digit
  · rfl

theorem intChars_read (i : Int) : readInt (intChars i) = some i := by
  unfold intChars
  split
  · simp only [readInt, natChars_read, Option.map_some, Option.some.injEq]; omega
  · rw [readInt_pos (fun c h => natChars_chars h), natChars_read]
    simp only [Option.map_some, Option.some.injEq]; omega

theorem natChars_int (n : Nat) : readInt (natChars n) = some (n : Int) := by
  rw [readInt_pos (fun c h => natChars_chars h), natChars_read]; rfl

theorem intChars_chars {i : Int} {c : Char} (h : c ∈ intChars i) : numChar c := by
  unfold intChars at h
  split at h
  · rcases List.mem_cons.mp h with rfl | h
    · exact .inr (.inl rfl)
    · exact .inl (natChars_chars h)
  · exact .inl (natChars_chars h)

section Exact
variable {K : Type} [Field K] [LinearOrder K] [IsStrictOrderedRing K] [CMath K] [LawfulNum K]

/-- What `printf("%.pf")` must do: the text is made of digits, sign and point, and is the number up to half of the last decimal. -/
class LawfulPrint (K : Type) [Field K] [LinearOrder K] [CPrint K] : Prop where
  read : ∀ (p : Nat) (x : K), 0 < p → ∃ y : K, readDec (CPrint.fixed p x) = some y ∧ |y - x| ≤ 1 / 2 / 10 ^ p
  chars : ∀ (p : Nat) (x : K), ∀ c ∈ CPrint.fixed p x, numChar c

theorem roundDec_close [LawfulInt K] (p : Nat) (x : K) : |(roundDec p x : K) - |x| * 10 ^ p| ≤ 1 / 2 := by
  have hy : (0 : K) ≤ |x| * 10 ^ p := by positivity
  have e : CMath.fabs x * CMath.ofInt (10 ^ p) = |x| * 10 ^ p := by rw [fabs_eq, ofInt_eq]; push_cast; rfl
  obtain ⟨h1, h2⟩ := LawfulInt.toInt_nonneg _ hy
  unfold roundDec
  simp only [e]
  set y := |x| * 10 ^ p
  set k := CMath.toInt y
  have hk : 0 ≤ k := by
    by_contra hk
    have : (k : K) + 1 ≤ 0 := by exact_mod_cast (by omega : k + 1 ≤ 0)
    linarith
  have hc : ((k.toNat : Nat) : K) = (k : K) := by
    have : ((k.toNat : Nat) : Int) = k := Int.toNat_of_nonneg hk
    exact_mod_cast congrArg (Int.cast : Int → K) this
  have l5 : (0.5 : K) = 1 / 2 := by norm_num
  rw [l5, ofInt_eq]
  split_ifs with a b c
  · rw [hc, abs_le]; constructor <;> linarith
  · push_cast; rw [hc, abs_le]; constructor <;> linarith
  · rw [hc, abs_le]; constructor <;> linarith
  · push_cast; rw [hc, abs_le]; constructor <;> linarith

theorem readAbs_parts {a b : List Char} {m n : Nat} (ha : ∀ c ∈ a, '0' ≤ c ∧ c ≤ '9') (hb : ∀ c ∈ b, '0' ≤ c ∧ c ≤ '9')
    (hm : readNat a = some m) (hn : readNat b = some n) :
    (readAbs (a ++ '.' :: b) : Option K) = some ((m : K) + (n : K) / 10 ^ b.length) := by
  have e : (a ++ '.' :: b).splitOn '.' = [a, b] := by
    rw [List.splitOn_append_cons_of_beq _ _ (by simp), List.splitOn_eq_singleton (fun h => point_not_digit (ha _ h).1),
      List.splitOn_eq_singleton (fun h => point_not_digit (hb _ h).1)]
    rfl
  unfold readAbs
  rw [e]
  simp only [hm, hn, Option.bind_some, Option.map_some]

theorem readDec_pos {cs : List Char} {c : Char} {r : List Char} (hcs : cs = c :: r) (h : '0' ≤ c) :
    (readDec cs : Option K) = readAbs cs := by
  unfold readDec
  split
  · next r' =>
    obtain rfl := (List.cons.inj hcs).1
    exact absurd h dash_not_digit
  · rfl

theorem exactFixed_lawful [LawfulInt K] (p : Nat) (x : K) : (0 < p → ∃ y : K, readDec (exactFixed p x) = some y ∧
    |y - x| ≤ 1 / 2 / 10 ^ p) ∧ ∀ c ∈ exactFixed p x, numChar c := by
  have hc := roundDec_close p x
  unfold exactFixed
  simp only
  set n := roundDec p x
  have hten : (0 : K) < 10 ^ p := by positivity
  refine ⟨fun hp => ?_, ?_⟩
  · have hr : readNat (digitsW p (n % 10 ^ p)) = some (n % 10 ^ p) := by
      unfold readNat
      rw [if_neg (fun e => by have := congrArg List.length e; rw [digitsW_length] at this; simp at this; omega),
        digitsW_fold _ _ (Nat.mod_lt _ (by positivity))]
    have key := readAbs_parts (K := K) (fun c h => natChars_chars h) (fun c h => digitsW_chars _ _ c h)
      (natChars_read (n / 10 ^ p)) hr
    rw [digitsW_length] at key
    have hv : ((n / 10 ^ p : Nat) : K) + ((n % 10 ^ p : Nat) : K) / 10 ^ p = (n : K) / 10 ^ p := by
      have : (n : K) = (10 ^ p : K) * ((n / 10 ^ p : Nat) : K) + ((n % 10 ^ p : Nat) : K) := by
        exact_mod_cast (Nat.div_add_mod n (10 ^ p)).symm
      rw [this]
      field_simp
    rw [hv] at key
    have hb : |(n : K) / 10 ^ p - abs x| ≤ 1 / 2 / 10 ^ p := by
      have e : (n : K) / 10 ^ p - |x| = ((n : K) - |x| * 10 ^ p) / 10 ^ p := by field_simp
      rw [e, abs_div, abs_of_pos hten]
      exact div_le_div_of_nonneg_right hc hten.le
    split
    · next hx =>
      refine ⟨-((n : K) / 10 ^ p), ?_, ?_⟩
      · simp only [readDec, key, Option.map_some]
      · rw [abs_of_neg hx] at hb
        rw [show -((n : K) / 10 ^ p) - x = -((n : K) / 10 ^ p - -x) by ring, abs_neg]
        exact hb
    · next hx =>
      obtain ⟨c, r, hcr⟩ : ∃ c r, natChars (n / 10 ^ p) = c :: r := by
        have := (natGo_fold (n / 10 ^ p + 1) (n / 10 ^ p) (by omega)).2
        unfold natChars
        exact List.exists_cons_of_ne_nil this
      refine ⟨(n : K) / 10 ^ p, ?_, by rwa [abs_of_nonneg (not_lt.mp hx)] at hb⟩
      rw [readDec_pos (c := c) (r := r ++ '.' :: digitsW p (n % 10 ^ p)) (by rw [hcr]; rfl)
        (natChars_chars (n := n / 10 ^ p) (by rw [hcr]; simp)).1]
      exact key
  · have : ∀ c ∈ natChars (n / 10 ^ p) ++ '.' :: digitsW p (n % 10 ^ p), numChar c := by
      intro c h
      rw [List.mem_append, List.mem_cons] at h
      rcases h with h | rfl | h
      · exact .inl (natChars_chars h)
      · exact .inr (.inr rfl)
      · exact .inl (digitsW_chars _ _ c h)
    split
    · intro c h
      rcases List.mem_cons.mp h with rfl | h
      · exact .inr (.inl rfl)
      · exact this c h
    · exact this

end Exact

noncomputable instance : CPrint ℝ := ⟨exactFixed⟩
instance : CPrint Grid := ⟨exactFixed⟩

instance : LawfulPrint ℝ := ⟨fun p x h => (exactFixed_lawful p x).1 h, fun p x => (exactFixed_lawful p x).2⟩
instance : LawfulPrint Grid := ⟨fun p x h => (exactFixed_lawful p x).1 h, fun p x => (exactFixed_lawful p x).2⟩

end LGAR
