import Verif.Spec.Rounding
import Verif.Spec.SampleRun
/-
The configuration of SampleRun.lean, run by the kernel in arithmetic that rounds to 53 bits.
-/
namespace LGAR.SampleDbl
open Dbl
open Sample (okAnd okAnd_exists)

/-- Reading a decimal number: the nearest `Dbl`. -/
def scan (s : List Char) : Option (Dbl × List Char) := (Grid.scan s).map (fun x => (ofRat (rnd (Grid.toRat x.1)), x.2))

/-- Environment: decimal numbers, the soil file of SampleRun.lean. -/
def env : Env Dbl :=
  { stod := fun s => (scan s).map (fun x => x.1), stoi := fun s => (Grid.scan s).map (fun x => CMath.toInt x.1),
    scanF := scan, files := fun _ => some Sample.soilLines, junk := 0, junkRec := ⟨[], 0, 0, 0, 0, 0⟩,
    junkSoil := ⟨0, 0, 0, 0, 0, 0, 0, 0, 0, 0⟩, junkConv := ⟨0, 0, 0, 0, 0, 0, 0, 0, 0, 0, 0⟩,
    junkMb := ⟨0, 0, 0, 0, 0, 0, 0, 0, 0, 0, 0, 0, 0, 0, 0, 0, 0, 0, 0, 0, 0, 0, 0, 0, 0⟩ }

/-- Precipitation and PET (mm/h) set before an Update. -/
def feed (x : Dbl × Dbl) (s : State Dbl) : State Dbl := { s with precipMm := x.1, petMm := x.2 }

/-- Test: the volumes inside an Update are at most `m`. -/
def subIn (m : Rat) (u : SubSt Dbl) : Bool :=
  decide (|toRat u.precipT| ≤ m ∧ |toRat u.volinT| ≤ m ∧ |toRat u.runoffT| ≤ m ∧ |toRat u.aetT| ≤ m ∧ |toRat u.rechT| ≤ m ∧
    |toRat u.volon| ≤ m ∧ |toRat u.volend| ≤ m)

/-- Test: the totals are at most `m`. -/
def booksIn (m : Rat) (b : MassVars Dbl) : Bool :=
  decide (|toRat b.volprecip| ≤ m ∧ |toRat b.volin| ≤ m ∧ |toRat b.volrunoff| ≤ m ∧ |toRat b.volAET| ≤ m ∧ |toRat b.volrech| ≤ m ∧
    |toRat b.volcalib| ≤ m)

/-- The states after each Update; stops with an error when a volume exceeds `m`. -/
def steps (m : Rat) (fuel : Nat) (sa : Bool) : List (Dbl × Dbl) → State Dbl → Res (List (State Dbl))
  | [], _ => .ok []
  | x :: xs, s => do
    let s' ← update fuel sa (feed x s)
    let r ← steps m fuel sa xs s'
    if (innerStates fuel sa (feed x s)).all (subIn m) && booksIn m s'.mb && decide (0 ≤ toRat s'.p.pondMax) then .ok (s' :: r)
    else .error (.abort "out of range")

theorem cast_abs_le {x : Dbl} {m : Rat} (h : |toRat x| ≤ m) : |Rounded.val x| ≤ (m : ℝ) := by
  show |((toRat x : Rat) : ℝ)| ≤ (m : ℝ)
  exact_mod_cast h

theorem subIn_sound {m : Rat} {u : SubSt Dbl} (h : subIn m u = true) : SubBooksIn (m : ℝ) u := by
  obtain ⟨h1, h2, h3, h4, h5, h6, h7⟩ := of_decide_eq_true h
  exact ⟨cast_abs_le h1, cast_abs_le h2, cast_abs_le h3, cast_abs_le h4, cast_abs_le h5, cast_abs_le h6, cast_abs_le h7⟩

theorem booksIn_sound {m : Rat} {b : MassVars Dbl} (h : booksIn m b = true) : BooksIn (m : ℝ) b := by
  obtain ⟨h1, h2, h3, h4, h5, h6⟩ := of_decide_eq_true h
  exact ⟨cast_abs_le h1, cast_abs_le h2, cast_abs_le h3, cast_abs_le h4, cast_abs_le h5, cast_abs_le h6⟩

theorem steps_run {m : Rat} {fuel : Nat} {sa : Bool} {s0 : State Dbl} : ∀ {xs : List (Dbl × Dbl)} {s : State Dbl}
    {h r : List (State Dbl)}, RunIn (m : ℝ) s0 h s → steps m fuel sa xs s = .ok r →
    RunIn (m : ℝ) s0 (h ++ r) (r.getLast?.getD s)
  | [], s, h, r, hr, he => by
    simp only [steps, Except.ok.injEq] at he
    subst he; simpa using hr
  | x :: xs, s, h, r, hr, he => by
    simp only [steps] at he
    cases hu : update fuel sa (feed x s) with
    | error e => simp [bind, Except.bind, hu] at he
    | ok s' =>
      cases hv : steps m fuel sa xs s' with
      | error e => simp [bind, Except.bind, hu, hv] at he
      | ok r' =>
        simp only [bind, Except.bind, hu, hv] at he
        split at he
        · rename_i ht
          simp only [Except.ok.injEq] at he
          subst he
          simp only [Bool.and_eq_true, List.all_eq_true, decide_eq_true_eq] at ht
          obtain ⟨⟨t1, t2⟩, t3⟩ := ht
          have := steps_run (RunIn.step hr ⟨x.1, x.2, s.p.soilTemp, s.calib, rfl⟩ hu (fun u hu => subIn_sound (t1 u hu))
            (booksIn_sound t2) (by show (0 : ℝ) ≤ ((toRat s'.p.pondMax : Rat) : ℝ); exact_mod_cast t3)) hv
          rw [List.append_assoc] at this
          have e : (r'.getLast?.getD s') = ((s' :: r').getLast?.getD s) := by
            rw [List.getLast?_cons]; rfl
          rw [e] at this
          exact this
        · simp at he

theorem steps_runAs {m : Rat} {fuel : Nat} {sa : Bool} {s0 : State Dbl} : ∀ {xs : List (Dbl × Dbl)} {s : State Dbl}
    {h r : List (State Dbl)}, RunAs sa s0 h s → steps m fuel sa xs s = .ok r → RunAs sa s0 (h ++ r) (r.getLast?.getD s)
  | [], s, h, r, hr, he => by
    simp only [steps, Except.ok.injEq] at he
    subst he; simpa using hr
  | x :: xs, s, h, r, hr, he => by
    simp only [steps] at he
    cases hu : update fuel sa (feed x s) with
    | error e => simp [bind, Except.bind, hu] at he
    | ok s' =>
      cases hv : steps m fuel sa xs s' with
      | error e => simp [bind, Except.bind, hu, hv] at he
      | ok r' =>
        simp only [bind, Except.bind, hu, hv] at he
        split at he
        · simp only [Except.ok.injEq] at he
          subst he
          have := steps_runAs (RunAs.step hr ⟨x.1, x.2, s.p.soilTemp, s.calib, rfl⟩ hu) hv
          rw [List.append_assoc] at this
          have e : (r'.getLast?.getD s') = ((s' :: r').getLast?.getD s) := by
            rw [List.getLast?_cons]; rfl
          rw [e] at this
          exact this
        · simp at he

/-- Initialize, then Updates with the given inputs. -/
def play (m : Rat) (cfg : List (List Char)) (fuel : Nat) (sa : Bool) (xs : List (Dbl × Dbl)) :
    Res (State Dbl × List (State Dbl)) := do
  let s0 ← bmiInitialize env cfg
  let r ← steps m fuel sa xs s0
  .ok (s0, r)

/-- A kernel-checked run from Initialize. -/
theorem play_run {m : Rat} {cfg : List (List Char)} {fuel : Nat} {sa : Bool} {xs : List (Dbl × Dbl)}
    {p : State Dbl × List (State Dbl) → Prop} [DecidablePred p]
    (h : okAnd (play m cfg fuel sa xs) (fun a => decide (p a)) = true) :
    ∃ s0 hist s, bmiInitialize env cfg = .ok s0 ∧ RunIn (m : ℝ) s0 hist s ∧ RunAs sa s0 hist s ∧ p (s0, hist) ∧ s = hist.getLast?.getD s0 := by
  obtain ⟨⟨s0, r⟩, he, hp⟩ := okAnd_exists h
  unfold play at he
  cases hi : bmiInitialize env cfg with
  | error e => rw [hi] at he; simp [bind, Except.bind] at he
  | ok s =>
    rw [hi] at he
    cases hv : steps m fuel sa xs s with
    | error e => simp only [bind, Except.bind, hv] at he; simp at he
    | ok r' =>
      simp only [bind, Except.bind, hv, Except.ok.injEq, Prod.mk.injEq] at he
      obtain ⟨rfl, rfl⟩ := he
      refine ⟨s, r', _, rfl, ?_, ?_, hp, rfl⟩
      · simpa using steps_run RunIn.nil hv
      · simpa using steps_runAs RunAs.nil hv

end LGAR.SampleDbl
