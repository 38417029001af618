import Verif.Spec.Writes
import Verif.Lemmas.Twin
import Verif.Props.Bmi
/-
C96: writing to a result of the model does not act on the model.
-/
set_option linter.unusedSectionVars false
namespace LGAR

section Free
variable {α : Type} [Add α] [Sub α] [Mul α] [Div α] [Neg α] [Zero α] [One α] [OfScientific α]
  [LT α] [LE α] [DecidableLT α] [DecidableLE α] [BEq α] [CMath α]

/-- The objects behind the results. -/
def Ref.isResult : Ref → Bool
  | .precip | .pet | .aet | .runoff | .giuh | .storage | .Q | .infil | .rech | .Qgw | .massBalance | .moistureWf | .depthWf => true
  | _ => false

theorem isResult_iff (r : Ref) : r.isResult = true ↔ r.spec.1 ∈ resultNames := by cases r <;> decide +kernel

theorem SameButResults.refl (s : State α) : SameButResults s s := ⟨s.conv, s.p.moistureWf, s.p.depthWf, rfl⟩

theorem SameButResults.trans {a b c : State α} (h1 : SameButResults a b) (h2 : SameButResults b c) : SameButResults a c := by
  obtain ⟨x, y, z, rfl⟩ := h1
  obtain ⟨x', y', z', rfl⟩ := h2
  exact ⟨x', y', z', rfl⟩

theorem store_result (s : State α) (r : Ref) (d : Data α) (h : r.isResult = true) : SameButResults s (r.store s d) := by
  cases r <;> first | (simp [Ref.isResult] at h; done) | (cases d <;> exact ⟨_, _, _, rfl⟩)

theorem store_same_results {s t : State α} (h : SameButResults s t) (r : Ref) (d : Data α) (hr : r.isResult = false) :
    SameButResults (r.store s d) (r.store t d) := by
  obtain ⟨x, y, z, rfl⟩ := h
  cases r <;> first | (simp [Ref.isResult] at hr; done) | (cases d <;> exact ⟨_, _, _, rfl⟩)

theorem load_same_results {s t : State α} (h : SameButResults s t) (r : Ref) (hr : r.isResult = false) : r.load t = r.load s := by
  obtain ⟨x, y, z, rfl⟩ := h
  cases r <;> first | rfl | (simp [Ref.isResult] at hr; done)

theorem gridSize_same_results {s t : State α} (h : SameButResults s t) (g : Int) : gridSize t g = gridSize s g := by
  obtain ⟨x, y, z, rfl⟩ := h
  rfl

/-- A SetValue of any other variable gives the same in two objects that differ in the results only. -/
theorem setValue_same_results {s t : State α} (h : SameButResults s t) (n : String) (d : Data α) (hn : n ∉ resultNames) :
    Both SameButResults (setValue s n d) (setValue t n d) := by
  unfold setValue
  refine Both.bind (R := fun a b => b = a ∧ n = a.spec.1) (Both.refl fun r hr => ⟨rfl, valuePtr_name hr⟩) fun r r' _ _ e => ?_
  obtain ⟨rfl, hr⟩ := e
  have hr' : r'.isResult = false := by
    rw [← Bool.not_eq_true, isResult_iff, ← hr]; exact hn
  have e1 : varNbytes t n = varNbytes s n := by unfold varNbytes; rw [gridSize_same_results h]
  rw [e1, load_same_results h r' hr']
  refine Both.bind (R := fun a b => b = a) (Both.refl fun _ _ => rfl) fun k k' _ _ e => ?_
  subst e
  have hs := fun d => store_same_results h r' d hr'
  cases r'.load s <;> cases d <;> simp only
  · refine Both.bind (R := fun a b => b = a) (Both.refl fun _ _ => rfl) fun l l' _ _ e => ?_
    subst e; exact hs (.ints l')
  · rfl
  · rfl
  · refine Both.bind (R := fun a b => b = a) (Both.refl fun _ _ => rfl) fun l l' _ _ e => ?_
    subst e; exact hs (.dbls l')

theorem setAt_same_results {s t : State α} (h : SameButResults s t) (n : String) (inds : List Int) (d : Data α)
    (hn : n ∉ resultNames) : Both SameButResults (setValueAtIndices s n inds d) (setValueAtIndices t n inds d) := by
  unfold setValueAtIndices
  refine Both.bind (R := fun a b => b = a ∧ n = a.spec.1) (Both.refl fun r hr => ⟨rfl, valuePtr_name hr⟩) fun r r' _ _ e => ?_
  obtain ⟨rfl, hr⟩ := e
  have hr' : r'.isResult = false := by
    rw [← Bool.not_eq_true, isResult_iff, ← hr]; exact hn
  rw [load_same_results h r' hr']
  have hs := fun d => store_same_results h r' d hr'
  cases r'.load s <;> cases d <;> simp only
  · refine Both.bind (R := fun a b => b = a) (Both.refl fun _ _ => rfl) fun l l' _ _ e => ?_
    subst e; exact hs (.ints l')
  · rfl
  · rfl
  · refine Both.bind (R := fun a b => b = a) (Both.refl fun _ _ => rfl) fun l l' _ _ e => ?_
    subst e; exact hs (.dbls l')

theorem SameButResults.frozen {s t : State α} (h : SameButResults s t) : Both SameButResults (applyFrozen s) (applyFrozen t) := by
  obtain ⟨x, y, z, rfl⟩ := h
  unfold applyFrozen
  simp only
  split
  · refine Both.bind (R := fun a b => b = a) (Both.refl fun _ _ => rfl) fun a b _ _ e => ?_
    subst e; exact ⟨_, _, _, rfl⟩
  · exact ⟨_, _, _, rfl⟩

theorem SameButResults.cal {s t : State α} (h : SameButResults s t) :
    Both (fun a b => SameButResults a.1 b.1 ∧ b.2 = a.2) (applyCalib s) (applyCalib t) := by
  obtain ⟨x, y, z, rfl⟩ := h
  unfold applyCalib
  simp only
  split
  · refine Both.bind (R := fun a b => SameButResults a.1 b.1 ∧ b.2 = a.2) ?_ fun a b _ _ e => ?_
    · unfold updateCalib
      simp only
      refine Both.bind (R := fun a b => b = a) (Both.refl fun _ _ => rfl) fun a b _ _ e => ?_
      subst e
      refine Both.bind (R := fun a b => b = a) (Both.refl fun _ _ => rfl) fun a b _ _ e => ?_
      subst e
      refine Both.bind (R := fun a b => b = a) (Both.refl fun _ _ => rfl) fun a b _ _ e => ?_
      subst e
      exact ⟨⟨_, _, _, rfl⟩, rfl⟩
    · obtain ⟨⟨x, y, z, e⟩, e2⟩ := e
      exact ⟨⟨x, y, z, by rw [e]⟩, e2⟩
  · exact ⟨⟨_, _, _, rfl⟩, rfl⟩

theorem SameButResults.pre {s t : State α} (h : SameButResults s t) :
    Both (fun a b => SameButResults a.1 b.1 ∧ b.2 = a.2) (updatePre s) (updatePre t) := by
  unfold updatePre
  refine Both.bind h.frozen fun a b _ _ h => ?_
  refine Both.bind h.cal fun a b _ _ h => ?_
  obtain ⟨a, da⟩ := a
  obtain ⟨b, db⟩ := b
  obtain ⟨⟨x, y, z, e1⟩, e2⟩ := h
  simp only at e1 e2
  subst e1 e2
  simp only
  refine Both.bind (R := fun _ _ => True) (Both.refl fun _ _ => trivial) fun _ _ _ _ _ => ?_
  refine Both.bind (R := fun _ _ => True) (Both.refl fun _ _ => trivial) fun _ _ _ _ _ => ?_
  refine Both.bind (R := fun a b => b = a) (Both.refl fun _ _ => rfl) fun q _ _ _ e => ?_
  subst e
  exact ⟨⟨x, y, z, rfl⟩, rfl⟩

/-- C96: an Update of a supported soil does not read the results, and overwrites all of them. -/
theorem C96_update_forgets {s t : State α} (h : SameButResults s t) (hv : s.p.invalidSoil = false) (fuel : Nat) (sa : Bool) :
    LGAR.update fuel sa t = LGAR.update fuel sa s := by
  suffices H : Both (fun a b => b = a) (LGAR.update fuel sa s) (LGAR.update fuel sa t) by
    revert H
    generalize LGAR.update fuel sa s = x
    generalize LGAR.update fuel sa t = y
    intro H
    cases x <;> cases y <;> simp_all [Both]
  unfold LGAR.update
  have hv' : t.p.invalidSoil = false := by obtain ⟨x, y, z, rfl⟩ := h; exact hv
  rw [if_neg (by simp [hv]), if_neg (by simp [hv'])]
  refine Both.bind h.pre fun a b _ _ h => ?_
  obtain ⟨a, da⟩ := a
  obtain ⟨b, db⟩ := b
  obtain ⟨⟨x, y, z, e1⟩, e2⟩ := h
  simp only at e1 e2
  subst e1 e2
  exact Both.refl fun _ _ => rfl

theorem SameButResults.update {s t : State α} (h : SameButResults s t) (fuel : Nat) (sa : Bool) :
    Both SameButResults (LGAR.update fuel sa s) (LGAR.update fuel sa t) := by
  cases hv : s.p.invalidSoil with
  | false =>
    rw [C96_update_forgets h hv]
    exact Both.refl fun u _ => SameButResults.refl u
  | true =>
    have hv' : t.p.invalidSoil = true := by obtain ⟨x, y, z, rfl⟩ := h; exact hv
    unfold LGAR.update
    rw [if_pos hv, if_pos hv']
    obtain ⟨x, y, z, rfl⟩ := h
    exact ⟨_, y, z, rfl⟩

/-- C96: SetValue and SetValueAtIndices of a result change nothing else. -/
theorem C96_write (s s' : State α) (n : String) (hn : n ∈ resultNames) (d : Data α) (inds : List Int)
    (h : setValue s n d = .ok s' ∨ setValueAtIndices s n inds d = .ok s') : SameButResults s s' := by
  rcases h with h | h
  · obtain ⟨r, rfl, k, hk, hle, hle2, hi, e, rfl, e1, e2, e3⟩ := setValue_ok h
    exact store_result s r e ((isResult_iff r).mpr hn)
  · unfold setValueAtIndices at h
    simp only [bind_ok_iff] at h
    obtain ⟨r, hr, h⟩ := h
    have hres : r.isResult = true := (isResult_iff r).mpr (by rw [← valuePtr_name hr]; exact hn)
    split at h
    · simp only [bind_ok_iff, pure_eq_ok, Except.ok.injEq] at h
      obtain ⟨w, _, rfl⟩ := h
      exact store_result s r (.ints w) hres
    · simp only [bind_ok_iff, pure_eq_ok, Except.ok.injEq] at h
      obtain ⟨w, _, rfl⟩ := h
      exact store_result s r (.dbls w) hres
    · simp at h

/-- C96, any arithmetic and any history: leave out all writes to results from a sequence of calls that succeeds; the rest succeeds
too and gives the same object but for the results.  Missing for the full statement: writes to the depths of the layers
(C96_depths_fails) and to the number of fronts (C96_count, C96_count_high, C96_count_zero). -/
theorem C96_histories_partial (fuel : Nat) (sa : Bool) (xs : List (Call α)) (s t : State α) (h : calls fuel sa xs s = .ok t) :
    ∃ t', calls fuel sa (xs.filter fun x => !x.writesResult) s = .ok t' ∧ SameButResults t' t := by
  suffices H : ∀ (xs : List (Call α)) (s s' t : State α), SameButResults s' s → calls fuel sa xs s = .ok t →
      ∃ t', calls fuel sa (xs.filter fun x => !x.writesResult) s' = .ok t' ∧ SameButResults t' t from
    H xs s s t (SameButResults.refl s) h
  clear h s t xs
  intro xs
  induction xs with
  | nil =>
    intro s s' t hs h
    simp only [calls, Except.ok.injEq] at h
    subst h
    exact ⟨s', rfl, hs⟩
  | cons x xs ih =>
    intro s s' t hs h
    simp only [calls, bind_ok_iff] at h
    obtain ⟨s1, h1, h⟩ := h
    by_cases hw : x.writesResult = true
    · rw [List.filter_cons_of_neg (by simp [hw])]
      refine ih s1 s' t (hs.trans ?_) h
      cases x with
      | set n d => exact C96_write s s1 n (by simpa [Call.writesResult] using hw) d [] (.inl h1)
      | setAt n inds d => exact C96_write s s1 n (by simpa [Call.writesResult] using hw) d inds (.inr h1)
      | update => simp [Call.writesResult] at hw
    · rw [List.filter_cons_of_pos (by simpa using hw)]
      have hb : Both SameButResults (x.exec fuel sa s') (x.exec fuel sa s) := by
        cases x with
        | set n d => exact setValue_same_results hs n d (by simpa [Call.writesResult] using hw)
        | setAt n inds d => exact setAt_same_results hs n inds d (by simpa [Call.writesResult] using hw)
        | update => exact hs.update fuel sa
      rw [h1] at hb
      cases hx : x.exec fuel sa s' with
      | error e => rw [hx] at hb; exact hb.elim
      | ok s2 =>
        rw [hx] at hb
        obtain ⟨t', k1, k2⟩ := ih s1 s2 t hb h
        refine ⟨t', ?_, k2⟩
        unfold calls
        rw [hx, ok_bind]; exact k1

/-- C96, the number of fronts: without calibration it is not read either. -/
theorem C96_count (s : State α) (k : Int) (hc : s.p.calibFlag = false) (hv : s.p.invalidSoil = false) (fuel : Nat) (sa : Bool) :
    LGAR.update fuel sa { s with p := { s.p with numWf := k } } = LGAR.update fuel sa s := by
  suffices H : Both (fun a b => b = a) (LGAR.update fuel sa s) (LGAR.update fuel sa { s with p := { s.p with numWf := k } }) by
    revert H
    generalize LGAR.update fuel sa s = x
    generalize LGAR.update fuel sa { s with p := { s.p with numWf := k } } = y
    intro H
    cases x <;> cases y <;> simp_all [Both]
  unfold LGAR.update
  simp only
  rw [if_neg (by simp [hv]), if_neg (by simp [hv])]
  refine Both.bind (R := fun a b => b = ({ a.1 with p := { a.1.p with numWf := k } }, a.2)) ?_ fun a b _ _ e => ?_
  · unfold updatePre
    refine Both.bind (R := fun a b => b = { a with p := { a.p with numWf := k } } ∧ a.p.calibFlag = false) ?_ fun a b _ _ e => ?_
    · unfold applyFrozen
      simp only
      split
      · refine Both.bind (R := fun a b => b = a) (Both.refl fun _ _ => rfl) fun a b _ _ e => ?_
        subst e; exact ⟨rfl, hc⟩
      · exact ⟨rfl, hc⟩
    · obtain ⟨rfl, hc⟩ := e
      refine Both.bind (R := fun a b => b = ({ a.1 with p := { a.1.p with numWf := k } }, a.2)) ?_ fun a b _ _ e => ?_
      · unfold applyCalib
        simp only
        rw [if_neg (by simp [hc]), if_neg (by simp [hc])]
        rfl
      · subst e
        refine Both.bind (R := fun _ _ => True) (Both.refl fun _ _ => trivial) fun _ _ _ _ _ => ?_
        refine Both.bind (R := fun _ _ => True) (Both.refl fun _ _ => trivial) fun _ _ _ _ _ => ?_
        refine Both.bind (R := fun a b => b = a) (Both.refl fun _ _ => rfl) fun q _ _ _ e => ?_
        subst e
        rfl
  · subst e
    exact Both.refl fun _ _ => rfl

theorem calibLoop_short {ty : List Int} {cal : Calib α} : ∀ {n : Nat} {soils : List (SoilProps α)} {l : List (Front α)}
    {r : List (SoilProps α) × List (Front α)}, calibLoop ty cal n soils l = .ok r → n ≤ l.length := by
  intro n
  induction n with
  | zero => intro soils l r _; exact Nat.zero_le _
  | succ n ih =>
    intro soils l r h
    cases l with
    | nil => simp [calibLoop] at h
    | cons f t =>
      simp only [calibLoop, bind_ok_iff, Prod.exists] at h
      obtain ⟨_, _, _, _, _, h, _⟩ := h
      have := ih h
      simp only [List.length_cons]; omega

/-- C96, the number of fronts with calibration, too high: the Update does not return.  It follows the list behind its end. -/
theorem C96_count_high (s : State α) (hc : s.p.calibFlag = true) (hv : s.p.invalidSoil = false)
    (hk : (s.head.length : Int) < s.p.numWf) (fuel : Nat) (sa : Bool) (s' : State α) : LGAR.update fuel sa s ≠ .ok s' := by
  intro h
  unfold LGAR.update at h
  rw [if_neg (by simp [hv])] at h
  simp only [updatePre, bind_ok_iff, Prod.exists] at h
  obtain ⟨_, _, ⟨a, ha, b, d, hb, _⟩, _⟩ := h
  have e : a.head = s.head ∧ a.p.numWf = s.p.numWf ∧ a.p.calibFlag = true := by
    unfold applyFrozen at ha
    split at ha
    · simp only [bind_ok_iff, Except.ok.injEq] at ha
      obtain ⟨_, _, rfl⟩ := ha
      exact ⟨rfl, rfl, hc⟩
    · simp only [Except.ok.injEq] at ha
      subst ha; exact ⟨rfl, rfl, hc⟩
  obtain ⟨e1, e2, e3⟩ := e
  unfold applyCalib at hb
  rw [if_pos e3] at hb
  simp only [updateCalib, bind_ok_iff, Prod.exists] at hb
  obtain ⟨_, _, ⟨_, _, _, _, hl, _⟩, _⟩ := hb
  have := calibLoop_short hl
  rw [e1, e2] at this
  omega

/-- C96, the number of fronts with calibration, set to 0: the calibrated soil parameters are silently dropped, now and in all later
Updates. -/
theorem C96_count_zero (s : State α) (hc : s.p.calibFlag = true) (hk : s.p.numWf ≤ 0) (s' : State α) (d : α)
    (h : applyCalib s = .ok (s', d)) : s'.soils = s.soils ∧ s'.head = s.head ∧ s'.p.calibFlag = false := by
  unfold applyCalib at h
  rw [if_pos hc] at h
  simp only [updateCalib, bind_ok_iff, Prod.exists, pure_eq_ok, Except.ok.injEq, Prod.mk.injEq] at h
  obtain ⟨_, _, ⟨_, _, soils, l, hl, _, _, rfl, _⟩, rfl, _⟩ := h
  rw [show s.p.numWf.toNat = 0 by omega, calibLoop, Except.ok.injEq, Prod.mk.injEq] at hl
  obtain ⟨rfl, rfl⟩ := hl
  exact ⟨rfl, rfl, rfl⟩

end Free

namespace WriteSample
open Sample

/-- Rates of rain and evapotranspiration. -/
def rates : List (Call Grid) := [.set "precipitation_rate" (.dbls [3]), .set "potential_evapotranspiration_rate" (.dbls [1])]

/-- Initialize and the states after two sequences of calls. -/
def pairOf (lines : List (List Char)) (xs ys : List (Call Grid)) : Res (State Grid × State Grid × Res (State Grid)) := do
  let s0 ← bmiInitialize env lines
  let s ← calls 1000 true xs s0
  .ok (s0, s, calls 1000 true ys s0)

theorem pairOf_inv {lines : List (List Char)} {xs ys : List (Call Grid)} {p : State Grid × State Grid × Res (State Grid) → Bool}
    (h : okAnd (pairOf lines xs ys) p = true) :
    ∃ s0 s, bmiInitialize env lines = .ok s0 ∧ calls 1000 true xs s0 = .ok s ∧ p (s0, s, calls 1000 true ys s0) = true := by
  cases hr : pairOf lines xs ys with
  | error e => rw [hr] at h; simp [okAnd] at h
  | ok r =>
    rw [hr] at h
    have hp : p r = true := h
    unfold pairOf at hr
    simp only [bind_ok_iff, Except.ok.injEq] at hr
    obtain ⟨s0, h0, s, hs, rfl⟩ := hr
    exact ⟨s0, s, h0, hs, hp⟩

/-- Ends with this error. -/
def stopsWith (e : Err) : Res (State Grid) → Bool
  | .ok _ => false
  | .error e' => decide (e' = e)

theorem stopsWith_iff {e : Err} {r : Res (State Grid)} : stopsWith e r = true ↔ r = .error e := by
  cases r <;> simp [stopsWith]

/-- Results overwritten with nonsense, as a whole and by index. -/
def nonsense : List (Call Grid) :=
  [.set "soil_storage" (.dbls [-7]), .setAt "soil_moisture_wetting_fronts" [1] (.dbls [55]), .set "soil_depth_wetting_fronts" (.dbls [1, 1])]

def calib : List (List Char) := cfg ++ ["calib_params=true".toList]

theorem depths_check : okAnd (pairOf cfg (rates ++ [.update]) (rates ++ [.set "soil_depth_layers" (.dbls [10, 30]), .update]))
    (fun (s0, s, t) => decide (s0.p.cum = [0, 10, 30] ∧ 3 ≤ s.head.length) && stopsWith (.assertFail "old_mass > 0.0") t) = true := by decide +kernel

theorem count_check : okAnd (pairOf calib (rates ++ [.update]) (rates ++ [.set "soil_num_wetting_fronts" (.ints [3]), .update]))
    (fun (s0, s, t) => decide (s0.head.length = 2 ∧ 3 ≤ s.head.length) && stopsWith (.ub "NULL dereference") t) = true := by decide +kernel

theorem zero_check : okAnd (pairOf calib (rates ++ [.set "smcmax" (.dbls [1/2, 1/2]), .update])
      (rates ++ [.set "smcmax" (.dbls [1/2, 1/2]), .set "soil_num_wetting_fronts" (.ints [0]), .update]))
    (fun (s0, s, t) => decide (s.soils ≠ s0.soils) && okAnd t fun t => decide (t.soils = s0.soils ∧ t.p.calibFlag = false)) = true := by decide +kernel

theorem nonsense_check : okAnd (pairOf cfg (rates ++ nonsense) (rates ++ nonsense ++ [.update] ++ nonsense.take 1))
    (fun (_, s, t) => decide (s.conv.storage = -7) && okAnd t fun t => decide (t.conv.storage = -7 ∧ 3 ≤ t.head.length)) = true := by decide +kernel

end WriteSample

open WriteSample Sample

/-- C96 fails for the depths of the layers: layers of 10 and 20 cm; writing the depths of their bottoms, 10 and 30, makes the next Update
stop with a failed assertion, while without the write it creates a front.  The name stands for the array that starts with the depth 0 of
the surface, so the write shifts all layers. -/
theorem C96_depths_fails : ∃ (xs : List (Call Grid)) (s0 s : State Grid), bmiInitialize env cfg = .ok s0 ∧ s0.p.cum = [0, 10, 30] ∧
    calls 1000 true (xs ++ [.update]) s0 = .ok s ∧ 3 ≤ s.head.length ∧
    calls 1000 true (xs ++ [.set "soil_depth_layers" (.dbls [10, 30]), .update]) s0 = .error (.assertFail "old_mass > 0.0") := by
  obtain ⟨s0, s, h0, hs, hp⟩ := pairOf_inv depths_check
  simp only [Bool.and_eq_true, decide_eq_true_eq, stopsWith_iff] at hp
  exact ⟨rates, s0, s, h0, hp.1.1, hs, hp.1.2, hp.2⟩

/-- C96 fails for the number of fronts: with calibration on, a number above the two fronts there are makes the first Update dereference
NULL. -/
theorem C96_count_fails : ∃ (xs : List (Call Grid)) (s0 s : State Grid), bmiInitialize env calib = .ok s0 ∧ s0.head.length = 2 ∧
    calls 1000 true (xs ++ [.update]) s0 = .ok s ∧
    calls 1000 true (xs ++ [.set "soil_num_wetting_fronts" (.ints [3]), .update]) s0 = .error (.ub "NULL dereference") := by
  obtain ⟨s0, s, h0, hs, hp⟩ := pairOf_inv count_check
  simp only [Bool.and_eq_true, decide_eq_true_eq, stopsWith_iff] at hp
  exact ⟨rates, s0, s, h0, hp.1.1, hs, hp.2⟩

/-- Case for C96_count_zero: saturated moistures are calibrated; with the number of fronts set to 0 they are dropped. -/
example : ∃ (xs : List (Call Grid)) (s0 s t : State Grid), bmiInitialize env calib = .ok s0 ∧
    calls 1000 true (xs ++ [.update]) s0 = .ok s ∧ s.soils ≠ s0.soils ∧
    calls 1000 true (xs ++ [.set "soil_num_wetting_fronts" (.ints [0]), .update]) s0 = .ok t ∧ t.soils = s0.soils := by
  obtain ⟨s0, s, h0, hs, hp⟩ := pairOf_inv zero_check
  simp only [Bool.and_eq_true, decide_eq_true_eq] at hp
  obtain ⟨t, ht, k1, _⟩ := okAnd_exists hp.2
  exact ⟨rates ++ [.set "smcmax" (.dbls [1/2, 1/2])], s0, s, t, h0, by simpa using hs, hp.1, by simpa using ht, k1⟩

/-- Case for C96_histories_partial and C96_write: results overwritten with nonsense before and after an Update. -/
example : ∃ s0 t : State Grid, bmiInitialize env cfg = .ok s0 ∧ calls 1000 true (rates ++ nonsense ++ [.update] ++ nonsense.take 1) s0 = .ok t ∧
    t.conv.storage = -7 ∧ 3 ≤ t.head.length ∧
    ((rates ++ nonsense ++ [Call.update] ++ nonsense.take 1).filter fun x : Call Grid => !x.writesResult).length = 3 := by
  obtain ⟨s0, s, h0, hs, hp⟩ := pairOf_inv nonsense_check
  simp only [Bool.and_eq_true, decide_eq_true_eq] at hp
  obtain ⟨t, ht, k1, k2⟩ := okAnd_exists hp.2
  exact ⟨s0, t, h0, ht, k1, k2, by decide +kernel⟩

/-- Case for C96_count: a state without calibration and with other numbers of fronts. -/
example : ∃ s0 : State Grid, bmiInitialize env cfg = .ok s0 ∧ s0.p.calibFlag = false ∧ s0.p.invalidSoil = false ∧ s0.p.numWf ≠ 99 :=
  okAnd_exists (by decide +kernel)

end LGAR
