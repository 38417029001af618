import Verif.Lemmas.Twin
import Verif.Lemmas.FinishRun
import Verif.Spec.SampleRun
/-
C77: the results do not depend on what the program leaves uninitialised.
-/
namespace LGAR

section Free
variable {α : Type} [Add α] [Sub α] [Mul α] [Div α] [Neg α] [Zero α] [One α] [OfScientific α]
  [LT α] [LE α] [DecidableLT α] [DecidableLE α] [BEq α] [CMath α]
variable {env env' : Env α} {lines : List (List Char)}

/-- C77: Initialize with the same files: the same error, or two objects that differ only in places not yet written. -/
theorem C77_initialize (h : env.SameFiles env') (hf : ∀ c, readConfig env {} lines = .ok c → SoilFileFull env c) :
    Both (fun s s' => ∃ n, Twin n True s s') (bmiInitialize env lines) (bmiInitialize env' lines) := by
  have := bmiInitialize_same h hf
  revert this
  generalize bmiInitialize env lines = x
  generalize bmiInitialize env' lines = y
  intro this
  cases x with
  | error e => cases y with
    | error e' => exact this
    | ok b => exact this.elim
  | ok a => cases y with
    | error e' => exact this.elim
    | ok b =>
      obtain ⟨n, hn, _⟩ := this
      exact ⟨n, hn⟩

/-- C77: Initialize and any Updates: both programs end with the same error, or both return and the objects differ only in places
that no Update has written. -/
theorem C77_run (h : env.SameFiles env') (hf : ∀ c, readConfig env {} lines = .ok c → SoilFileFull env c) {fuel : Nat} {sa : Bool}
    {xs : List (Drive α)} :
    Both (fun s s' => ∃ n, Twin n (xs = []) s s') (bmiInitialize env lines >>= drives fuel sa xs)
      (bmiInitialize env' lines >>= drives fuel sa xs) := by
  refine Both.bind (bmiInitialize_same h hf) fun s s' hs _ hab => ?_
  obtain ⟨n, hn, ht, hv⟩ := hab
  have key := hn.drives (fuel := fuel) (sa := sa) (xs := xs) ht (Placed.initialize hs).1 hv
  revert key
  generalize drives fuel sa xs s = x
  generalize drives fuel sa xs s' = y
  intro key
  cases x with
  | error e => cases y with
    | error e' => exact key
    | ok b => exact key.elim
  | ok a => cases y with
    | error e' => exact key.elim
    | ok b => exact ⟨n, by simpa [Both] using key⟩

/-- C77 for what can be seen from outside: after at least one Update with at least one sub-timestep, the fronts, the parameters, the
clock, the routing queue, every output of the BMI and every entry of the books except the ground-water total are the same. -/
theorem C77_outputs (h : env.SameFiles env') (hf : ∀ c, readConfig env {} lines = .ok c → SoilFileFull env c) {fuel : Nat} {sa : Bool}
    {xs : List (Drive α)} (hx : xs ≠ []) {s s' : State α} (h1 : (bmiInitialize env lines >>= drives fuel sa xs) = .ok s)
    (h2 : (bmiInitialize env' lines >>= drives fuel sa xs) = .ok s') (hi : 0 < s.p.forcingInterval) :
    s'.head = s.head ∧ s'.prev = s.prev ∧ s'.p = s.p ∧ s'.calib = s.calib ∧ s'.giuhQueue = s.giuhQueue ∧ s'.conv = s.conv ∧
      s'.mb = { s.mb with volQgw := s'.mb.volQgw } := by
  have key := C77_run h hf (fuel := fuel) (sa := sa) (xs := xs)
  rw [h1, h2] at key
  obtain ⟨n, hn⟩ := key
  obtain ⟨_, e2, e3⟩ := hn.filled hx
  obtain ⟨e4, e5⟩ := e3 hi
  refine ⟨hn.head, hn.prev, hn.p, hn.calib, hn.giuhQueue, e4, ?_⟩
  rw [e2, e5]

end Free

/-! ## A case, and what fails without the hypotheses -/
namespace TwinSample
open Sample

/-- The same files, other values in uninitialised memory. -/
def env2 : Env Grid :=
  { env with junk := 5, junkRec := ⟨['x'], 1, 2, 3, 4, 5⟩, junkSoil := ⟨1, 2, 3, 4, 5, 6, 7, 8, 9, 10⟩,
             junkConv := ⟨1, 2, 3, 4, 5, 6, 7, 8, 9, 10, 11⟩,
             junkMb := ⟨1, 2, 3, 4, 5, 6, 7, 8, 9, 10, 11, 12, 13, 14, 15, 16, 17, 18, 19, 20, 21, 22, 23, 24, 25⟩ }

theorem same : env.SameFiles env2 := ⟨rfl, rfl, rfl, rfl⟩

/-- What a line with all six items gives. -/
theorem full_of {scanF : List Char → Option (Grid × List Char)} {line w1 w2 w3 w4 w5 : List Char} {a b c d e : Grid}
    (h0 : (line.dropWhile isBlank).isEmpty = false)
    (h1 : scanF ((line.dropWhile isBlank).drop ((line.dropWhile isBlank).takeWhile fun c => !isBlank c).length) = some (a, w1))
    (h2 : scanF w1 = some (b, w2)) (h3 : scanF w2 = some (c, w3)) (h4 : scanF w3 = some (d, w4)) (h5 : scanF w4 = some (e, w5))
    (hn : 1 < d) : FullLine scanF line := by
  refine ⟨⟨(line.dropWhile isBlank).takeWhile fun c => !isBlank c, a, b, c, d, e⟩, hn, fun r0 => ?_⟩
  unfold scanLine
  simp only [h0, Bool.false_eq_true, if_false, scanFields, h1, h2, h3, h4, h5]

theorem sand_full : FullLine Grid.scan "sand 0.05 0.45 0.02 2 1.5".toList :=
  full_of (w1 := " 0.45 0.02 2 1.5".toList) (w2 := " 0.02 2 1.5".toList) (w3 := " 2 1.5".toList) (w4 := " 1.5".toList) (w5 := [])
    (a := Grid.ofRat (5/100)) (b := Grid.ofRat (45/100)) (c := Grid.ofRat (2/100)) (d := 2) (e := Grid.ofRat (3/2))
    (by decide +kernel) (by decide +kernel) (by decide +kernel) (by decide +kernel) (by decide +kernel) (by decide +kernel) (by decide +kernel)

theorem loam_full : FullLine Grid.scan "loam 0.1 0.4 0.01 2 0.5".toList :=
  full_of (w1 := " 0.4 0.01 2 0.5".toList) (w2 := " 0.01 2 0.5".toList) (w3 := " 2 0.5".toList) (w4 := " 0.5".toList) (w5 := [])
    (a := Grid.ofRat (1/10)) (b := Grid.ofRat (4/10)) (c := Grid.ofRat (1/100)) (d := 2) (e := Grid.ofRat (1/2))
    (by decide +kernel) (by decide +kernel) (by decide +kernel) (by decide +kernel) (by decide +kernel) (by decide +kernel) (by decide +kernel)

theorem cfg_check : okAnd (readConfig env {} cfg) (fun c => decide (c.soilType = some [1, 2] ∧ c.numTypes = some 2)) = true := by
  decide +kernel

attribute [local irreducible] cfg readConfig in
theorem full : ∀ c, readConfig env {} cfg = .ok c → SoilFileFull env c := by
  intro c hc
  obtain ⟨c', hc', h1, h2⟩ := okAnd_exists cfg_check
  obtain rfl : c' = c := by rw [hc'] at hc; exact Except.ok.inj hc
  intro ts file lines e1 _ e3
  rw [h1] at e1
  obtain rfl := Option.some.inj e1
  obtain rfl : soilLines = lines := Option.some.inj e3
  rw [h2]
  refine ⟨fun line hl => ?_, fun t ht => ?_⟩
  · have : line = "sand 0.05 0.45 0.02 2 1.5".toList ∨ line = "loam 0.1 0.4 0.01 2 0.5".toList := by
      simpa [soilLines] using hl
    rcases this with rfl | rfl
    · exact sand_full
    · exact loam_full
  · simp only [List.mem_cons, List.not_mem_nil, or_false] at ht
    simp only [Option.getD_some, soilLines, List.length_cons, List.length_nil]
    omega

/-- Rain, then evapotranspiration. -/
def inputs : List (Drive Grid) := [⟨5, 0, [0], ⟨[], [], [], [], [], 0, 0⟩⟩, ⟨0, 1, [0], ⟨[], [], [], [], [], 0, 0⟩⟩]

theorem run_check : okAnd (bmiInitialize env2 cfg >>= drives 1000 true inputs)
    (fun s => decide (s.mb.volprecip = 1/2 ∧ 0 < s.mb.volAET ∧ s.head.length = 3 ∧ 0 < s.p.forcingInterval)) = true := by decide +kernel

attribute [local irreducible] bmiInitialize drives cfg env env2 inputs in
/-- The hypotheses of the theorems are met by a run of two Updates with rain and evapotranspiration. -/
example : env.SameFiles env2 ∧ (∀ c, readConfig env {} cfg = .ok c → SoilFileFull env c) ∧
    ∃ s s', (bmiInitialize env cfg >>= drives 1000 true inputs) = .ok s ∧ (bmiInitialize env2 cfg >>= drives 1000 true inputs) = .ok s' ∧
      s'.head = s.head ∧ s.head.length = 3 ∧ 0 < s.mb.volAET ∧ 0 < s.p.forcingInterval := by
  refine ⟨same, full, ?_⟩
  obtain ⟨s', hs', h1, h2, h3, h4⟩ := okAnd_exists run_check
  have key := C77_run same full (fuel := 1000) (sa := true) (xs := inputs)
  rw [hs'] at key
  cases e : bmiInitialize env cfg >>= drives 1000 true inputs with
  | error e' => rw [e] at key; exact key.elim
  | ok s =>
    rw [e] at key
    obtain ⟨n, hn⟩ := key
    exact ⟨s, s', rfl, hs', hn.head, hn.head ▸ h3, hn.aetTot ▸ h2, hn.p ▸ h4⟩

/-- Initialize and a dry Update in both environments. -/
def both (env env' : Env Grid) (xs : List (Drive Grid)) : Res (State Grid × State Grid) := do
  let s ← bmiInitialize env cfg >>= drives 1000 true xs
  let s' ← bmiInitialize env' cfg >>= drives 1000 true xs
  .ok (s, s')

theorem qgw_check : okAnd (both env env2 (inputs.take 1)) (fun r => decide (r.1.mb.volQgw ≠ r.2.mb.volQgw)) = true := by decide +kernel

/-- The soil file with a line that ends early, and with n ≤ 1. -/
def withLine (e : Env Grid) (l : String) : Env Grid := { e with files := fun _ => some (soilLines.set 1 l.toList) }

theorem short_check : okAnd (both (withLine env "sand 0.05 0.45 0.02 2") (withLine env2 "sand 0.05 0.45 0.02 2") [])
    (fun r => decide (r.1.head.map (fun f => f.K) ≠ r.2.head.map (fun f => f.K))) = true := by decide +kernel

def junk1 : Env Grid := withLine { env with junkSoil := ⟨0, 0, 0, 0, 0, 1, 1, 0, 0, 0⟩ } "sand 0.05 0.45 0.02 0.8 1.5"
def junk2 : Env Grid := withLine { env with junkSoil := ⟨0, 0, 0, 0, 0, 1, 2, 0, 0, 0⟩ } "sand 0.05 0.45 0.02 0.8 1.5"

theorem small_check : okAnd (both junk1 junk2 [])
    (fun r => decide (r.1.soils.map (fun f => f.hMin) ≠ r.2.soils.map (fun f => f.hMin))) = true := by decide +kernel

attribute [local irreducible] bmiInitialize drives cfg env env2 inputs in
theorem both_iff {e e' : Env Grid} {xs : List (Drive Grid)} {r : State Grid × State Grid} (h : both e e' xs = .ok r) :
    (bmiInitialize e cfg >>= drives 1000 true xs) = .ok r.1 ∧ (bmiInitialize e' cfg >>= drives 1000 true xs) = .ok r.2 := by
  unfold both at h
  simp only [bind_assoc, bind_ok_iff, Except.ok.injEq] at h ⊢
  obtain ⟨a, h1, b, h2, a', h1', b', h2', rfl⟩ := h
  exact ⟨⟨a, h1, h2⟩, ⟨a', h1', h2'⟩⟩

end TwinSample

open TwinSample in
/-- The ground-water total is added to (bmi_lgar.cxx 543) but never set: after an Update it still depends on what the memory held. -/
theorem C77_groundwater_total_fails : ∃ s s' : State Grid,
    (bmiInitialize Sample.env Sample.cfg >>= drives 1000 true (inputs.take 1)) = .ok s ∧
    (bmiInitialize env2 Sample.cfg >>= drives 1000 true (inputs.take 1)) = .ok s' ∧ s'.mb.volQgw ≠ s.mb.volQgw := by
  obtain ⟨r, hr, h⟩ := Sample.okAnd_exists qgw_check
  obtain ⟨h1, h2⟩ := both_iff hr
  exact ⟨r.1, r.2, h1, h2, fun e => h e.symm⟩

open TwinSample in
/-- A line of the soil file that ends before the sixth item leaves a local variable as it was (lgar.cxx 2309; the result of `sscanf`
is not checked): the conductivity of the first front depends on what the memory held. -/
theorem C77_short_line_fails : ∃ (e e' : Env Grid) (s s' : State Grid), e.SameFiles e' ∧ bmiInitialize e Sample.cfg = .ok s ∧
    bmiInitialize e' Sample.cfg = .ok s' ∧ s'.head.map (fun f => f.K) ≠ s.head.map (fun f => f.K) := by
  obtain ⟨r, hr, h⟩ := Sample.okAnd_exists short_check
  obtain ⟨h1, h2⟩ := both_iff hr
  simp only [bind_ok_iff, drives, Except.ok.injEq] at h1 h2
  obtain ⟨a, h1, rfl⟩ := h1
  obtain ⟨b, h2, e⟩ := h2
  subst e
  exact ⟨withLine Sample.env "sand 0.05 0.45 0.02 2", withLine env2 "sand 0.05 0.45 0.02 2", _, _, ⟨rfl, rfl, rfl, rfl⟩, h1, h2, fun e => h e.symm⟩

open TwinSample in
/-- A soil with van Genuchten n ≤ 1 is accepted, but lgar.cxx 2328-2339 sets its Brooks-Corey parameters only for n > 1 and then
computes h_min from whatever the array held. -/
theorem C77_small_n_fails : ∃ (e e' : Env Grid) (s s' : State Grid), e.SameFiles e' ∧ bmiInitialize e Sample.cfg = .ok s ∧
    bmiInitialize e' Sample.cfg = .ok s' ∧ s'.soils.map (fun f => f.hMin) ≠ s.soils.map (fun f => f.hMin) := by
  obtain ⟨r, hr, h⟩ := Sample.okAnd_exists small_check
  obtain ⟨h1, h2⟩ := both_iff hr
  simp only [bind_ok_iff, drives, Except.ok.injEq] at h1 h2
  obtain ⟨a, h1, e⟩ := h1
  obtain ⟨b, h2, e'⟩ := h2
  subst e e'
  exact ⟨junk1, junk2, _, _, ⟨rfl, rfl, rfl, rfl⟩, h1, h2, fun e => h e.symm⟩

end LGAR
