import Verif.Lemmas.Recharge
import Verif.Props.Count
import Verif.Props.Structure
/-
C99: recharge comes with wetting fronts that leave the column, so there is no more of it than of rain.
-/
set_option linter.unusedSectionVars false
namespace LGAR

section Exact
variable {K : Type} [Field K] [LinearOrder K] [IsStrictOrderedRing K] [CMath K] [LawfulNum K]

theorem run_validSoil {env : Env K} {lines : List (List Char)} {s0 s : State K} {hist : List (State K)}
    (h0 : bmiInitialize env lines = .ok s0) (hr : Run s0 hist s) : s.p.invalidSoil = false := by
  obtain ⟨c, _, hc, _⟩ := bmiInitialize_inv h0
  induction hr with
  | nil => exact lgarInit_valid hc
  | @step hist s s1 s2 fuel sa _ hi hu ih =>
    obtain ⟨_, _, _, _, _, _, _, _, _, ip⟩ := hi.frame
    rw [(update_fixed hu).2.2.2.1, ip]; exact ih

/-- C99 for one movement of the fronts: water that leaves at the bottom takes a front with it. -/
theorem C99_movement (fuel : Nat) (g : Geo K) (dt precip oldMass aet aet' flux : K) (nFd N : Nat) (prev l l' : List (Front K))
    (hs : Sound N l) (h : moveFronts fuel g dt precip nFd oldMass aet prev l = .ok (l', aet', flux)) (hpos : 0 < flux) :
    l'.length < l.length := moveFronts_exit hs h hpos

/-- C99 for one Update of any run: if it adds to the recharge, it ends with fewer fronts, or with as many if it began a shower. -/
theorem C99_update (env : Env K) (lines : List (List Char)) (s0 s s1 s2 : State K) (hist : List (State K)) (fuel : Nat)
    (sa : Bool) (h0 : bmiInitialize env lines = .ok s0) (hr : Run s0 hist s) (hi : Inputs s s1) (h : update fuel sa s1 = .ok s2)
    (hpos : s1.mb.volrech < s2.mb.volrech) :
    s2.head.length ≤ s1.head.length ∧ (¬ (s1.p.precipPrev = 0 ∧ 0 < s1.precipMm) → s2.head.length < s1.head.length) := by
  obtain ⟨hso, _⟩ := run_sound h0 hr
  obtain ⟨i1, _, _, _, _, _, _, _, _, ip⟩ := hi.frame
  rw [← i1] at hso
  have hv : s1.p.invalidSoil = false := by
    have e : s1.p.invalidSoil = s.p.invalidSoil := by rw [ip]
    rw [e]
    exact run_validSoil h0 hr
  rcases update_inv h with ⟨hi, _⟩ | ⟨_, s3, d, v, u, h1, _, hu, h2⟩
  · rw [hv] at hi; simp at hi
  obtain ⟨giuh, queue, _, hh, _, _, _, _, _, _, _, _, _, hmb, _⟩ := updatePost_inv h2
  have hsk := updatePre_skel h1
  have hlen := congrArg List.length hsk
  simp only [List.length_map] at hlen
  have hmb3 : s3.mb.volrech = s1.mb.volrech := by
    obtain ⟨_, _, fs, soils, l, fc, pm, q, _, rfl, _, hcal⟩ := updatePre_inv h1
    rfl
  rw [hmb] at hpos
  simp only [hmb3] at hpos
  have key := subLoop_exit (s := subInit s3 v) (hso.skel hsk) hu (by simp only [subInit]; linarith)
  rw [hh]
  simp only [subInit] at key
  rw [hlen] at key
  refine ⟨key.1, fun hno => key.2 fun ho => hno ?_⟩
  obtain ⟨a, b, _⟩ := ho
  obtain ⟨_, _, fs, soils, l, fc, pm, q, _, rfl, _, hcal⟩ := updatePre_inv h1
  exact ⟨a, b⟩

/-- Number of Updates of a run that add to the recharge. -/
def recharges (a : State K) : List (State K) → Nat
  | [] => 0
  | b :: t => (if a.mb.volrech < b.mb.volrech then 1 else 0) + recharges b t

theorem recharges_append (a : State K) (l : List (State K)) (b : State K) : recharges a (l ++ [b]) =
    recharges a l + if (l.getLast?.getD a).mb.volrech < b.mb.volrech then 1 else 0 := by
  induction l generalizing a with
  | nil => rw [List.nil_append, recharges, recharges, recharges]; simp only [List.getLast?_nil, Option.getD_none]; rw [Nat.add_zero, Nat.zero_add]; congr
  | cons x t ih =>
    rw [List.cons_append, recharges, recharges, ih, List.getLast?_cons]
    simp only [Option.getD_some]
    omega

/-- C99 over whole runs: the fronts left and the Updates with recharge are together no more than the layers and the Updates
that began a shower. -/
theorem C99_account (env : Env K) (lines : List (List Char)) (s0 s : State K) (hist : List (State K))
    (h0 : bmiInitialize env lines = .ok s0) (hr : Run s0 hist s) :
    s.head.length + recharges s0 hist ≤ s0.p.numLayers + onsets s0 hist := by
  induction hr with
  | nil => rw [layers_fronts h0]; simp [recharges, onsets]
  | @step hist s s1 s2 fuel sa hr hi hu ih =>
    obtain ⟨k1, k2⟩ := C69_update env lines s0 s s1 s2 hist fuel sa h0 hr hi hu
    have k3 := C99_update env lines s0 s s1 s2 hist fuel sa h0 hr hi hu
    obtain ⟨i1, im, _, _, _, _, _, _, _, ip⟩ := hi.frame
    have ep : s1.p.precipPrev = s.p.precipPrev := by rw [ip]
    have em : s1.mb.volrech = s.mb.volrech := by
      obtain ⟨_, _, _, _, rfl⟩ := hi; rfl
    rw [onsets_append, recharges_append, hr.last_eq]
    have hb : 0 < s1.precipMm → s1.p.invalidSoil = false → 0 < s2.precipMm := by
      intro b hv
      rcases update_inv hu with ⟨hi', _⟩ | ⟨_, s3, d, v, u, h1, _, hu', h2⟩
      · rw [hv] at hi'; simp at hi'
      obtain ⟨_, _, _, _, _, _, hp, _⟩ := updatePost_inv h2
      obtain ⟨_, _, fs, soils, l, fc, pm, q, _, rfl, _⟩ := updatePre_inv h1
      rw [hp]
      refine subLoop_ind (P := fun x => 0 < x.precipMm) ?_ b hu'
      intro x y hx hxy
      obtain ⟨aet, vs, h0, hsoil, f, l, ve, h1, _, _, _, _, _, _, _, _, _, _, rfl⟩ := subStep_inv hxy
      simp only
      rw [fmax_eq]; exact lt_max_of_lt_left hx
    have hv : s1.p.invalidSoil = true → s2.head.length = s1.head.length ∧ s2.precipMm = s1.precipMm := by
      intro hv
      rcases update_inv hu with ⟨_, rfl⟩ | ⟨hv', _⟩
      · exact ⟨rfl, rfl⟩
      · rw [hv] at hv'; simp at hv'
    have hb' : s1.p.precipPrev = 0 ∧ 0 < s1.precipMm → s.p.precipPrev = 0 ∧ 0 < s2.precipMm := by
      rintro ⟨a, b⟩
      refine ⟨ep ▸ a, ?_⟩
      cases e : s1.p.invalidSoil with
      | false => exact hb b e
      | true => rw [(hv e).2]; exact b
    rw [i1] at k1 k2 k3
    rw [em] at k3
    by_cases ho : s1.p.precipPrev = 0 ∧ 0 < s1.precipMm
    · rw [if_pos (hb' ho)]
      split
      · rename_i hlt
        have := (k3 hlt).1
        omega
      · omega
    · have hle : s2.head.length ≤ s.head.length := not_lt.mp fun hlt => ho ⟨(k2 hlt).1, (k2 hlt).2.1⟩
      split
      · rename_i hlt
        have := (k3 hlt).2 ho
        omega
      · omega

/-- C99: over any run there are at most as many Updates with recharge as Updates that began a shower, plus the number of layer
boundaries; in a column of a single layer at most as many as began a shower. -/
theorem C99_run (env : Env K) (lines : List (List Char)) (s0 s : State K) (hist : List (State K))
    (h0 : bmiInitialize env lines = .ok s0) (hr : Run s0 hist s) :
    recharges s0 hist + 1 ≤ s0.p.numLayers + onsets s0 hist := by
  have h := C99_account env lines s0 s hist h0 hr
  obtain ⟨hs, _⟩ := run_sound h0 hr
  have : 0 < s.head.length := by
    obtain ⟨f, hf, _⟩ := hs.last
    exact List.length_pos_iff.mpr fun e => by rw [e] at hf; simp at hf
  omega

/-- C99: in tie-free runs with layers of positive thickness there are at most as many Updates with recharge as Updates that began
a shower, whatever the number of layers. -/
theorem C99_layers (env : Env K) (lines : List (List Char)) (s0 s : State K) (hist : List (State K))
    (h0 : bmiInitialize env lines = .ok s0) (hinc : s0.p.cum.Pairwise (· < ·)) (hr : TieFreeRun s0 hist s) :
    recharges s0 hist ≤ onsets s0 hist := by
  have h := C99_account env lines s0 s hist h0 hr.run
  obtain ⟨hg, hn, _⟩ := run_good h0 hinc hr
  have : s0.p.numLayers ≤ s.head.length := by
    rw [← hn]
    exact hg.layers_le
  omega

end Exact
/-! ### Non-vacuity

A tie-free run in 18 cm of soil 1 over 1 cm of soil 2 at 100 cm: one hour with 5 mm of rain, which makes a third front, and one dry
hour, in which that front goes through the second layer and out. -/

open Stops

def ExitTest (s0 s s2 : State Grid) : Prop :=
  s0.p.numLayers = 2 ∧ s0.p.cum.Pairwise (· < ·) ∧ s.head.length = 3 ∧ s2.head.length = 2 ∧ s.mb.volrech = 0 ∧ 0 < s2.mb.volrech

instance (s0 s s2 : State Grid) : Decidable (ExitTest s0 s s2) := by unfold ExitTest; infer_instance

theorem exit_check : Sample.okAnd (bmiInitialize Sample.env (cfg "18,1" "1,2" "100")) (fun s0 =>
    Sample.okAnd (tfSteps 1000 true [(5, 0)] s0) fun s => Sample.okAnd (tfSteps 1000 true [(0, 0)] s) fun s2 =>
      decide (ExitTest s0 s s2)) = true := by decide +kernel

attribute [local irreducible] cfg bmiInitialize update tfSteps Sample.env in
example : ∃ (env : Env Grid) (lines : List (List Char)) (s0 s s2 : State Grid) (h1 h2 : List (State Grid)),
    bmiInitialize env lines = .ok s0 ∧ s0.p.numLayers = 2 ∧ s0.p.cum.Pairwise (· < ·) ∧ TieFreeRun s0 h1 s ∧ h1.length = 1 ∧
    TieFreeRun s0 h2 s2 ∧ h2.length = 2 ∧ s.head.length = 3 ∧ s2.head.length = 2 ∧ s.mb.volrech = 0 ∧ 0 < s2.mb.volrech := by
  obtain ⟨s0, h0, h1⟩ := Sample.okAnd_get exit_check
  obtain ⟨s, hs, ht⟩ := Sample.okAnd_get h1
  obtain ⟨s2, hs2, ht2⟩ := Sample.okAnd_get ht
  obtain ⟨e1, e2, e3, e4, e5, e6⟩ := of_decide_eq_true ht2
  obtain ⟨hist, hr, hl⟩ := tfSteps_run (.nil) hs
  obtain ⟨hist2, hr2, hl2⟩ := tfSteps_run hr hs2
  exact ⟨_, _, s0, s, s2, hist, hist2, h0, e1, e2, hr, by simpa using hl, hr2, by simp_all, e3, e4, e5, e6⟩

end LGAR
