import Verif.Lemmas.Count
import Verif.Props.Runs
import Verif.Props.Init
import Verif.Props.Stops
/-
C69: the number of wetting fronts grows only at the onset of rain.
-/
set_option linter.unusedSectionVars false
namespace LGAR

section Exact
variable {K : Type} [Field K] [LinearOrder K] [IsStrictOrderedRing K] [CMath K] [LawfulNum K]

/-- C69 for one sub-timestep: it adds at most one front, and only if it rains now and did not rain before, nothing is ponded
and the surface front is not saturated. -/
theorem C69_step (c : StepCfg K) (N : Nat) (s s' : SubSt K) (hs : Sound N s.head) (h : subStep c s = .ok s') :
    s'.head.length ≤ s.head.length + 1 ∧
      (s.head.length < s'.head.length → s.precipPrev = 0 ∧ 0 < s.precipMm ∧ s.volon ≤ 1.0e-12 ∧
        ∃ h0 so, s.head.head? = some h0 ∧ c.geo.soil h0.layer = .ok so ∧ h0.theta + 1.0e-12 < so.thetaE) := by
  obtain ⟨h1, h2⟩ := subStep_len hs h
  refine ⟨h1, fun h3 => ?_⟩
  obtain ⟨a, b, _, d, h0, so, e, f⟩ := h2 h3
  exact ⟨a, b, d, h0, so, by rw [List.head?_eq_getElem?]; exact e, f⟩

/-- C69, converse: under these conditions the fronts are moved without water and a front is added at the surface; it stays a
front of its own unless the first front then lies above its depth. -/
theorem C69_created (c : StepCfg K) (s s' : SubSt K) (h0 : Front K) (so : SoilProps K) (h : subStep c s = .ok s')
    (hp : s.precipPrev = 0) (hr : 0 < s.precipMm) (hd : 0 < c.dt) (hv : s.volon ≤ 1.0e-12) (hh : s.head.head? = some h0)
    (hso : c.geo.soil h0.layer = .ok so) (ht : h0.theta + 1.0e-12 < so.thetaE) :
    ∃ aet l aet' flux dry d, moveFronts c.fuel c.geo c.dt 0 (wettingFrontFreeDrainage s.head) s.volend aet s.head s.head =
        .ok (l, aet', flux) ∧ calcDryDepth c.fuel c.closed c.nint c.geo c.dt l = .ok (dry, d) ∧
      ((∀ n ∈ l.head?, dry ≤ n.depth) → s'.head.length = l.length + 1 ∧
        ∃ f ∈ s'.head.head?, f.layer = 1 ∧ f.front = 1 ∧ f.depth = dry ∧ f.toBottom = false ∧
          s'.head.tail.map (fun f => (f.depth, f.theta, f.layer)) = l.map (fun f => (f.depth, f.theta, f.layer))) := by
  rw [List.head?_eq_getElem?] at hh
  have hon : Onset c s := ⟨hp, hr, hd, hv, h0, so, hh, hso, ht⟩
  obtain ⟨aet, vs, h0', hsoil, f, l, ve, h1, _, _, hh0, hhs, hf, hl, _, _, _, _, rfl⟩ := subStep_inv h
  rw [(wants_iff hh0 hhs).mpr hon] at hf
  unfold subFlow at hf
  rw [if_pos rfl] at hf
  obtain ⟨l1, flux, dry, d, hx, pd, hm, hdry, _, hc, _⟩ := flowCreate_inv hf
  refine ⟨aet, l1, f.aet, flux, dry, d, hm, hdry, fun hn => ?_⟩
  obtain ⟨l2, k1, k2⟩ := createSurficial_steps hc
  obtain ⟨so2, thn, Se, psi, Kc, ff, _, _, _, _, _, _, he⟩ := createFront_inv k1
  rcases k2 with ⟨_, k2⟩ | ⟨⟨n, hn', hlt⟩, _⟩
  · simp only at he k2
    have e := dzdtCalc_frame hl
    rw [k2, he] at e
    cases l with
    | nil => simp at e
    | cons f0 t =>
      simp only [List.map_cons, List.cons.injEq, Front.noSpeed, Prod.mk.injEq] at e
      obtain ⟨⟨e1, _, _, _, e2, e3, e4⟩, e5⟩ := e
      have e6 := congrArg List.length e5
      have e7 := congrArg (List.map (fun x : K × K × K × K × Nat × Int × Bool => (x.1, x.2.1, x.2.2.2.2.1))) e5
      simp only [List.length_map, incFronts] at e6
      unfold incFronts at e7
      rw [List.map_map, List.map_map, List.map_map] at e7
      exact ⟨by simp [e6], f0, rfl, e2, e3, e1, e4, e7⟩
  · exact absurd hlt (not_lt.mpr (hn n hn'))

/-- C69 for one Update of any run: it adds at most one front, and only if it rains, the sub-timestep before it had no rain,
nothing is ponded and (unless calibrated parameters are set in this Update) the surface front is not saturated. -/
theorem C69_update (env : Env K) (lines : List (List Char)) (s0 s s1 s2 : State K) (hist : List (State K)) (fuel : Nat)
    (sa : Bool) (h0 : bmiInitialize env lines = .ok s0) (hr : Run s0 hist s) (hi : Inputs s s1) (h : update fuel sa s1 = .ok s2) :
    s2.head.length ≤ s1.head.length + 1 ∧
      (s1.head.length < s2.head.length → s1.p.precipPrev = 0 ∧ 0 < s1.precipMm ∧ s1.mb.volonT ≤ 1.0e-12 ∧
        (s1.p.calibFlag = false → ∃ h0 so, s1.head.head? = some h0 ∧ s1.geo.soil h0.layer = .ok so ∧
          h0.theta + 1.0e-12 < so.thetaE)) := by
  obtain ⟨hso, _⟩ := run_sound h0 hr
  obtain ⟨i1, _⟩ := hi.frame
  rw [← i1] at hso
  rcases update_inv h with ⟨_, rfl⟩ | ⟨_, s3, d, v, u, h1, _, hu, h2⟩
  · exact ⟨by simp [updateInvalid], fun h => absurd h (by simp [updateInvalid])⟩
  obtain ⟨_, _, _, hh, _⟩ := updatePost_inv h2
  have hsk := updatePre_skel h1
  have hlen := congrArg List.length hsk
  simp only [List.length_map] at hlen
  have key := subLoop_len (s := subInit s3 v) (hso.skel hsk) hu
  rw [hh]
  simp only [subInit] at key
  rw [hlen] at key
  refine ⟨key.1, fun hlt => ?_⟩
  obtain ⟨a, b, _, e, hx, so, f1, f2, f3⟩ := key.2 hlt
  obtain ⟨_, _, fs, soils, l, fc, pm, q, _, rfl, _, hcal⟩ := updatePre_inv h1
  refine ⟨a, b, e, fun hc => ?_⟩
  rcases hcal with ⟨hc', _⟩ | ⟨_, _, _, rfl, rfl, _⟩
  · rw [hc] at hc'; simp at hc'
  · exact ⟨hx, so, by rw [List.head?_eq_getElem?]; exact f1, f2, f3⟩

/-- Number of Updates of a run that begin a shower: rain in the Update, none in the sub-timestep before. -/
def onsets (a : State K) : List (State K) → Nat
  | [] => 0
  | b :: t => (if a.p.precipPrev = 0 ∧ 0 < b.precipMm then 1 else 0) + onsets b t

theorem onsets_append (a : State K) (l : List (State K)) (b : State K) : onsets a (l ++ [b]) =
    onsets a l + if (l.getLast?.getD a).p.precipPrev = 0 ∧ 0 < b.precipMm then 1 else 0 := by
  induction l generalizing a with
  | nil => rw [List.nil_append, onsets, onsets, onsets]; simp only [List.getLast?_nil, Option.getD_none]; rw [Nat.add_zero, Nat.zero_add]; congr
  | cons x t ih =>
    rw [List.cons_append, onsets, onsets, ih, List.getLast?_cons]
    simp only [Option.getD_some]
    omega

theorem Run.last_eq {s0 s : State K} {hist : List (State K)} (h : Run s0 hist s) : hist.getLast?.getD s0 = s := by
  cases h <;> simp

/-- C69 over whole runs: the number of fronts never exceeds the number of layers plus the number of Updates that began a
shower.  So without rain the list never grows. -/
theorem C69_run (env : Env K) (lines : List (List Char)) (s0 s : State K) (hist : List (State K))
    (h0 : bmiInitialize env lines = .ok s0) (hr : Run s0 hist s) : s.head.length ≤ s0.p.numLayers + onsets s0 hist := by
  induction hr with
  | nil => rw [layers_fronts h0]; exact Nat.le_add_right _ _
  | @step hist s s1 s2 fuel sa hr hi hu ih =>
    obtain ⟨k1, k2⟩ := C69_update env lines s0 s s1 s2 hist fuel sa h0 hr hi hu
    obtain ⟨i1, _, _, _, _, _, _, _, _, ip⟩ := hi.frame
    rw [onsets_append, hr.last_eq]
    by_cases hlt : s1.head.length < s2.head.length
    · obtain ⟨a, b, _⟩ := k2 hlt
      have hb : 0 < s2.precipMm := by
        rcases update_inv hu with ⟨_, rfl⟩ | ⟨_, s3, d, v, u, h1, _, hu', h2⟩
        · exact absurd hlt (by simp [updateInvalid])
        obtain ⟨_, _, _, _, _, _, hp, _⟩ := updatePost_inv h2
        obtain ⟨_, _, fs, soils, l, fc, pm, q, _, rfl, _⟩ := updatePre_inv h1
        rw [hp]
        refine subLoop_ind (P := fun x => 0 < x.precipMm) ?_ b hu'
        intro x y hx hxy
        obtain ⟨aet, vs, h0, hsoil, f, l, ve, h1, _, _, _, _, _, _, _, _, _, _, rfl⟩ := subStep_inv hxy
        simp only
        rw [fmax_eq]; exact lt_max_of_lt_left hx
      rw [if_pos ⟨by rw [ip] at a; exact a, hb⟩]
      rw [i1] at k1
      omega
    · rw [i1] at hlt
      omega

end Exact

/- A run that meets the bound: two layers, two showers with a dry hour between them. -/

open Stops

/-- Test for the example. -/
def CountTest (s0 s : State Grid) : Prop := s0.p.numLayers = 2 ∧ s.head.length = 3 ∧ s.p.precipPrev = 0 ∧ s.mb.volonT = 0 ∧ s.p.calibFlag = false ∧
  Sample.okAnd (update 1000 true (Sample.feed (3, 0) s)) (fun s2 => decide (s2.head.length = 4)) = true

instance (s0 s : State Grid) : Decidable (CountTest s0 s) := by unfold CountTest; infer_instance

theorem count_check : Sample.okAnd (bmiInitialize Sample.env (cfg "100,20" "1,2" "100")) (fun s0 =>
    Sample.okAnd (tfSteps 1000 true [(5, 0), (0, 0)] s0) fun s => decide (CountTest s0 s)) = true := by decide +kernel

attribute [local irreducible] cfg bmiInitialize update tfSteps Sample.env in
example : ∃ (env : Env Grid) (lines : List (List Char)) (s0 s s1 s2 : State Grid) (hist : List (State Grid)),
    bmiInitialize env lines = .ok s0 ∧ s0.p.numLayers = 2 ∧ Run s0 hist s ∧ hist.length = 2 ∧ Inputs s s1 ∧
    s1.p.calibFlag = false ∧ update 1000 true s1 = .ok s2 ∧ s1.head.length = 3 ∧ s2.head.length = 4 := by
  obtain ⟨s0, h0, h1⟩ := Sample.okAnd_get count_check
  obtain ⟨s, hs, ht⟩ := Sample.okAnd_get h1
  obtain ⟨h2, h3, h4, h5, h6, h7⟩ := of_decide_eq_true ht
  obtain ⟨s2, hu, h8⟩ := Sample.okAnd_exists h7
  obtain ⟨hist, hr, hl⟩ := tfSteps_run (.nil) hs
  exact ⟨_, _, s0, s, Sample.feed (3, 0) s, s2, hist, h0, h2, hr.run, by simpa using hl, ⟨_, _, _, _, rfl⟩, h6, hu, h3, h8⟩

end LGAR
