import Verif.Lemmas.FinishRun
import Verif.Props.Bounds
import Verif.Spec.SampleReal
/-
C63: no Update and no run of the program loops forever.  The reals are used because the two loops without an iteration bound
(calc_Geff, lgar_theta_mass_balance) end by convergence of real quantities.
-/
namespace LGAR

/-- C63, one call: from a state with consecutively numbered fronts, a positive number of trapezoids and physical soils
(and physical calibration values if they are still to be applied) Update finishes for every input: it returns or stops with an
error, it does not loop forever. -/
theorem C63_update (sa : Bool) (s : State ℝ) (hn : Consecutive s.head) (hl : ∀ f ∈ s.head, 1 ≤ f.layer) (hi : 0 < s.p.nint)
    (hp : PhysGeo s.geo) (hc : s.p.calibFlag = true → s.calib.Physical) : Finishes fun fuel => update fuel sa s :=
  Ready.finishes ⟨⟨(consecutive_iff _).mp hn, hl⟩, hi, hp, hc⟩ sa

/-- C63: after Initialize and any number of Updates, whatever precipitation, PET, soil temperatures and (physical) calibration values
the caller sets, the next Update finishes.  `hcal`: with calibration, the values applied by the first Update are physical. -/
theorem C63_run (env : Env ℝ) (lines : List (List Char)) (s0 s s1 : State ℝ) (hist : List (State ℝ)) (sa : Bool)
    (h0 : bmiInitialize env lines = .ok s0) (hp : PhysGeo s0.geo) (hr : Run s0 hist s) (hi : Inputs s s1)
    (hcal : s0.p.calibFlag = true → (hist = [] → s1.calib.Physical) ∧ ∀ a, hist.head? = some a → PhysGeo a.geo) :
    Finishes fun fuel => update fuel sa s1 := by
  obtain ⟨c, _, hinit, _⟩ := bmiInitialize_inv h0
  obtain ⟨p0, n0⟩ := Placed.initialize h0
  obtain ⟨p1, n1⟩ := run_placed p0 hr
  obtain ⟨g1, _, _, _, g5, g6⟩ := run_phys hr hp (fun h => (hcal h).2) (lgarInit_valid hinit)
  obtain ⟨pr, pet, temp, cal, rfl⟩ := hi
  apply Ready.finishes
  refine ⟨p1, ?_, PhysGeo.congr g1 rfl rfl, fun h => ?_⟩
  · show 0 < s.p.nint
    rw [n1, n0]; norm_num
  · by_cases hh : hist = []
    · exact (hcal (g6 h)).1 hh
    · have : s.p.calibFlag = false := g5 hh
      exact absurd (show s.p.calibFlag = true from h) (by rw [this]; simp)

/-- C63 for the whole program: with a soil file of physical soils, every run of the stand-alone driver finishes, for every
configuration text, every forcing file and both builds.  Nothing is assumed about the calibration option: the driver applies the values
of the soil file itself. -/
theorem C63_program (sa : Bool) (env : Env ℝ) (config : List (List Char)) (contents : List Char → Option (List Char))
    (hp : ∀ s0, bmiInitialize env config = .ok s0 → PhysGeo s0.geo) :
    Finishes fun fuel => driver fuel sa env config contents := by
  unfold driver
  refine .bindC NF.bmiInitialize.ne fun s hs => ?_
  have hr := Ready.init hs (hp s hs)
  refine .bindC NF.cdiv.ne fun q _ => ?_
  dsimp only
  split
  · simp only [error_bind]; exact .err (by simp)
  · rename_i file _
    simp only [ok_bind]
    split
    · exact .err (by simp)
    · exact .bindC NF.readForcing.ne fun f _ => .bindC NF.cassert.ne fun _ _ => driverLoop_finishes hr

/-- Reading never loops: Initialize and the forcing file finish for every text, over any numbers. -/
theorem C63_reading {α : Type} [Add α] [Sub α] [Mul α] [Div α] [Neg α] [Zero α] [One α] [OfScientific α]
    [LT α] [LE α] [DecidableLT α] [DecidableLE α] [BEq α] [CMath α] (env : Env α) (config : List (List Char)) (content : List Char) :
    bmiInitialize env config ≠ .error .fuel ∧ readForcing env content ≠ .error .fuel :=
  ⟨NF.bmiInitialize.ne, NF.readForcing.ne⟩

/-- Case for C63_program: a configuration (with calibration) that Initialize accepts, run for two Updates. -/
example (sa : Bool) (contents : List Char → Option (List Char)) :
    (∃ s, bmiInitialize SampleReal.env SampleReal.lines = .ok s ∧ PhysGeo s.geo ∧ s.p.calibFlag = true ∧ endTime s = 7200 ∧
      timeStep s = 3600) ∧ Finishes fun fuel => driver fuel sa SampleReal.env SampleReal.lines contents :=
  ⟨SampleReal.init, C63_program sa _ _ _ fun s0 h0 => by
    obtain ⟨s, hs, hp, _⟩ := SampleReal.init
    rw [hs, Except.ok.injEq] at h0
    exact h0 ▸ hp⟩

/-- Case for C63_update and C63_run: heavy rain in the first Update of that configuration. -/
example (sa : Bool) : ∃ s0, bmiInitialize SampleReal.env SampleReal.lines = .ok s0 ∧
    Finishes fun fuel => update fuel sa { s0 with precipMm := 300, petMm := 1 } := by
  obtain ⟨s0, h0, hp, _⟩ := SampleReal.init
  refine ⟨s0, h0, C63_run _ _ s0 s0 _ [] sa h0 hp .nil ⟨300, 1, s0.p.soilTemp, s0.calib, rfl⟩ fun h => ⟨fun _ => ?_, by simp⟩⟩
  exact (Ready.init h0 hp).cal h

end LGAR
