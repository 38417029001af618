import Verif.Props.Runs
/-
Properties of a single Update: bookkeeping, time, forcing checks, unsupported soils, calibration, exposed arrays.
-/
set_option linter.unusedSectionVars false
namespace LGAR

section Free
variable {α : Type} [Add α] [Sub α] [Mul α] [Div α] [Neg α] [Zero α] [One α] [OfScientific α]
  [LT α] [LE α] [DecidableLT α] [DecidableLE α] [BEq α] [CMath α]

/-- C37: with a supported soil, an Update whose precipitation or PET is not at least 0 (negative, or NaN in floating point)
never returns. -/
theorem C37_refuses (fuel : Nat) (sa : Bool) (s s' : State α) (hv : s.p.invalidSoil = false)
    (hneg : ¬ 0 ≤ s.precipMm ∨ ¬ 0 ≤ s.petMm) : update fuel sa s ≠ .ok s' := by
  intro h
  rcases update_inv h with ⟨hi, _⟩ | ⟨_, s1, d, v, u, h1, _⟩
  · rw [hv] at hi; simp at hi
  · obtain ⟨h2, h3, _⟩ := updatePre_inv h1
    exact hneg.elim (fun h => h h2) fun h => h h3

/-- C37: without frozen-ground coupling and calibration nothing precedes the check: the Update stops with an assertion. -/
theorem C37_asserts (fuel : Nat) (sa : Bool) (s : State α) (hv : s.p.invalidSoil = false) (hs : s.p.sftCoupled = false)
    (hc : s.p.calibFlag = false) (hneg : ¬ 0 ≤ s.precipMm ∨ ¬ 0 ≤ s.petMm) :
    ∃ why, update fuel sa s = .error (.assertFail why) := by
  by_cases hp : 0 ≤ s.precipMm
  · have he := hneg.resolve_left fun h => h hp
    exact ⟨"PET_mm_per_h >= 0.0", by simp [update, updatePre, applyFrozen, applyCalib, hv, hs, hc, hp, he, cassert, bind,
      Except.bind]⟩
  · exact ⟨"precipitation_mm_per_h >= 0.0", by simp [update, updatePre, applyFrozen, applyCalib, hv, hs, hc, hp, cassert,
      bind, Except.bind]⟩

/-- C37: the initial values of the inputs are such values, so an Update before the inputs are set stops (any arithmetic in
which -1 is not at least 0). -/
theorem C37_unset (env : Env α) (lines : List (List Char)) (s0 : State α) (fuel : Nat) (sa : Bool)
    (h1 : ¬ (0 : α) ≤ -1) (h0 : bmiInitialize env lines = .ok s0) (hv : s0.p.invalidSoil = false) (s' : State α) :
    update fuel sa s0 ≠ .ok s' := by
  obtain ⟨c, _, h, _⟩ := bmiInitialize_inv h0
  obtain ⟨ts, file, fl, soils, cnt, thick, psi, dt, endt, wp, fc, res, ords, inv, giuh, soilZ, q, depth, vs, cs, _, _, _, _, _,
    _, _, _, _, _, _, _, _, _, _, _, _, _, _, _, _, _, _, _, hs⟩ := lgarInit_inv h
  refine C37_refuses fuel sa s0 s' hv (.inl ?_)
  rw [hs]; exact h1

example : ¬ (0 : ℚ) ≤ -1 := by norm_num
example : ∃ s0, bmiInitialize Sample.env Sample.cfg = .ok s0 ∧ s0.p.invalidSoil = false ∧ s0.p.sftCoupled = false ∧
    s0.p.calibFlag = false ∧ ¬ 0 ≤ s0.precipMm :=
  Sample.okAnd_exists (by decide +kernel)

/-- C38: with an unsupported soil type an Update always returns; it adds the precipitation of the Update to the volumes of
precipitation, runoff and discharge alike, and leaves the fronts alone. -/
theorem C38_pass_through (fuel : Nat) (sa : Bool) (s : State α) (hv : s.p.invalidSoil = true) :
    ∃ s', update fuel sa s = .ok s' ∧ s'.head = s.head ∧ s'.p = s.p ∧
      s'.mb.volprecip = s.mb.volprecip + s.precipMm * 0.1 ∧ s'.mb.volrunoff = s.mb.volrunoff + s.precipMm * 0.1 ∧
      s'.mb.volQ = s.mb.volQ + s.precipMm * 0.1 ∧ s'.mb.volend = s.mb.volstart ∧
      s'.conv.precip = s.precipMm * 0.001 ∧ s'.conv.runoff = s'.conv.precip ∧ s'.conv.Q = s'.conv.precip ∧
      s'.conv.infil = 0 ∧ s'.conv.aet = 0 ∧ s'.conv.rech = 0 ∧ s'.conv.massBalance = 0 := by
  refine ⟨updateInvalid s, by simp [update, hv], rfl, rfl, rfl, rfl, rfl, rfl, rfl, rfl, rfl, rfl, rfl, rfl, rfl⟩

/-- C38: but Initialize never produces such a state without undefined behaviour: whenever some layer has a soil type above the
number of supported types, the properties of that type are read from behind the end of the array of soils. -/
theorem C38_never_initialised (env : Env α) (lines : List (List Char)) (s0 : State α)
    (h0 : bmiInitialize env lines = .ok s0) : s0.p.invalidSoil = false := by
  obtain ⟨c, _, h, _⟩ := bmiInitialize_inv h0
  exact lgarInit_valid h

/-- The configuration of the sample run with soil type 3 in the second layer, while 2 types are supported. -/
def cfgWater : List (List Char) := Sample.cfg.set 1 "layer_soil_type=1,3".toList

/-- C38: such a configuration, which the code means to accept, ends in undefined behaviour. -/
theorem C38_initialize_ub : ∃ why, bmiInitialize Sample.env cfgWater = .error (.ub why) :=
  Sample.isUb_exists (by decide +kernel)

/-- C46: after an Update with a supported soil the arrays of the wetting fronts have one entry per front, its moisture and its
depth times 0.01. -/
theorem C46_mirror (fuel : Nat) (sa : Bool) (s s' : State α) (hv : s.p.invalidSoil = false)
    (h : update fuel sa s = .ok s') :
    s'.p.moistureWf.length = s'.head.length ∧ s'.p.depthWf.length = s'.head.length ∧
      (∀ (i : Nat) (f : Front α), s'.head[i]? = some f → s'.p.moistureWf[i]? = some f.theta ∧ s'.p.depthWf[i]? = some (f.depth * 0.01)) ∧
      s'.p.numWf = (s'.head.length : Int) := by
  rcases update_inv h with ⟨hi, _⟩ | ⟨_, s1, d, v, u, h1, _, _, h2⟩
  · rw [hv] at hi; simp at hi
  · obtain ⟨_, _, _, hh, _, _, _, _, _, _, _, _, hp, _⟩ := updatePost_inv h2
    rw [hp, hh]
    refine ⟨by simp, by simp, ?_, rfl⟩
    intro i f hf
    simp [hf]

/-- C46 over runs: also after Initialize and for unsupported soils (where the fronts never move). -/
theorem C46_mirror_run (env : Env α) (lines : List (List Char)) (s0 s : State α) (hist : List (State α))
    (h0 : bmiInitialize env lines = .ok s0) (hr : Run s0 hist s) :
    s.p.moistureWf = s.head.map (fun f => f.theta) ∧ s.p.depthWf = s.head.map (fun f => f.depth * 0.01) ∧
      s.p.numWf = (s.head.length : Int) := by
  refine ⟨?_, ?_, (run_sound h0 hr).2.1⟩ <;>
  · induction hr with
    | nil =>
      obtain ⟨c, _, h, _⟩ := bmiInitialize_inv h0
      obtain ⟨ts, file, fl, soils, cnt, thick, psi, dt, endt, wp, fc, res, ords, inv, giuh, soilZ, q, depth, vs, cs, _, _, _, _,
        _, _, _, _, _, _, _, _, _, _, _, _, _, _, _, _, _, _, _, _, hs⟩ := lgarInit_inv h
      rw [hs]
    | @step hist s s1 s2 fuel sa _ hi hu ih =>
      obtain ⟨i1, _, _, _, _, _, _, _, _, ip⟩ := hi.frame
      rcases update_inv hu with ⟨_, rfl⟩ | ⟨_, s1', d, v, u, h1, _, _, h2⟩
      · simp only [updateInvalid]; rw [i1, ip, ih]
      · obtain ⟨_, _, _, hh, _, _, _, _, _, _, _, _, hp, _⟩ := updatePost_inv h2
        rw [hp, hh]

/-- C40: the first Update of a run with a supported soil clears the calibration flag, and it stays cleared; an Update that
finds it cleared does not change the soil parameters, field capacity, maximum ponding depth, and books no calibration
change. -/
theorem C40_once (fuel : Nat) (sa : Bool) (s s' : State α) (hv : s.p.invalidSoil = false)
    (h : update fuel sa s = .ok s') :
    s'.p.calibFlag = false ∧
      (s.p.calibFlag = false → s'.soils = s.soils ∧ s'.p.fcPsi = s.p.fcPsi ∧ s'.p.pondMax = s.p.pondMax ∧
        s'.mb.volcalib = s.mb.volcalib + 0) ∧
      (s.p.calibFlag = true → s'.p.fcPsi = s.calib.fcPsi ∧ s'.p.pondMax = s.calib.pondMax) := by
  rcases update_inv h with ⟨hi, _⟩ | ⟨_, s1, d, v, u, h1, _, _, h2⟩
  · rw [hv] at hi; simp at hi
  · obtain ⟨_, _, _, _, _, hs, _, _, _, _, _, _, hp, hm, _⟩ := updatePost_inv h2
    obtain ⟨_, _, fs, soils, l, fc, pm, q, _, rfl, _, hc⟩ := updatePre_inv h1
    rw [hp, hm, hs]
    rcases hc with ⟨h0, rfl, rfl, _⟩ | ⟨h0, rfl, rfl, _, rfl, rfl⟩
    · exact ⟨rfl, fun h => by rw [h0] at h; simp at h, fun _ => ⟨rfl, rfl⟩⟩
    · exact ⟨rfl, fun _ => ⟨rfl, rfl, rfl, rfl⟩, fun h => by rw [h0] at h; simp at h⟩

/-- C40 over runs: after the first Update no later one calibrates. -/
theorem C40_never_again (s0 s : State α) (hist : List (State α)) (hr : Run s0 hist s) (hv : s0.p.invalidSoil = false)
    (hne : hist ≠ []) : s.p.calibFlag = false ∧ ∃ s1, hist.head? = some s1 ∧ s.soils = s1.soils ∧
      s.p.fcPsi = s1.p.fcPsi ∧ s.p.pondMax = s1.p.pondMax := by
  have hall : s.p.invalidSoil = false ∧ (hist ≠ [] → s.p.calibFlag = false ∧ ∃ s1, hist.head? = some s1 ∧ s.soils = s1.soils ∧
      s.p.fcPsi = s1.p.fcPsi ∧ s.p.pondMax = s1.p.pondMax) := by
    clear hne
    induction hr with
    | nil => exact ⟨hv, fun h => absurd rfl h⟩
    | @step hist s s1 s2 fuel sa _ hi hu ih =>
      obtain ⟨_, _, _, _, i5, _, _, _, _, ip⟩ := hi.frame
      have hv1 : s1.p.invalidSoil = false := by rw [ip]; exact ih.1
      have hfix := update_fixed hu
      obtain ⟨c1, c2, _⟩ := C40_once fuel sa s1 s2 hv1 hu
      refine ⟨by rw [hfix.2.2.2.1]; exact hv1, fun _ => ⟨c1, ?_⟩⟩
      cases hist with
      | nil => exact ⟨s2, rfl, rfl, rfl, rfl⟩
      | cons a t =>
        obtain ⟨j1, sa', j2, j3, j4, j5⟩ := ih.2 (by simp)
        obtain ⟨k1, k2, k3, _⟩ := c2 (by rw [ip]; exact j1)
        refine ⟨sa', by simpa using j2, by rw [k1, i5, j3], by rw [k2, ip]; exact j4, by rw [k3, ip]; exact j5⟩
  exact hall.2 hne

end Free

section Exact
variable {K : Type} [Field K] [LinearOrder K] [IsStrictOrderedRing K] [CMath K] [LawfulNum K]

/-- C40: what is booked as the change by calibration is the change of the water content of the fronts. -/
theorem C40_booked (fuel : Nat) (sa : Bool) (s s' : State K) (hv : s.p.invalidSoil = false)
    (h : update fuel sa s = .ok s') (hc : s.p.calibFlag = true) :
    ∃ soils l, calibLoop s.p.layerSoilType s.calib s.p.numWf.toNat s.soils s.head = .ok (soils, l) ∧ s'.soils = soils ∧
      s'.mb.volcalib = s.mb.volcalib + (water s.p.cum l - water s.p.cum s.head) := by
  rcases update_inv h with ⟨hi, _⟩ | ⟨_, s1, d, v, u, h1, _, _, h2⟩
  · rw [hv] at hi; simp at hi
  · obtain ⟨_, _, _, _, _, hs, _, _, _, _, _, _, hp, hm, _⟩ := updatePost_inv h2
    obtain ⟨_, _, fs, soils, l, fc, pm, q, _, rfl, _, hc'⟩ := updatePre_inv h1
    rcases hc' with ⟨_, _, _, hl, m0, m1, hm0, hm1, rfl⟩ | ⟨h0, _⟩
    · refine ⟨soils, l, hl, hs, ?_⟩
      rw [hm, massBal_water hm0, massBal_water hm1]
    · rw [hc] at h0; simp at h0

/-- C38 fails in one more way: what is booked is the rate in cm/h, whatever the forcing resolution; it is the depth of rain of
the Update (rate x resolution) only for hourly forcing or no rain. -/
theorem C38_volume_fails (s : State K) :
    (updateInvalid s).mb.volprecip - s.mb.volprecip = s.precipMm * 0.1 * s.p.forcingResH ↔
      s.p.forcingResH = 1 ∨ s.precipMm = 0 := by
  simp only [updateInvalid]
  constructor
  · intro h
    have h' : s.precipMm * (s.p.forcingResH - 1) = 0 := by
      have : s.precipMm * 0.1 * (s.p.forcingResH - 1) = 0 := by linarith
      rcases mul_eq_zero.mp this with h1 | h1
      · rcases mul_eq_zero.mp h1 with h2 | h2
        · rw [h2, zero_mul]
        · norm_num at h2
      · rw [h1, mul_zero]
    rcases mul_eq_zero.mp h' with h | h
    · exact .inr h
    · left; linarith
  · rintro (h | h) <;> rw [h] <;> ring

/-- C38: with an unsupported soil the printed balance stays exactly zero over any number of Updates, and the fronts do not
move.  (The volumes of precipitation and runoff start equal: both are zeroed by Initialize.) -/
theorem C38_balance_zero (s0 s : State K) (hist : List (State K)) (hr : Run s0 hist s) (hv : s0.p.invalidSoil = true)
    (he : s0.mb.volprecip = s0.mb.volrunoff) (hne : hist ≠ []) :
    s.mb.volstart + s.mb.volprecip - s.mb.volrunoff - s.mb.volAET - s.mb.volon - s.mb.volrech - s.mb.volend +
      s.mb.volcalib = 0 ∧ s.head = s0.head := by
  have hall : Bad s ∧ s.head = s0.head ∧ (hist ≠ [] → s.mb.volstart + s.mb.volprecip - s.mb.volrunoff - s.mb.volAET -
      s.mb.volon - s.mb.volrech - s.mb.volend + s.mb.volcalib = 0) := by
    clear hne
    induction hr with
    | nil => exact ⟨⟨hv, he⟩, rfl, fun h => absurd rfl h⟩
    | @step hist s s1 s2 fuel sa _ hi hu ih =>
      obtain ⟨hb', rfl⟩ := (ih.1.inputs hi).update hu
      refine ⟨hb', ?_, fun _ => ?_⟩
      · rw [← ih.2.1, ← hi.frame.1]; rfl
      · simp only [updateInvalid]
        rw [(ih.1.inputs hi).same]; ring
  exact ⟨hall.2.2 hne, hall.2.1⟩

/-- Example of a state with an unsupported soil and equal volumes: the sample after Initialize, with the flag set. -/
example : ∃ s0 : State Grid, s0.p.invalidSoil = true ∧ s0.mb.volprecip = s0.mb.volrunoff ∧ s0.head.length = 2 := by
  obtain ⟨s, _, h2, h3⟩ := Sample.okAnd_exists (x := bmiInitialize Sample.env Sample.cfg)
    (p := fun s => s.mb.volprecip = s.mb.volrunoff ∧ s.head.length = 2) (by decide +kernel)
  exact ⟨{ s with p := { s.p with invalidSoil := true } }, rfl, h2, h3⟩

/-- The run of two Updates meets the hypotheses of the theorems about supported soils. -/
example : ∃ s0 hist s, bmiInitialize Sample.env Sample.cfg = .ok s0 ∧ Run s0 hist s ∧ s0.p.invalidSoil = false ∧ hist ≠ [] ∧
    s.head.length = 3 := by
  obtain ⟨s0, hist, s, h1, h2, h3, _, _, _, _, _, h4, _⟩ := Sample.run2
  exact ⟨s0, hist, s, h1, h2, C38_never_initialised _ _ _ h1, by intro e; simp [e] at h3, h4⟩

end Exact
end LGAR
