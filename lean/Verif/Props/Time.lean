import Verif.Lemmas.Time
import Verif.Spec.SampleRun
import Verif.Model.Bmi
/-
Time: length of an Update, adaptive time step, end of stand-alone runs, UpdateUntil, and how much rain an Update takes.
-/
set_option linter.unusedSectionVars false
namespace LGAR

section Exact
variable {K : Type} [Field K] [LinearOrder K] [IsStrictOrderedRing K] [CMath K] [LawfulNum K]

/-- C35: with the adaptive time step, the sub-timestep of every Update is at most the forcing resolution, at least the
minimum time step unless the resolution is smaller, and one of: minimum, twice the minimum, resolution. -/
theorem C35_adaptive_bounds (fuel : Nat) (sa : Bool) (s s' : State K) (hv : s.p.invalidSoil = false)
    (had : s.p.adaptive = true) (hmin : 0 < s.p.minTimestepH) (h : update fuel sa s = .ok s') :
    s'.p.timestepH ≤ s.p.forcingResH ∧ (s.p.minTimestepH ≤ s.p.forcingResH → s.p.minTimestepH ≤ s'.p.timestepH) ∧
      (s'.p.timestepH = s.p.minTimestepH ∨ s'.p.timestepH = s.p.minTimestepH * 2 ∨ s'.p.timestepH = s.p.forcingResH) := by
  obtain ⟨k, n, _, _, _, ht, _⟩ := update_time hv h
  rw [ht]
  unfold chooseTimestep
  simp only [had, if_true, fmin_eq]
  have e2 : (2.0 : K) = 2 := by norm_num
  refine ⟨min_le_right _ _, fun hle => le_min ?_ hle, ?_⟩
  · split
    · exact le_refl _
    · split
      · rw [e2]; linarith
      · exact hle
  · split
    · rcases min_choice s.p.minTimestepH s.p.forcingResH with e | e <;> rw [e] <;> simp
    · split
      · rw [e2]
        rcases min_choice (s.p.minTimestepH * 2) s.p.forcingResH with e | e <;> rw [e] <;> simp
      · simp

/-- C35: how the choice is made: minimum in heavy rain or with ponded water, twice the minimum in light rain, the whole
interval when dry (each capped by the resolution); without the adaptive option the time step never changes. -/
theorem C35_decision (fuel : Nat) (sa : Bool) (s s' : State K) (hv : s.p.invalidSoil = false)
    (h : update fuel sa s = .ok s') :
    (s.p.adaptive = false → s'.p.timestepH = s.p.timestepH) ∧
    (s.p.adaptive = true → (10 < s.precipMm ∨ 0 < s.mb.volonT) → s'.p.timestepH = min s.p.minTimestepH s.p.forcingResH) ∧
    (s.p.adaptive = true → ¬ (10 < s.precipMm ∨ 0 < s.mb.volonT) → 0 < s.precipMm →
      s'.p.timestepH = min (2 * s.p.minTimestepH) s.p.forcingResH) ∧
    (s.p.adaptive = true → s.precipMm = 0 → ¬ 0 < s.mb.volonT → s'.p.timestepH = s.p.forcingResH) := by
  obtain ⟨k, n, _, _, _, ht, _⟩ := update_time hv h
  rw [ht]
  unfold chooseTimestep
  simp only [fmin_eq]
  have e10 : (10.0 : K) = 10 := by norm_num
  have e2 : (2.0 : K) = 2 := by norm_num
  rw [e10, e2]
  refine ⟨fun h => by simp [h], fun h h1 => by rw [if_pos h, if_pos h1], fun h h1 h2 => by
    rw [if_pos h, if_neg h1, if_pos h2, mul_comm], fun h h1 h2 => ?_⟩
  rw [if_pos h, if_neg (by rw [h1]; intro hh; rcases hh with hh | hh; · norm_num at hh
                           · exact h2 hh), if_neg (by rw [h1]; simp), min_self]

/-- C36: in a stand-alone build an Update that starts before the end time ends less than one sub-timestep after it; one that
starts later makes a single sub-timestep at most. -/
theorem C36_end_time (fuel : Nat) (s s' : State K) (hv : s.p.invalidSoil = false) (hdt : 0 < s'.p.timestepH)
    (h : update fuel true s = .ok s') :
    (s.p.timeS < s.p.endtimeS → s'.p.timeS < s.p.endtimeS + s'.p.timestepH * 3600) ∧
    (s.p.endtimeS ≤ s.p.timeS → s'.p.timesteps ≤ s.p.timesteps + 1) := by
  obtain ⟨k, n, _, _, _, _, _, _, k2, k3, k4, k5, _⟩ := update_time hv h
  constructor
  · intro hlt
    rcases k5 with k5 | k5 | k5
    · rw [k3]
      have hk : (k : K) ≤ 1 := by exact_mod_cast k5
      have : (k : K) * (s'.p.timestepH * 3600) ≤ 1 * (s'.p.timestepH * 3600) := by
        apply mul_le_mul_of_nonneg_right hk; positivity
      linarith
    · simp at k5
    · linarith
  · intro hge
    rcases k5 with k5 | k5 | k5
    · omega
    · simp at k5
    · rw [k2]
      by_contra hc
      have hk : 2 ≤ k := by omega
      have hk' : (2 : K) ≤ (k : K) := by exact_mod_cast hk
      have : (2 : K) * (s'.p.timestepH * 3600) ≤ (k : K) * (s'.p.timestepH * 3600) := by
        apply mul_le_mul_of_nonneg_right hk'; positivity
      have hp : 0 < s'.p.timestepH * 3600 := by positivity
      rw [k3] at k5
      linarith

variable [LawfulInt K]

theorem toInt_of_between {x : K} {m : Int} (h0 : 0 ≤ x) (h1 : (m : K) ≤ x) (h2 : x < (m : K) + 1) : CMath.toInt x = m := by
  obtain ⟨a, b⟩ := LawfulInt.toInt_nonneg x h0
  have h3 : ((CMath.toInt x : Int) : K) < ((m + 1 : Int) : K) := by push_cast; linarith
  have h4 : ((m : Int) : K) < ((CMath.toInt x + 1 : Int) : K) := by push_cast; linarith
  have h5 : CMath.toInt x < m + 1 := by exact_mod_cast h3
  have h6 : m < CMath.toInt x + 1 := by exact_mod_cast h4
  omega

/-- C34: an Update of a coupled build (no end-time check) advances the clock by what GetTimeStep reports, up to one
sub-timestep less (and up to 1e-8 of a sub-timestep more). -/
theorem C34_advance (fuel : Nat) (s s' : State K) (hv : s.p.invalidSoil = false) (hdt : 0 < s'.p.timestepH)
    (hres : 0 < s.p.forcingResH) (h : update fuel false s = .ok s') :
    s.p.timeS + timeStep s - s'.p.timestepH * 3600 < s'.p.timeS ∧
      s'.p.timeS ≤ s.p.timeS + timeStep s + 1e-8 * (s'.p.timestepH * 3600) := by
  obtain ⟨k, n, _, _, hn, _, _, hi, k2, k3, k4, k5, _⟩ := update_time hv h
  have hk : k = n := by rcases k4 with k4 | ⟨k4, _⟩; exact k4; simp at k4
  have hq : 0 ≤ s.p.forcingResH / s'.p.timestepH + 1.0e-8 := by positivity
  obtain ⟨a, b⟩ := LawfulInt.toInt_nonneg _ hq
  rw [← hi] at a b
  have hfi : (0 : Int) ≤ s'.p.forcingInterval := by
    have : (-1 : K) < ((s'.p.forcingInterval : Int) : K) := by linarith
    have : (-1 : Int) < s'.p.forcingInterval := by exact_mod_cast this
    omega
  have hkI : (k : K) = ((s'.p.forcingInterval : Int) : K) := by
    rw [hk, hn]
    have : ((s'.p.forcingInterval.toNat : Nat) : Int) = s'.p.forcingInterval := Int.toNat_of_nonneg hfi
    exact_mod_cast congrArg (Int.cast : Int → K) this
  rw [k3, hkI]
  unfold timeStep
  have e : s.p.forcingResH * 3600.0 = s.p.forcingResH / s'.p.timestepH * (s'.p.timestepH * 3600) := by
    have := hdt.ne'
    field_simp
    norm_num
  rw [e]
  have hp : 0 < s'.p.timestepH * 3600 := by positivity
  norm_num at a b ⊢
  constructor
  · nlinarith
  · nlinarith

/-- Number of sub-timesteps and clock when the sub-timestep divides the resolution. -/
theorem update_divides {fuel : Nat} {s s' : State K} {m : Nat} (hv : s.p.invalidSoil = false) (hdt : 0 < s'.p.timestepH)
    (hm : s.p.forcingResH = m * s'.p.timestepH) (h : update fuel false s = .ok s') :
    s'.p.timeS = s.p.timeS + timeStep s ∧ s'.p.timesteps = s.p.timesteps + m ∧
      s'.mb.volprecip = s.mb.volprecip + s.precipMm * 0.1 * s.p.forcingResH ∧
      s'.mb.volPET = s.mb.volPET + s.petMm * 0.1 * s.p.forcingResH := by
  obtain ⟨k, n, _, _, hn, _, _, hi, k2, k3, k4, k5, k6, _, _, k7⟩ := update_time hv h
  have hk : k = n := by rcases k4 with k4 | ⟨k4, _⟩; exact k4; simp at k4
  have hq : s.p.forcingResH / s'.p.timestepH = m := by rw [hm]; field_simp
  rw [hq] at hi
  have hi' : s'.p.forcingInterval = (m : Int) := by
    rw [hi]
    refine toInt_of_between (by positivity) (by push_cast; norm_num) (by push_cast; norm_num)
  have hkm : k = m := by rw [hk, hn, hi']; simp
  subst hkm
  refine ⟨?_, k2, by rw [k6, hm]; ring, by rw [k7 hdt.le, hm]; ring⟩
  rw [k3]; unfold timeStep; rw [hm]; norm_num; ring

/-- C34: if the sub-timestep divides the forcing resolution, the clock advances by exactly GetTimeStep.  Missing: other
sub-timesteps, for which the claim fails (C34_fails, C34_stuck). -/
theorem C34_time_step_partial (fuel : Nat) (s s' : State K) (m : Nat) (hv : s.p.invalidSoil = false)
    (hdt : 0 < s'.p.timestepH) (hm : s.p.forcingResH = m * s'.p.timestepH) (h : update fuel false s = .ok s') :
    s'.p.timeS = s.p.timeS + timeStep s := (update_divides hv hdt hm h).1

/-- C34 over runs of a coupled build with fixed sub-timestep: after n Updates the clock shows n forcing intervals. -/
theorem C34_run_partial (env : Env K) (lines : List (List Char)) (s0 s : State K) (hist : List (State K)) (m : Nat)
    (h0 : bmiInitialize env lines = .ok s0) (had : s0.p.adaptive = false) (hm : s0.p.forcingResH = m * s0.p.timestepH)
    (hr : RunAs false s0 hist s) :
    s.p.timeS = hist.length * (s0.p.forcingResH * 3600) ∧ s.p.timesteps = (hist.length * m : Nat) := by
  obtain ⟨c, _, hc, _⟩ := bmiInitialize_inv h0
  have hv0 := lgarInit_valid hc
  obtain ⟨_, _, _, _, _, ht0, htm⟩ := init_books h0
  have htime : s0.p.timeS = 0 := by
    obtain ⟨ts, file, fl, soils, cnt, thick, psi, dt, endt, wp, fc, res, ords, inv, giuh, soilZ, q, depth, vs, cs, _, _, _, _, _,
      _, _, _, _, _, _, _, _, _, _, _, _, _, _, _, _, _, _, _, hs⟩ := lgarInit_inv hc
    rw [hs]
  have : s.p.invalidSoil = false ∧ s.p.adaptive = false ∧ s.p.forcingResH = s0.p.forcingResH ∧
      s.p.timestepH = s0.p.timestepH ∧ s.p.timeS = hist.length * (s0.p.forcingResH * 3600) ∧
      s.p.timesteps = (hist.length * m : Nat) := by
    induction hr with
    | nil => exact ⟨hv0, had, rfl, rfl, by simp [htime], by simp [ht0]⟩
    | @step hist s s1 s2 fuel _ hi hu ih =>
      obtain ⟨i1, i2, i3, i4, i5, i6⟩ := ih
      obtain ⟨_, _, _, _, _, _, _, _, _, ip⟩ := hi.frame
      have e1 : s1.p.invalidSoil = false := by rw [ip]; exact i1
      have e2 : s1.p.adaptive = false := by rw [ip]; exact i2
      have e3 : s1.p.forcingResH = s0.p.forcingResH := by rw [ip]; exact i3
      have e4 : s1.p.timestepH = s0.p.timestepH := by rw [ip]; exact i4
      have e5 : s1.p.timeS = s.p.timeS := by rw [ip]
      have e6 : s1.p.timesteps = s.p.timesteps := by rw [ip]
      obtain ⟨k, n, _, _, _, hd, _⟩ := update_time e1 hu
      have hd' : s2.p.timestepH = s0.p.timestepH := by
        rw [hd]; unfold chooseTimestep; simp [e2, e4]
      obtain ⟨u1, u2, _⟩ := update_divides e1 (by rw [hd']; exact htm.dt) (by rw [e3, hd']; exact hm) hu
      have hfix := update_fixed hu
      refine ⟨by rw [hfix.2.2.2.1]; exact e1, by rw [hfix.2.2.2.2.2.2.2.2.1]; exact e2, by rw [hfix.2.2.2.2.1]; exact e3, hd', ?_, ?_⟩
      · rw [u1, e5, i5, timeStep, e3, List.length_append]; push_cast; norm_num; ring
      · rw [u2, e6, i6, List.length_append]; push_cast; simp; ring
  exact ⟨this.2.2.2.2.1, this.2.2.2.2.2⟩

/-- C34 fails completely if the sub-timestep is longer than the forcing resolution (fixed time step): an Update then does
nothing at all: the clock stands still and the rain is neither stored nor booked. -/
theorem C34_stuck (fuel : Nat) (sa : Bool) (s s' : State K) (hv : s.p.invalidSoil = false) (had : s.p.adaptive = false)
    (hres : 0 < s.p.forcingResH) (hgt : s.p.forcingResH < (1 - 1e-8) * s.p.timestepH) (h : update fuel sa s = .ok s') :
    s'.p.timeS = s.p.timeS ∧ s'.p.timesteps = s.p.timesteps ∧ s'.mb.volprecip = s.mb.volprecip := by
  obtain ⟨k, n, hkn, _, hn, hd, _, hi, k2, k3, _, _, k6, _⟩ := update_time hv h
  have hd' : s'.p.timestepH = s.p.timestepH := by rw [hd]; unfold chooseTimestep; simp [had]
  rw [hd'] at hi
  have hpos : 0 < s.p.timestepH := by
    by_contra hc
    have : (1 - 1e-8 : K) * s.p.timestepH ≤ 0 := mul_nonpos_of_nonneg_of_nonpos (by norm_num) (not_lt.mp hc)
    linarith
  have hq : s.p.forcingResH / s.p.timestepH < 1 - 1e-8 := by rw [div_lt_iff₀ hpos]; exact hgt
  have hq0 : 0 < s.p.forcingResH / s.p.timestepH := by positivity
  have : s'.p.forcingInterval = 0 := by
    rw [hi]
    refine toInt_of_between (by positivity) (by push_cast; positivity) ?_
    push_cast; norm_num at hq ⊢; linarith
  have hk0 : k = 0 := by rw [hn, this] at hkn; simpa using hkn
  subst hk0
  exact ⟨by rw [k3]; simp, by rw [k2]; simp, by rw [k6]; simp⟩

/-- C62: if the sub-timestep divides the forcing resolution, an Update books exactly the rain and the PET of the interval (rate
x resolution).  Missing: other sub-timesteps, for which rain is lost (C62_rain_lost). -/
theorem C62_forcing_taken_partial (fuel : Nat) (s s' : State K) (m : Nat) (hv : s.p.invalidSoil = false)
    (hdt : 0 < s'.p.timestepH) (hm : s.p.forcingResH = m * s'.p.timestepH) (h : update fuel false s = .ok s') :
    s'.mb.volprecip = s.mb.volprecip + s.precipMm * 0.1 * s.p.forcingResH ∧
      s'.mb.volPET = s.mb.volPET + s.petMm * 0.1 * s.p.forcingResH :=
  (update_divides hv hdt hm h).2.2

/-- C39: an UpdateUntil with a target within the coming interval reaches the target (sub-timestep dividing the resolution).
Missing: later targets, for which the claim fails (C39_fails). -/
theorem C39_reaches_partial (fuel : Nat) (t : K) (s s' : State K) (m : Nat) (hv : s.p.invalidSoil = false)
    (hdt : 0 < s'.p.timestepH) (hm : s.p.forcingResH = m * s'.p.timestepH) (ht : t ≤ s.p.timeS + timeStep s)
    (h : updateUntil fuel false t s = .ok s') : t ≤ s'.p.timeS := by
  unfold updateUntil at h
  simp only [bind_ok_iff, cassert_ok_iff] at h
  obtain ⟨_, _, h⟩ := h
  rw [(update_divides hv hdt hm h).1]
  exact ht

/-- C39 fails for every later target: UpdateUntil makes one Update whatever the target, so the clock stays below every target
more than one interval (plus 1e-8 of a sub-timestep) away. -/
theorem C39_fails (fuel : Nat) (t : K) (s s' : State K) (hv : s.p.invalidSoil = false) (hdt : 0 < s'.p.timestepH)
    (hres : 0 < s.p.forcingResH) (ht : s.p.timeS + timeStep s + 1e-8 * (s'.p.timestepH * 3600) < t)
    (h : updateUntil fuel false t s = .ok s') : s'.p.timeS < t := by
  unfold updateUntil at h
  simp only [bind_ok_iff, cassert_ok_iff] at h
  obtain ⟨_, _, h⟩ := h
  exact (C34_advance fuel s s' hv hdt hres h).2.trans_lt ht

end Exact

section Witness

/-- Adaptive time step with a minimum of 20 min, hourly forcing. -/
def cfgAdaptive : List (List Char) := (Sample.cfg.set 5 "timestep=20[min]".toList) ++ ["adaptive_timestep=true".toList]

/-- What the witness below shows, as a decidable test. -/
def LostRain (a : State Grid × List (State Grid)) : Prop :=
  a.1.p.minTimestepH = 1/3 ∧ a.1.p.forcingResH = 1 ∧ a.2.length = 1 ∧
    ∀ x ∈ a.2, x.p.timestepH = 2/3 ∧ x.p.timeS = 2400 ∧ x.mb.volprecip = 1/3 ∧ x.p.invalidSoil = false

instance : DecidablePred LostRain := fun a => by unfold LostRain; infer_instance

theorem lostRain_check : Sample.okAnd (Sample.play cfgAdaptive 1000 false [(5, 0)]) (fun a => decide (LostRain a)) = true := by
  decide +kernel

attribute [local irreducible] Sample.env cfgAdaptive Sample.play bmiInitialize in
/-- C34 fails: adaptive time step with minimum 20 min and hourly forcing, light rain of 5 mm/h.  The sub-timestep is 40 min, one
sub-timestep is made, and the clock advances by 2400 s instead of 3600 s.  C62 fails with it: of 0.5 cm of rain only 1/3 cm is
taken, the rest disappears (and the water balance, which is based on the rain taken, does not show it). -/
theorem C34_fails : ∃ s0 hist s, bmiInitialize Sample.env cfgAdaptive = .ok s0 ∧ RunAs false s0 hist s ∧ hist.length = 1 ∧
    s0.p.forcingResH = 1 ∧ s.p.timeS = 2400 ∧ s.mb.volprecip = 1/3 ∧ s.p.timestepH = 2/3 ∧ s.p.invalidSoil = false := by
  obtain ⟨s0, hist, s, h1, h2, ⟨_, l2, l3, l4⟩, rfl⟩ := Sample.play_run lostRain_check
  obtain ⟨m1, m2, m3, m4⟩ := l4 _ (Sample.last1 l3)
  exact ⟨s0, hist, _, h1, h2, l3, l2, m2, m3, m1, m4⟩

/-- C62 fails: the same run; 5 mm/h for one hour is 0.5 cm, 1/3 cm is booked. -/
theorem C62_rain_lost : ∃ s0 hist s, bmiInitialize Sample.env cfgAdaptive = .ok s0 ∧ RunAs false s0 hist s ∧ hist.length = 1 ∧
    s.mb.volprecip < (5 : Grid) * 0.1 * s0.p.forcingResH := by
  obtain ⟨s0, hist, s, h1, h2, h3, h4, _, h5, _⟩ := C34_fails
  exact ⟨s0, hist, s, h1, h2, h3, by rw [h5, h4]; norm_num⟩

/-- A run that meets the hypotheses of the `_partial` theorems: 30 min in 60 min. -/
def Divides (a : State Grid × List (State Grid)) : Prop :=
  a.1.p.adaptive = false ∧ a.1.p.forcingResH = (2 : Nat) * a.1.p.timestepH ∧ a.2.length = 1 ∧
    ∀ x ∈ a.2, x.p.timeS = 3600 ∧ x.p.timesteps = 2

instance : DecidablePred Divides := fun a => by unfold Divides; infer_instance

theorem divides_check : Sample.okAnd (Sample.play Sample.cfg 1000 false [(5, 0)]) (fun a => decide (Divides a)) = true := by
  decide +kernel

attribute [local irreducible] Sample.env Sample.cfg Sample.play bmiInitialize in
example : ∃ s0 hist s, bmiInitialize Sample.env Sample.cfg = .ok s0 ∧ RunAs false s0 hist s ∧ hist.length = 1 ∧
    s0.p.adaptive = false ∧ s0.p.forcingResH = (2 : Nat) * s0.p.timestepH := by
  obtain ⟨s0, hist, s, h1, h2, ⟨l1, l2, l3, l4⟩, rfl⟩ := Sample.play_run divides_check
  exact ⟨s0, hist, _, h1, h2, l3, l1, l2⟩

end Witness
end LGAR
