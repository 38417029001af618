import Verif.Props.Runs

/-!
# C83: the reported mass balance is the balance of the Update
-/
set_option linter.unusedSectionVars false
namespace LGAR

section Exact
variable {K : Type} [Field K] [LinearOrder K] [IsStrictOrderedRing K] [CMath K] [LawfulNum K]

/-- Water (cm) that an Update from `s` to `s'` loses: what was in the soil and on the surface, plus rain and the storage change of
calibration, minus runoff, ET and percolation of this Update, minus what is in the soil and on the surface afterwards. -/
def lostBy (s s' : State K) : K :=
  (water s.p.cum s.head + s.mb.volonT) + s'.mb.volprecipT + (s'.mb.volcalib - s.mb.volcalib) -
    (s'.mb.volrunoffT + s'.mb.volAETT + s'.mb.volrechT) - (water s'.p.cum s'.head + s'.mb.volonT)

theorem subStep_lost {c : StepCfg K} {s s' : SubSt K} (hdt : 0 ≤ c.dt) (hmax : 0 ≤ c.pondMax) (hv : 0 ≤ s.volon)
    (h : subStep c s = .ok s') :
    |s'.localMb - (water c.geo.cum s.head + s.volon + (s'.precipT - s.precipT) - (s'.runoffT - s.runoffT) - (s'.aetT - s.aetT) -
        (s'.rechT - s.rechT) - s'.volon - s'.volend)| ≤ 1e-12 ∧ |s'.localMb| ≤ 1e-4 := by
  obtain ⟨aet, vs, h0, hs, f, l, ve, h1, _, hvs, _, _, hf, _, hve, hmb, _, _, rfl⟩ := subStep_inv h
  have hpr : 0 ≤ CMath.fmax s.precipMm 0 * 0.1 * c.dt := by
    rw [fmax_eq]
    exact mul_nonneg (mul_nonneg (le_max_right _ _) (by norm_num)) hdt
  obtain ⟨_, _, _, _, hrT, hre, _⟩ := subFlow_surface hmax (by linarith) hf
  obtain ⟨hc1, hc2, _⟩ := volonClean_diff hv
  rw [not_lt, fabs_eq] at hmb
  refine ⟨?_, by norm_num at hmb ⊢; exact hmb⟩
  simp only at hrT hre ⊢
  rw [← massBal_water hvs, hrT, hre]
  have e : vs + CMath.fmax s.precipMm 0 * 0.1 * c.dt + volonClean s.volon - f.runoff - f.aet - f.volon - f.rech - ve -
      (vs + s.volon + (s.precipT + CMath.fmax s.precipMm 0 * 0.1 * c.dt - s.precipT) -
        (s.runoffT + f.runoff - s.runoffT) - (s.aetT + f.aet - s.aetT) - (s.rechT + f.rech - s.rechT) - f.volon - ve) =
      -(s.volon - volonClean s.volon) := by ring
  rw [e, abs_neg, abs_of_nonneg hc1]
  exact hc2

/-- The last sub-timestep of a loop that makes at least one. -/
theorem subLoop_last {c : StepCfg K} {n : Nat} {s s' : SubSt K} (h : subLoop c n s = .ok s') :
    s' = s ∨ ∃ t, subStep c t = .ok s' ∧ (t = s ∨ s.timesteps < t.timesteps) ∧ (0 ≤ c.dt → 0 ≤ c.pondMax → 0 ≤ s.volon → 0 ≤ t.volon) := by
  have key : (s' = s ∨ ∃ t, subStep c t = .ok s' ∧ (t = s ∨ s.timesteps < t.timesteps) ∧
      (0 ≤ c.dt → 0 ≤ c.pondMax → 0 ≤ s.volon → 0 ≤ t.volon)) ∧ (s' = s ∨ s.timesteps < s'.timesteps) ∧
      (0 ≤ c.dt → 0 ≤ c.pondMax → 0 ≤ s.volon → 0 ≤ s'.volon) := by
    refine subLoop_ind (c := c) (P := fun x => (x = s ∨ ∃ t, subStep c t = .ok x ∧ (t = s ∨ s.timesteps < t.timesteps) ∧
      (0 ≤ c.dt → 0 ≤ c.pondMax → 0 ≤ s.volon → 0 ≤ t.volon)) ∧ (x = s ∨ s.timesteps < x.timesteps) ∧
      (0 ≤ c.dt → 0 ≤ c.pondMax → 0 ≤ s.volon → 0 ≤ x.volon)) ?_ ⟨.inl rfl, .inl rfl, fun _ _ h => h⟩ h
    rintro a b ⟨_, i2, i3⟩ hab
    have ht : b.timesteps = a.timesteps + 1 := by
      obtain ⟨aet, vs, h0, hs, f, l, ve, h1, _, _, _, _, _, _, _, _, _, _, rfl⟩ := subStep_inv hab
      rfl
    refine ⟨.inr ⟨a, hab, i2, i3⟩, .inr ?_, fun h1 h2 h3 => (subStep_balance h1 h2 (i3 h1 h2 h3) hab).1⟩
    rcases i2 with rfl | i2 <;> omega
  exact key.1

/-- C83: the mass balance that the BMI reports (m) is the water lost by the Update (up to the 1e-12 cm of ponded water that the
balance ignores), after any run, when the Update makes one sub-timestep.
Missing: several sub-timesteps, where only the loss of the last one is reported (C83_fails). -/
theorem C83_one_step_partial (env : Env K) (lines : List (List Char)) (s0 s s1 s2 : State K) (hist : List (State K)) (fuel : Nat)
    (sa : Bool) (h0 : bmiInitialize env lines = .ok s0) (hr : Run s0 hist s) (hp : ∀ x ∈ hist, 0 ≤ x.p.pondMax) (hi : Inputs s s1)
    (hv : s0.p.invalidSoil = false) (h : update fuel sa s1 = .ok s2) (hp2 : 0 ≤ s2.p.pondMax)
    (ht : s2.p.timesteps = s.p.timesteps + 1) :
    |s2.conv.massBalance * 100 - lostBy s s2| ≤ 1e-12 := by
  have hb : Bal s1 := by
    have := (run_books h0 hr hp).1
    rcases this with hb | ⟨hb, _⟩
    · exact hb.inputs hi
    · exact absurd hb.invalid (by
        have : s.p.invalidSoil = s0.p.invalidSoil := by
          clear * - hr
          induction hr with
          | nil => rfl
          | @step hist s s1 s2 fuel sa hr hi hu ih =>
            rw [← ih]
            obtain ⟨_, _, _, _, rfl⟩ := hi
            rcases update_inv hu with ⟨_, rfl⟩ | ⟨_, s1, d, v, u, h1, _, _, h2⟩
            · rfl
            · obtain ⟨_, _, _, _, _, _, _, _, _, _, _, _, hp, _⟩ := updatePost_inv h2
              obtain ⟨_, _, _, _, _, _, _, _, _, e1, _⟩ := updatePre_inv h1
              subst e1
              rw [hp]
        rw [this, hv]; simp)
  have hs : s1.p.timesteps = s.p.timesteps ∧ s1.p.cum = s.p.cum ∧ s1.head = s.head ∧ s1.mb = s.mb := by
    obtain ⟨_, _, _, _, rfl⟩ := hi
    exact ⟨rfl, rfl, rfl, rfl⟩
  rcases update_inv h with ⟨hi, _⟩ | ⟨_, s3, d, v, u, h1, hm, hu, h2⟩
  · rw [hb.valid] at hi; simp at hi
  obtain ⟨giuh, queue, _, hh, _, _, _, _, _, _, _, _, hpp, hmb, hc⟩ := updatePost_inv h2
  obtain ⟨_, _, fs, soils, l, fc, pm, q, _, rfl, _, hcal⟩ := updatePre_inv h1
  simp only at hm hu h2 hpp hmb
  have hdt : 0 < chooseTimestep s1.p s1.precipMm s1.mb.volonT := hb.times.choose _ _
  have hpm : s2.p.pondMax = pm := by rw [hpp]
  have hd : d = water s1.p.cum l - water s1.p.cum s1.head := by
    rcases hcal with ⟨_, _, _, _, m0, m1, h0, h1, hd⟩ | ⟨_, _, _, hl, _, hd⟩
    · rw [hd, massBal_water h0, massBal_water h1]
    · rw [hd, hl, sub_self]
  have hts : u.timesteps = s1.p.timesteps + 1 := by rw [hs.1, ← ht, hpp]
  rcases subLoop_last hu with rfl | ⟨t, hst, htt, _⟩
  · simp [subInit] at hts
  have htt' : t.timesteps + 1 = u.timesteps := by
    obtain ⟨aet, vs, h0, hs, f, l, ve, h1, _, _, _, _, _, _, _, _, _, _, rfl⟩ := subStep_inv hst
    rfl
  rcases htt with rfl | htt
  · obtain ⟨a1, _⟩ := subStep_lost (by exact hdt.le) (by rw [hpm] at hp2; exact hp2) hb.pond hst
    obtain ⟨_, b2, _⟩ := subStep_balance (by exact hdt.le) (by rw [hpm] at hp2; exact hp2) hb.pond hst
    refine le_of_eq_of_le (congrArg _ ?_) a1
    unfold lostBy
    rw [hc, hmb, hh, hpp]
    simp only [subInit, stepCfg, State.geo, sub_zero] at b2 ⊢
    rw [← b2, hd, hs.2.1, hs.2.2.1, hs.2.2.2]
    have e : u.localMb * 0.01 * 100 = u.localMb := by norm_num [mul_assoc]
    rw [e]
    ring
  · simp only [subInit] at htt
    omega

/-- C83, what always holds: the reported number is at most 1e-6 m in size after an Update with at least one sub-timestep. -/
theorem C83_bounded (fuel : Nat) (sa : Bool) (s s' : State K) (hv : s.p.invalidSoil = false) (h : update fuel sa s = .ok s')
    (ht : s.p.timesteps < s'.p.timesteps) : |s'.conv.massBalance| ≤ 1e-6 := by
  rcases update_inv h with ⟨hi, _⟩ | ⟨_, s3, d, v, u, h1, hm, hu, h2⟩
  · rw [hv] at hi; simp at hi
  obtain ⟨giuh, queue, _, hh, _, _, _, _, _, _, _, _, hpp, hmb, hc⟩ := updatePost_inv h2
  obtain ⟨_, _, fs, soils, l, fc, pm, q, _, rfl, _, hcal⟩ := updatePre_inv h1
  rcases subLoop_last hu with rfl | ⟨t, hst, _⟩
  · rw [hpp] at ht; simp [subInit] at ht
  obtain ⟨aet, vs, h0, hs, f, l, ve, h1, _, _, _, _, _, _, _, hloc, _, _, rfl⟩ := subStep_inv hst
  rw [not_lt, fabs_eq] at hloc
  rw [hc]
  simp only
  rw [abs_mul, abs_of_pos (show (0 : K) < 0.01 by norm_num)]
  norm_num at hloc ⊢
  linarith

end Exact

namespace Sample

/-- The condition of C83_fails. -/
def Hidden (a : State Grid × List (State Grid)) : Prop :=
  a.2.length = 1 ∧ ∀ x ∈ a.2, 0 ≤ x.p.pondMax ∧ x.p.timesteps = 2 ∧ x.conv.massBalance = 0 ∧ lostBy a.1 x < -(1 / 10 ^ 9)

instance : DecidablePred Hidden := fun a => by unfold Hidden; infer_instance

theorem hidden_check : okAnd (play cfg 5000 true [(5, 0)]) (fun a => decide (Hidden a)) = true := by decide +kernel

/-- One Update of one sub-timestep that loses water. -/
def Shown (a : State Grid × List (State Grid)) : Prop :=
  a.2.length = 1 ∧ a.1.p.invalidSoil = false ∧ ∀ x ∈ a.2, 0 ≤ x.p.pondMax ∧ x.p.timesteps = a.1.p.timesteps + 1 ∧
    x.conv.massBalance ≠ 0

instance : DecidablePred Shown := fun a => by unfold Shown; infer_instance

/-- The sample configuration with one sub-timestep per Update. -/
def cfgHour : List (List Char) := cfg.set 5 "timestep=60[min]".toList

theorem shown_check : okAnd (play cfgHour 5000 true [(5, 0)]) (fun a => decide (Shown a)) = true := by decide +kernel

end Sample

attribute [local irreducible] Sample.env Sample.cfg Sample.cfgHour Sample.play bmiInitialize

/-- C83 fails with two sub-timesteps: an Update with 5 mm/h of rain gains more than 1e-9 cm of water, and reports exactly 0. -/
theorem C83_fails : ∃ (env : Env Grid) (lines : List (List Char)) (s0 s : State Grid) (hist : List (State Grid)),
    bmiInitialize env lines = .ok s0 ∧ Run s0 hist s ∧ hist.length = 1 ∧ 0 ≤ s.p.pondMax ∧ s.p.timesteps = 2 ∧
    s.conv.massBalance = 0 ∧ lostBy s0 s < -(1 / 10 ^ 9) := by
  obtain ⟨s0, hist, s, h1, h2, ⟨l1, l2⟩, rfl⟩ := Sample.play_run Sample.hidden_check
  exact ⟨_, _, s0, _, hist, h1, h2.run, l1, l2 _ (Sample.last1 l1)⟩

/-- A case for C83_one_step_partial and C83_bounded, with a loss that is not 0. -/
example : ∃ (env : Env Grid) (lines : List (List Char)) (s0 s1 s2 : State Grid) (fuel : Nat), bmiInitialize env lines = .ok s0 ∧
    Run s0 [] s0 ∧ Inputs s0 s1 ∧ s0.p.invalidSoil = false ∧ update fuel true s1 = .ok s2 ∧ 0 ≤ s2.p.pondMax ∧
    s2.p.timesteps = s0.p.timesteps + 1 ∧ s2.conv.massBalance ≠ 0 := by
  obtain ⟨s0, hist, s, h1, h2, ⟨l1, l2, l3⟩, rfl⟩ := Sample.play_run Sample.shown_check
  have hm := Sample.last1 (x := s0) l1
  generalize hist.getLast?.getD s0 = s at *
  cases h2 with
  | nil => simp at l1
  | @step hist s s1 s2 fuel hr hi hu =>
    have : hist = [] := by simpa using l1
    have e : s = s0 := by
      generalize hg : hist = g at hr
      cases hr with
      | nil => rfl
      | step _ _ _ => rw [this] at hg; simp at hg
    subst e
    exact ⟨_, _, s, s1, _, _, h1, .nil, hi, l2, hu, l3 _ hm⟩

end LGAR
