import Verif.Spec.Pond
import Verif.Props.Update
import Verif.Props.Infil
/-
C04 for sub-timesteps, Updates and runs.
-/
set_option linter.unusedSectionVars false
namespace LGAR

section Exact
variable {K : Type} [Field K] [LinearOrder K] [IsStrictOrderedRing K] [CMath K] [LawfulNum K]

/-- C04 for one sub-timestep: the water left on the surface is within [0, maximum], or the exact coincidence has happened, and
then it is the maximum plus the infiltration capacity and neither infiltration nor runoff was booked. -/
theorem C04_step (c : StepCfg K) (s s' : SubSt K) (hdt : 0 ≤ c.dt) (hmax : 0 ≤ c.pondMax) (hv : 0 ≤ s.volon)
    (h : subStep c s = .ok s') :
    0 ≤ s'.volon ∧ (s'.volon ≤ c.pondMax ∨
      ¬ StepNoPondTie c s ∧ s'.volon = CMath.fmax s.precipMm 0 * 0.1 * c.dt + s.volon ∧ s'.volinT = s.volinT ∧
        s'.runoffT = s.runoffT) := by
  obtain ⟨b1, _, _, _, _, _, b2, _, _, b3⟩ := subStep_balance hdt hmax hv h
  refine ⟨b1, ?_⟩
  by_cases hle : s'.volon ≤ c.pondMax
  · exact .inl hle
  right
  obtain ⟨e1, e2⟩ := b3.resolve_left hle
  obtain ⟨aet, vs, h0, hs, f, l, ve, h1, ha, hvs, _, _, hf, _, hve, hmb, _, _, rfl⟩ := subStep_inv h
  simp only at e1 e2 hle b2
  have hvol : f.volon = CMath.fmax s.precipMm 0 * 0.1 * c.dt + s.volon := by
    rw [e1, e2] at b2; linarith
  refine ⟨?_, hvol, e1, e2⟩
  unfold subFlow at hf
  split at hf
  · obtain ⟨_, _, _, _, _, _, _, _, _, _, _, _, _, _, ho⟩ := flowCreate_inv hf
    rcases ho with ⟨h1, _, h3, _⟩ | ⟨_, _, h3, _⟩
    · exact absurd (h3 ▸ h1.le) hle
    · exact absurd h3.le hle
  · obtain ⟨hsf, _⟩ := flowMove_inv hf
    unfold surfaceFlow at hsf
    split at hsf
    · simp only [bind_ok_iff, Prod.exists] at hsf
      obtain ⟨r, v, pd, hi, hsf⟩ := hsf
      split at hsf
      · simp at hsf
      · simp only [Except.ok.injEq, Prod.mk.injEq] at hsf
        obtain ⟨h1, h2, h3, _⟩ := hsf
        subst h1; subst h2; subst h3
        obtain ⟨fp, hfp, hi⟩ := insertWater_inv hi
        obtain ⟨_, ⟨_, q1, q2, _, q3⟩ | ⟨_, _, _, _, q3⟩ | ⟨q0, q1, _⟩ | ⟨_, _, _, q3⟩⟩ := partitionPond_inv hi
        · exfalso; apply hle
          rw [q3, q2]
          have p1 := (le_max_left (CMath.fmax s.precipMm 0 * 0.1 * c.dt + s.volon - fp * c.dt) 0).trans_lt q1
          have p2 := (le_max_right (CMath.fmax s.precipMm 0 * 0.1 * c.dt + s.volon - fp * c.dt) 0).trans_lt q1
          rcases min_choice (CMath.fmax s.precipMm 0 * 0.1 * c.dt + s.volon) (fp * c.dt) with e | e <;> rw [e] <;> linarith
        · exact absurd q3.le hle
        · rintro (ht | ht)
          · exact ht q0
          rw [ha] at ht
          simp only [Res.Holds] at ht
          rw [hfp] at ht
          refine ht ?_
          rcases max_choice (CMath.fmax s.precipMm 0 * 0.1 * c.dt + s.volon - fp * c.dt) 0 with e | e
          · rw [e] at q1; linarith
          · rw [e] at q1; exact absurd q1 q0.ne
        · exact absurd (q3 ▸ hmax) hle
    · split at hsf
      · rename_i hlt
        simp only [Except.ok.injEq, Prod.mk.injEq] at hsf
        exact absurd (hsf.2.2.1 ▸ hlt.le) hle
      · simp only [Except.ok.injEq, Prod.mk.injEq] at hsf
        exact absurd hsf.2.2.1.symm.le hle

/-- The subcycles of an Update. -/
theorem loop_pond {c : StepCfg K} (hdt : 0 ≤ c.dt) (hmax : 0 ≤ c.pondMax) : ∀ {n : Nat} {s s' : SubSt K}, 0 ≤ s.volon →
    s.volon ≤ c.pondMax → LoopNoPondTie c n s → subLoop c n s = .ok s' → 0 ≤ s'.volon ∧ s'.volon ≤ c.pondMax
  | 0, s, s', h0, h1, _, h => by simp [subLoop] at h; subst h; exact ⟨h0, h1⟩
  | n + 1, s, s', h0, h1, ht, h => by
    unfold subLoop at h
    simp only [bind_ok_iff] at h
    obtain ⟨t, hs, h⟩ := h
    obtain ⟨ht1, ht2⟩ := ht
    rw [hs] at ht2
    obtain ⟨p1, p2⟩ := C04_step c s t hdt hmax h0 hs
    have p2' : t.volon ≤ c.pondMax := p2.resolve_right fun h => h.1 ht1
    split at h
    · simp only [pure_eq_ok, Except.ok.injEq] at h; subst h; exact ⟨p1, p2'⟩
    · exact loop_pond hdt hmax p1 p2' ht2 h

/-- What is kept between Updates. -/
structure PondOk (s : State K) : Prop where
  bal : Bal s
  le : s.mb.volonT = 0 ∨ s.mb.volonT ≤ s.p.pondMax ∧ s.p.calibFlag = false

theorem PondOk.update {fuel : Nat} {sa : Bool} {s s' : State K} (hb : PondOk s) (hp : 0 ≤ s'.p.pondMax)
    (ht : UpdateNoPondTie fuel sa s) (h : update fuel sa s = .ok s') : PondOk s' ∧ s'.mb.volonT ≤ s'.p.pondMax := by
  obtain ⟨b1, _⟩ := hb.bal.update hp h
  rcases update_inv h with ⟨hi, _⟩ | ⟨_, s1, d, v, u, h1, hv, hu, h2⟩
  · rw [hb.bal.valid] at hi; simp at hi
  obtain ⟨giuh, queue, _, hh, _, _, _, _, _, _, _, _, hpp, hmb, _⟩ := updatePost_inv h2
  unfold UpdateNoPondTie at ht
  rw [h1] at ht
  simp only [Res.Holds] at ht
  rw [hv] at ht
  obtain ⟨hpr, _, fs, soils, l, fc, pm, q, _, rfl, _, hcal⟩ := updatePre_inv h1
  simp only at hv hu h2 hpp hmb ht
  have hdt : 0 < chooseTimestep s.p s.precipMm s.mb.volonT := hb.bal.times.choose _ _
  have hpm : s'.p.pondMax = pm := by rw [hpp]
  have hle : s.mb.volonT ≤ pm := by
    rcases hb.le with e | ⟨e, ec⟩
    · rw [e, ← hpm]; exact hp
    · rcases hcal with ⟨hc, _⟩ | ⟨_, _, hpe, _⟩
      · rw [hc] at ec; simp at ec
      · rw [hpe]; exact e
  have key := loop_pond (c := stepCfg fuel sa _) hdt.le (by rw [hpm] at hp; exact hp) hb.bal.pond hle ht hu
  have hle' : s'.mb.volonT ≤ s'.p.pondMax := by rw [hmb, hpm]; exact key.2
  exact ⟨⟨b1, .inr ⟨hle', by rw [hpp]⟩⟩, hle'⟩

theorem PondOk.inputs {s s' : State K} (hb : PondOk s) (h : Inputs s s') : PondOk s' := by
  have := hb.bal.inputs h
  obtain ⟨pr, pet, temp, cal, rfl⟩ := h
  exact ⟨this, hb.le⟩

theorem pondOk_init {env : Env K} {lines : List (List Char)} {s0 : State K} (h0 : bmiInitialize env lines = .ok s0) :
    PondOk s0 := by
  obtain ⟨c, _, hc, _⟩ := bmiInitialize_inv h0
  obtain ⟨_, _, _, hb, _⟩ := init_books h0
  refine ⟨hb (lgarInit_valid hc), .inl ?_⟩
  obtain ⟨ts, file, fl, soils, cnt, thick, psi, dt, endt, wp, fc, res, ords, inv, giuh, soilZ, q, depth, vs, cs, _, _, _, _, _,
    _, _, _, _, _, _, _, _, _, _, _, _, _, _, _, _, _, _, _, hs⟩ := lgarInit_inv hc
  rw [hs]

/-- C04 over runs: after every Update of a run in which the coincidence never happens the ponded water is within [0, maximum].
Missing: runs with the coincidence; C04_tie_fails shows that the bound fails there. -/
theorem C04_run_partial (env : Env K) (lines : List (List Char)) (s0 s : State K) (hist : List (State K))
    (h0 : bmiInitialize env lines = .ok s0) (hr : RunWith UpdateNoPondTie s0 hist s)
    (hmax : ∀ x ∈ hist, 0 ≤ x.p.pondMax) : ∀ x ∈ hist, 0 ≤ x.mb.volonT ∧ x.mb.volonT ≤ x.p.pondMax := by
  have key : PondOk s ∧ ∀ x ∈ hist, 0 ≤ x.mb.volonT ∧ x.mb.volonT ≤ x.p.pondMax := by
    induction hr with
    | nil => exact ⟨pondOk_init h0, by simp⟩
    | @step hist s s1 s2 fuel sa _ hi ht hu ih =>
      obtain ⟨i1, i2⟩ := ih fun x hx => hmax x (List.mem_append_left _ hx)
      obtain ⟨j1, j2⟩ := (i1.inputs hi).update (hmax s2 (by simp)) ht hu
      refine ⟨j1, fun x hx => ?_⟩
      rcases List.mem_append.mp hx with hx | hx
      · exact i2 x hx
      · simp only [List.mem_singleton] at hx; subst hx; exact ⟨j1.bal.pond, j2⟩
  exact key.2

theorem run_pondValid {s0 s : State K} {hist : List (State K)} (h : Run s0 hist s) : s.p.invalidSoil = s0.p.invalidSoil := by
  induction h with
  | nil => rfl
  | step _ hi hu ih =>
    obtain ⟨_, _, _, _, _, _, _, _, _, ip⟩ := hi.frame
    rw [(update_fixed hu).2.2.2.1, ip]; exact ih

theorem loop_noPondTie {c : StepCfg K} (h : c.pondMax ≤ 0) : ∀ {n : Nat} {s : SubSt K}, LoopNoPondTie c n s
  | 0, _ => trivial
  | n + 1, s => by
    refine ⟨.inl (not_lt.mpr h), ?_⟩
    cases hs : subStep c s with
    | error e => trivial
    | ok s' => exact loop_noPondTie h

/-- C04 without any condition when no water may stay on the surface (the default): after every Update of every run the ponded
water is exactly 0. -/
theorem C04_run_zero (env : Env K) (lines : List (List Char)) (s0 s : State K) (hist : List (State K))
    (h0 : bmiInitialize env lines = .ok s0) (hr : Run s0 hist s) (hz : ∀ x ∈ hist, x.p.pondMax = 0) :
    ∀ x ∈ hist, x.mb.volonT = 0 := by
  have hw : RunWith UpdateNoPondTie s0 hist s := by
    induction hr with
    | nil => exact .nil
    | @step hist s s1 s2 fuel sa hr hi hu ih =>
      refine .step (ih fun x hx => hz x (List.mem_append_left _ hx)) hi ?_ hu
      have hz2 := hz s2 (by simp)
      unfold UpdateNoPondTie
      cases h1 : updatePre s1 with
      | error e => trivial
      | ok r =>
        obtain ⟨t, d⟩ := r
        simp only [Res.Holds]
        cases hv : massBal t.p.cum t.head with
        | error e => trivial
        | ok v =>
          refine loop_noPondTie ?_
          rcases update_inv hu with ⟨hi', _⟩ | ⟨_, s1', d', v', u, h1', _, _, h2⟩
          · obtain ⟨c, _, hc, _⟩ := bmiInitialize_inv h0
            obtain ⟨_, _, _, _, _, _, _, _, _, ip⟩ := hi.frame
            rw [ip] at hi'
            simp only at hi'
            rw [run_pondValid hr, lgarInit_valid hc] at hi'
            simp at hi'
          · rw [h1] at h1'
            simp only [Except.ok.injEq, Prod.mk.injEq] at h1'
            obtain ⟨rfl, rfl⟩ := h1'
            obtain ⟨giuh, queue, _, hh, _, _, _, _, _, _, _, _, hpp, hmb, _⟩ := updatePost_inv h2
            rw [hpp] at hz2
            exact le_of_eq hz2
  intro x hx
  obtain ⟨a, b⟩ := C04_run_partial env lines s0 s hist h0 hw (fun x hx => (hz x hx).ge) x hx
  rw [hz x hx] at b
  exact le_antisymm b a

end Exact

/- Cases meeting the hypotheses. -/

instance (c : StepCfg Grid) (s : SubSt Grid) : Decidable (StepNoPondTie c s) := by unfold StepNoPondTie; infer_instance
instance decLoopNoPondTie (c : StepCfg Grid) : (n : Nat) → (s : SubSt Grid) → Decidable (LoopNoPondTie c n s)
  | 0, _ => isTrue trivial
  | n + 1, s =>
    have := decLoopNoPondTie c n
    inferInstanceAs (Decidable (StepNoPondTie c s ∧ Res.Holds (subStep c s) fun s' => LoopNoPondTie c n s'))
instance (fuel : Nat) (sa : Bool) (s : State Grid) : Decidable (UpdateNoPondTie fuel sa s) := by
  unfold UpdateNoPondTie; infer_instance

/-- Rain of 120 mm/h: the surface is full at the end. -/
def PondTest (s0 : State Grid) : Prop :=
  UpdateNoPondTie 1000 true (Sample.feed (120, 0) s0) ∧
    Sample.okAnd (update 1000 true (Sample.feed (120, 0) s0))
      (fun s => decide (s.mb.volonT = 2 ∧ s.p.pondMax = 2 ∧ 0 < s.mb.volrunoffT ∧ 0 < s.mb.volinT)) = true

instance : DecidablePred PondTest := fun a => by unfold PondTest; infer_instance

theorem pond_check : Sample.okAnd (bmiInitialize Sample.env Sample.cfg) (fun a => decide (PondTest a)) = true := by
  decide +kernel

attribute [local irreducible] Sample.env Sample.cfg bmiInitialize update in
/-- C04_run_partial: heavy rain on the two-layer column, 2 cm stay, the rest runs off. -/
example : ∃ (env : Env Grid) (lines : List (List Char)) (s0 s : State Grid) (hist : List (State Grid)),
    bmiInitialize env lines = .ok s0 ∧ RunWith UpdateNoPondTie s0 hist s ∧ (∀ x ∈ hist, 0 ≤ x.p.pondMax) ∧ s ∈ hist ∧
      s.mb.volonT = 2 ∧ 0 < s.mb.volrunoffT := by
  obtain ⟨s0, h0, h1, h2⟩ := Sample.okAnd_exists pond_check
  obtain ⟨s, hs, k1, k2, k3, _⟩ := Sample.okAnd_exists h2
  refine ⟨_, _, s0, s, _, h0, RunWith.step .nil ⟨_, _, _, _, rfl⟩ h1 hs, ?_, by simp, k1, k3⟩
  intro x hx
  simp only [List.nil_append, List.mem_singleton] at hx
  subst hx; rw [k2]; decide +kernel

/-- No water may stay. -/
def cfgNoPond : List (List Char) := Sample.cfg.filter fun l => l.head? != some 'p'

/-- Test for the example without ponding. -/
def NoPondTest (a : State Grid × List (State Grid)) : Prop :=
  a.2.length = 1 ∧ ∀ x ∈ a.2, x.p.pondMax = 0 ∧ 0 < x.mb.volrunoffT

instance : DecidablePred NoPondTest := fun a => by unfold NoPondTest; infer_instance

theorem noPond_check : Sample.okAnd (Sample.play cfgNoPond 1000 true [(120, 0)]) (fun a => decide (NoPondTest a)) = true := by
  decide +kernel

attribute [local irreducible] Sample.env cfgNoPond Sample.play bmiInitialize in
/-- C04_run_zero: the same rain with the default maximum 0; there is runoff. -/
example : ∃ (env : Env Grid) (lines : List (List Char)) (s0 s : State Grid) (hist : List (State Grid)),
    bmiInitialize env lines = .ok s0 ∧ Run s0 hist s ∧ (∀ x ∈ hist, x.p.pondMax = 0) ∧ s ∈ hist ∧ 0 < s.mb.volrunoffT := by
  obtain ⟨s0, hist, s, h1, h2, ⟨t1, t2⟩, rfl⟩ := Sample.play_run noPond_check
  exact ⟨_, _, s0, _, hist, h1, h2.run, fun x hx => (t2 x hx).1, Sample.last1 t1, (t2 _ (Sample.last1 t1)).2⟩

end LGAR
