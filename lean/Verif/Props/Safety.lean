import Verif.Lemmas.Undrained
import Verif.Props.Bounds
import Verif.Props.Routing
/-
Memory safety of whole Updates in runs from Initialize (C16, C17).
-/
set_option linter.unusedSectionVars false
namespace LGAR

section Exact
variable {K : Type} [Field K] [LinearOrder K] [IsStrictOrderedRing K] [CMath K] [LawfulNum K]

theorem run_valid {env : Env K} {lines : List (List Char)} {s0 s : State K} {hist : List (State K)}
    (h0 : bmiInitialize env lines = .ok s0) (hr : Run s0 hist s) : s.geo.Valid := by
  induction hr with
  | nil => exact valid_init h0
  | step _ hi hu ih =>
    refine valid_update ?_ hu
    obtain ⟨_, _, _, _, rfl⟩ := hi
    exact ih

theorem run_queue {env : Env K} {lines : List (List Char)} {s0 s : State K} {hist : List (State K)}
    (h0 : bmiInitialize env lines = .ok s0) (ho : s0.giuhOrd ≠ []) (hr : Run s0 hist s) : QueueFits s := by
  obtain ⟨_, e1, e2, hq, _⟩ := run_routing h0 hr
  exact ⟨by rw [e1, e2], by rw [e1]; exact ho, by rw [e1]; exact hq.len⟩

/-- The next Update of a run. -/
theorem run_next {u : Bool} {env : Env K} {lines : List (List Char)} {s0 s s1 : State K} {hist : List (State K)} {fuel : Nat} {sa : Bool}
    (h0 : bmiInitialize env lines = .ok s0) (hinc : s0.p.cum.Pairwise (· < ·)) (ho : s0.giuhOrd ≠ []) (hr : Run s0 hist s)
    (hg : Good s.geo s.head) (hi : Inputs s s1) (hf : InputsFit s1) (ht : s0.p.numLayers = 1 ∨ UpdateTieFree fuel sa s1)
    (hd : u = true → UpdateUndrained fuel sa s1) : Spec ⟨false, u⟩ (update fuel sa s1) fun _ => True := by
  have hv := run_valid h0 hr
  have hq := run_queue h0 ho hr
  obtain ⟨_, r2, r3, r4⟩ := run_sound h0 hr
  have e1 : s1.geo = s.geo ∧ s1.head = s.head ∧ s1.p.cum = s.p.cum ∧ s1.p.numWf = s.p.numWf ∧ s1.p.numLayers = s.p.numLayers := by
    obtain ⟨_, _, _, _, rfl⟩ := hi; exact ⟨rfl, rfl, rfl, rfl, rfl⟩
  have q1 : QueueFits s1 := by obtain ⟨_, _, _, _, rfl⟩ := hi; exact ⟨hq.num, hq.pos, hq.len⟩
  obtain ⟨a, b, c, d, e⟩ := e1
  exact spec_update (by rw [a]; exact hv) (by rw [c, r4]; exact hinc) (by rw [a, b]; exact hg) (by rw [d, b]; exact r2) q1 hf
    (ht.imp_left fun h => by rw [e, r3]; exact h) hd

/-- C16 over whole runs.  After Initialize with layers of positive thickness and at least one routing ordinate, and any number
of Updates with any inputs, the next Update does not dereference NULL, index outside an array, read an uninitialised value or
overflow, provided the arrays the caller supplies are long enough.  Condition: the Updates are tie free (see C15_run_partial).
Without it the statement is false: C16_run_fails.  Use after free is the subject of C17. -/
theorem C16_run_partial (env : Env K) (lines : List (List Char)) (s0 s s1 : State K) (hist : List (State K)) (fuel : Nat) (sa : Bool)
    (h0 : bmiInitialize env lines = .ok s0) (hinc : s0.p.cum.Pairwise (· < ·)) (ho : s0.giuhOrd ≠ [])
    (hr : TieFreeRun s0 hist s) (hi : Inputs s s1) (hf : InputsFit s1) (ht : UpdateTieFree fuel sa s1) :
    ∀ why, update fuel sa s1 ≠ .error (.ub why) :=
  (run_next (u := false) h0 hinc ho hr.run (run_good h0 hinc hr).1 hi hf (.inr ht) (by simp)).no_ub

/-- C16 for single-layer columns, all runs. -/
theorem C16_run_single_layer (env : Env K) (lines : List (List Char)) (s0 s s1 : State K) (hist : List (State K)) (fuel : Nat)
    (sa : Bool) (h0 : bmiInitialize env lines = .ok s0) (hinc : s0.p.cum.Pairwise (· < ·)) (hN : s0.p.numLayers = 1)
    (ho : s0.giuhOrd ≠ []) (hr : Run s0 hist s) (hi : Inputs s s1) (hf : InputsFit s1) :
    ∀ why, update fuel sa s1 ≠ .error (.ub why) :=
  (run_next (u := false) h0 hinc ho hr (run_good_single h0 hinc hN hr).1 hi hf (.inl hN) (by simp)).no_ub

section Physical
variable [LawfulPow K]

/-- C17 with the condition that keeps the fronts: physically meaningful soils, and in every subcycle every front of layer 1
above another front of layer 1 stays below the surface and the ET demand does not exceed the water it holds beyond the moisture
of the front below.  Then the next Update of a run uses no freed front.  Missing for the full statement: Updates in which the
demand is larger (the freed front is used then: C17_fails), ties, and the Update that calibrates. -/
theorem C17_run_partial (env : Env K) (lines : List (List Char)) (s0 s s1 : State K) (hist : List (State K)) (fuel : Nat) (sa : Bool)
    (h0 : bmiInitialize env lines = .ok s0) (hg : PhysGeo s0.geo) (hpsi : 0 ≤ s0.p.initialPsi)
    (hinc : s0.p.cum.Pairwise (· < ·)) (ho : s0.giuhOrd ≠ []) (hcal : s0.p.calibFlag = false)
    (hr : TieFreeRun s0 hist s) (hi : Inputs s s1) (hf : InputsFit s1) (ht : UpdateTieFree fuel sa s1)
    (hd : UpdateHolds fuel sa s1) : ∀ why, update fuel sa s1 ≠ .error (.uaf why) := by
  obtain ⟨c, _, hi0, _⟩ := bmiInitialize_inv h0
  have hcal' : ∀ {P : Prop}, s0.p.calibFlag = true → P := fun h => by rw [hcal] at h; simp at h
  have hF := run_fine h0 hg hpsi hinc hcal' hr
  obtain ⟨hP, _, _, _, _, p6⟩ := run_phys hr.run hg hcal' (lgarInit_valid hi0)
  obtain ⟨_, _, _, r4⟩ := run_sound h0 hr.run
  refine (run_next (u := true) h0 hinc ho hr.run hF.good hi hf (.inr ht) fun _ => ?_).no_uaf rfl
  have hc : s.p.calibFlag = false := by
    cases e : s.p.calibFlag with
    | false => rfl
    | true => have := p6 e; rw [hcal] at this; simp at this
  have hcum : s.p.cum.Pairwise (· < ·) := by rw [r4]; exact hinc
  have : s1.geo = s.geo ∧ s1.head = s.head ∧ s1.p.calibFlag = s.p.calibFlag ∧ s1.p.cum = s.p.cum := by
    obtain ⟨_, _, _, _, rfl⟩ := hi; exact ⟨rfl, rfl, rfl, rfl⟩
  obtain ⟨a, b, c, d⟩ := this
  exact update_undrained (by rw [a]; exact hP) (by rw [d]; exact hcum) (by rw [a, b]; exact hF) (by rw [c]; exact hc) (.inr ht) hd

end Physical
end Exact

/- Cases meeting the hypotheses. -/

/-- Checkable form of `TopHolds`. -/
def topTest (g : Geo Grid) (dt precip aet : Grid) (nFd : Nat) : Nat → List (Front Grid) → Bool
  | i, c :: n :: t =>
    (decide (c.layer = 1 → n.layer = 1 → ∀ column ∈ g.cum[g.numLayers]?, 0 < CMath.fmin (c.depth + c.dzdt * dt) column ∧
      0 ≤ c.depth * (c.theta - n.theta) + (if nFd = i + 1 then precip - CMath.fmax aet 0 else 0))) &&
    topTest g dt precip aet nFd (i + 1) (n :: t)
  | _, _ => true

theorem topTest_go {g : Geo Grid} {dt precip aet : Grid} {nFd : Nat} : ∀ {l : List (Front Grid)} {k : Nat},
    topTest g dt precip aet nFd k l = true ↔
    ∀ i c n column, l[i]? = some c → l[i + 1]? = some n → c.layer = 1 → n.layer = 1 → g.cum[g.numLayers]? = some column →
      0 < CMath.fmin (c.depth + c.dzdt * dt) column ∧
        0 ≤ c.depth * (c.theta - n.theta) + (if nFd = k + i + 1 then precip - CMath.fmax aet 0 else 0)
  | [], k => by simp [topTest]
  | [f], k => by simp [topTest]
  | f :: m :: t, k => by
    rw [topTest, Bool.and_eq_true, decide_eq_true_iff, topTest_go]
    constructor
    · rintro ⟨h1, h2⟩ i c n column hc hn l1 l2 hcol
      cases i with
      | zero =>
        simp only [List.getElem?_cons_zero, List.getElem?_cons_succ, Option.some.injEq] at hc hn
        subst hc hn
        exact h1 l1 l2 column hcol
      | succ i =>
        simp only [List.getElem?_cons_succ] at hc hn
        have := h2 i c n column hc hn l1 l2 hcol
        rwa [show k + 1 + i + 1 = k + (i + 1) + 1 by omega] at this
    · intro h
      refine ⟨fun l1 l2 column hcol => h 0 f m column rfl rfl l1 l2 hcol, fun i c n column hc hn l1 l2 hcol => ?_⟩
      have := h (i + 1) c n column hc hn l1 l2 hcol
      rwa [show k + (i + 1) + 1 = k + 1 + i + 1 by omega] at this

instance (g : Geo Grid) (dt precip aet : Grid) (nFd : Nat) (l : List (Front Grid)) : Decidable (TopHolds g dt precip aet nFd l) :=
  decidable_of_iff (topTest g dt precip aet nFd 0 l = true) (by rw [topTest_go]; simp only [Nat.zero_add]; rfl)
instance (c : StepCfg Grid) (s : SubSt Grid) (b : Bool) (n : Nat) (x y z : Grid) : Decidable (FlowHolds c s b n x y z) := by
  unfold FlowHolds; infer_instance
instance (c : StepCfg Grid) (s : SubSt Grid) : Decidable (StepHolds c s) := by unfold StepHolds; infer_instance
instance decLoopHolds (c : StepCfg Grid) : (n : Nat) → (s : SubSt Grid) → Decidable (LoopHolds c n s)
  | 0, _ => isTrue trivial
  | n + 1, s =>
    have := decLoopHolds c n
    inferInstanceAs (Decidable (StepHolds c s ∧ Res.Holds (subStep c s) fun s' => LoopHolds c n s'))
instance (fuel : Nat) (sa : Bool) (s : State Grid) : Decidable (UpdateHolds fuel sa s) := by unfold UpdateHolds; infer_instance

/-- Test for the examples: after a tie-free Update with rain there are two fronts in layer 1, and a second Update with ET is tie
free, keeps its fronts and returns. -/
def SafeTest (s0 : State Grid) : Prop :=
  FineTest s0 ∧ s0.p.cum.Pairwise (· < ·) ∧ s0.p.numLayers = 2 ∧ s0.giuhOrd ≠ [] ∧
    UpdateTieFree 1000 true (Sample.feed (5, 0) s0) ∧
    Sample.okAnd (update 1000 true (Sample.feed (5, 0) s0)) (fun s => s.head.length = 3 ∧ s.p.sftCoupled = false ∧
      s.p.calibFlag = false ∧ UpdateTieFree 1000 true (Sample.feed (0, 1) s) ∧
      UpdateHolds 1000 true (Sample.feed (0, 1) s)) = true

instance : DecidablePred SafeTest := fun a => by unfold SafeTest; infer_instance

theorem safe_check : Sample.okAnd (bmiInitialize Sample.env Sample.cfg) (fun a => decide (SafeTest a)) = true := by
  decide +kernel

attribute [local irreducible] Sample.env Sample.cfg bmiInitialize update in
/-- C16_run_partial and C17_run_partial: second Update of a two-layer column with three fronts. -/
example : ∃ (env : Env Grid) (lines : List (List Char)) (s0 s s1 : State Grid) (hist : List (State Grid)),
    bmiInitialize env lines = .ok s0 ∧ PhysGeo s0.geo ∧ 0 ≤ s0.p.initialPsi ∧ s0.p.cum.Pairwise (· < ·) ∧ s0.giuhOrd ≠ [] ∧
      s0.p.calibFlag = false ∧ TieFreeRun s0 hist s ∧ Inputs s s1 ∧ InputsFit s1 ∧ UpdateTieFree 1000 true s1 ∧
      UpdateHolds 1000 true s1 ∧ hist.length = 1 ∧ s1.head.length = 3 ∧ s1.petMm = 1 := by
  obtain ⟨s0, h0, ⟨k1, k2, k3⟩, h1, h2, h3, h4, h5⟩ := Sample.okAnd_exists safe_check
  obtain ⟨s, hs, hl, hc, hk, ht, hd⟩ := Sample.okAnd_exists h5
  exact ⟨_, _, s0, s, Sample.feed (0, 1) s, _, h0, k1.phys, k2, h1, h3, k3, TieFreeRun.step .nil ⟨_, _, _, _, rfl⟩ h4 hs,
    ⟨_, _, _, _, rfl⟩, ⟨fun h => absurd (hc.symm.trans h) (by simp), fun h => absurd (hk.symm.trans h) (by simp)⟩, ht, hd, rfl,
    hl, rfl⟩

/-- Test for the example with one layer. -/
def OneSafe (a : State Grid × List (State Grid)) : Prop :=
  OneTest a ∧ a.1.giuhOrd ≠ [] ∧ ∀ x ∈ a.2, x.p.sftCoupled = false ∧ x.p.calibFlag = false

instance : DecidablePred OneSafe := fun a => by unfold OneSafe; infer_instance

theorem one_safe : Sample.okAnd (Sample.play cfg1 1000 true [(5, 0)]) (fun a => decide (OneSafe a)) = true := by decide +kernel

attribute [local irreducible] Sample.env cfg1 Sample.play bmiInitialize in
/-- C16_run_single_layer. -/
example : ∃ (env : Env Grid) (lines : List (List Char)) (s0 s s1 : State Grid) (hist : List (State Grid)),
    bmiInitialize env lines = .ok s0 ∧ s0.p.cum.Pairwise (· < ·) ∧ s0.p.numLayers = 1 ∧ s0.giuhOrd ≠ [] ∧ Run s0 hist s ∧
      Inputs s s1 ∧ InputsFit s1 ∧ s1.head.length = 2 ∧ s1.precipMm = 3 := by
  obtain ⟨s0, hist, s, h1, h2, ⟨⟨t1, t2, t3, t4⟩, ho, hx⟩, rfl⟩ := Sample.play_run one_safe
  have hm := Sample.last1 (x := s0) t3
  obtain ⟨hc, hk⟩ := hx _ hm
  have hl := t4 _ hm
  exact ⟨_, _, s0, _, Sample.feed (3, 0) _, hist, h1, t1, t2, ho, h2.run, ⟨_, _, _, _, rfl⟩,
    ⟨fun h => absurd (hc.symm.trans h) (by simp), fun h => absurd (hk.symm.trans h) (by simp)⟩, hl, rfl⟩

/-- The result is a use after free. -/
def isUaf {β : Type} (x : Res β) : Bool :=
  match x with
  | .error (.uaf _) => true
  | _ => false

theorem isUaf_exists {β : Type} {x : Res β} (h : isUaf x = true) : ∃ why, x = .error (.uaf why) := by
  unfold isUaf at h
  split at h
  · exact ⟨_, rfl⟩
  · simp at h

/-- Two layers with a dry start and one-hour sub-timesteps. -/
def cfgDry : List (List Char) :=
  ["layer_thickness=10,20[cm]".toList, "layer_soil_type=1,2".toList, "soil_params_file=x".toList,
   "max_valid_soil_types=2".toList, "initial_psi=500[cm]".toList, "timestep=60[min]".toList, "endtime=5[hr]".toList,
   "forcing_resolution=60[min]".toList, "ponded_depth_max=1.1[cm]".toList, "use_closed_form_G=true".toList,
   "wilting_point_psi=15495.0[cm]".toList, "field_capacity_psi=340.9[cm]".toList, "giuh_ordinates=0.7,0.3".toList]

/-- Test for C17_fails: an Update with little rain, then one with high PET uses freed memory. -/
def DryTest (a : State Grid × List (State Grid)) : Prop :=
  PhysTest a.1.geo ∧ a.1.p.cum.Pairwise (· < ·) ∧ a.2.length = 1 ∧
    ∀ x ∈ a.2, x.p.sftCoupled = false ∧ x.p.calibFlag = false ∧ isUaf (update 3000 true (Sample.feed (0, 10) x)) = true

instance : DecidablePred DryTest := fun a => by unfold DryTest; infer_instance

theorem dry_check : Sample.okAnd (Sample.play cfgDry 3000 true [(1/2, 0)]) (fun a => decide (DryTest a)) = true := by
  decide +kernel

attribute [local irreducible] Sample.env cfgDry Sample.play bmiInitialize update in
/-- C17 is false: with physically meaningful soils and layers of positive thickness there is a run of one Update after which an
Update with high PET and no rain drains the front at the surface below the residual moisture, deletes it and then reads it. -/
theorem C17_fails : ∃ (env : Env Grid) (lines : List (List Char)) (s0 s s1 : State Grid) (hist : List (State Grid)) (why : String),
    bmiInitialize env lines = .ok s0 ∧ PhysGeo s0.geo ∧ s0.p.cum.Pairwise (· < ·) ∧ Run s0 hist s ∧ hist.length = 1 ∧
      Inputs s s1 ∧ InputsFit s1 ∧ update 3000 true s1 = .error (.uaf why) := by
  obtain ⟨s0, hist, s, h1, h2, ⟨t1, t2, t3, t4⟩, rfl⟩ := Sample.play_run dry_check
  obtain ⟨hc, hk, hu⟩ := t4 _ (Sample.last1 (x := s0) t3)
  obtain ⟨why, hw⟩ := isUaf_exists hu
  exact ⟨_, _, s0, _, Sample.feed (0, 10) _, hist, why, h1, t1.phys, t2, h2.run, t3, ⟨_, _, _, _, rfl⟩,
    ⟨fun h => absurd (hc.symm.trans h) (by simp), fun h => absurd (hk.symm.trans h) (by simp)⟩, hw⟩

end LGAR
