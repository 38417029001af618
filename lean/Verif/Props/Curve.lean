import Verif.Lemmas.Curve
import Verif.Props.Single
/-
C68: the head and the conductivity stored in a front belong to its moisture.
-/
set_option linter.unusedSectionVars false
namespace LGAR

section Exact
variable {K : Type} [Field K] [LinearOrder K] [IsStrictOrderedRing K] [CMath K] [LawfulNum K]

/-- C68 for every movement of the fronts, whatever the state before it: afterwards every front but the deepest whose head
exceeds 1 cm has the head and the conductivity that belong to its moisture, its soil and the frost factor of its layer.
Missing for the full statement: the deepest front, fronts with a head of at most 1 cm (C68_bottom_fails,
C68_saturated_fails). -/
theorem C68_move_partial (fuel : Nat) (g : Geo K) (dt precip oldMass aet aet' flux : K) (nFd : Nat) (prev l l' : List (Front K))
    (h : moveFronts fuel g dt precip nFd oldMass aet prev l = .ok (l', aet', flux)) :
    ∀ f ∈ l'.dropLast, 1 < f.psi → OnCurve g f := moveFronts_curved h

/-- The new surface front has the head that belongs to its moisture, but its conductivity is multiplied by the frost factor
twice (lgar.cxx 2152-2155). -/
theorem C68_new_front (g : Geo K) (ponded dry theta1 pd volin : K) (l l' : List (Front K))
    (h : createFront g ponded dry theta1 l = .ok (pd, volin, l')) :
    ∃ f so ff, l'.head? = some f ∧ f.layer = 1 ∧ g.soil 1 = .ok so ∧ g.frozen[1]? = some ff ∧ f.psi = headOf so f.theta ∧
      f.K = ff ^ 2 * so.Ksat * relCond so f.theta ∧
      (OnCurve g f ↔ ff = 0 ∨ ff = 1 ∨ so.Ksat * relCond so f.theta = 0) := by
  obtain ⟨f, so, ff, e, e1, _, _, _, hs, hff, hp, hk⟩ := createFront_curve h
  simp only at e
  refine ⟨f, so, ff, by rw [e]; rfl, e1, hs, hff, hp, by rw [hk]; ring, ?_⟩
  unfold OnCurve
  rw [e1]
  constructor
  · rintro ⟨so', ff', h1, h2, _, h4⟩
    rw [hs] at h1; rw [hff] at h2
    obtain rfl : so = so' := by simpa using h1
    obtain rfl : ff = ff' := by simpa using h2
    rw [hk] at h4
    have : ff * ((ff - 1) * (so.Ksat * relCond so f.theta)) = 0 := by linear_combination h4
    rcases mul_eq_zero.mp this with h | h
    · exact .inl h
    · rcases mul_eq_zero.mp h with h | h
      · exact .inr (.inl (by linear_combination h))
      · exact .inr (.inr h)
  · rintro (rfl | rfl | h0)
    · exact ⟨so, 0, hs, hff, hp, by rw [hk]; ring⟩
    · exact ⟨so, 1, hs, hff, hp, by rw [hk]; ring⟩
    · exact ⟨so, ff, hs, hff, hp, by rw [hk, mul_assoc ff, h0]; ring⟩

/-- C68 for every Update, whatever the state before it, that does at least two sub-timesteps, or does one and either has no
rain or comes after rain.  (These are the Updates whose last sub-timestep creates no front.)  Afterwards every front but the
deepest whose head exceeds 1 cm has the head and the conductivity that belong to its moisture.  Missing for the full
statement: the deepest front, fronts with a head of at most 1 cm (C68_bottom_fails, C68_saturated_fails), Updates of one
sub-timestep that begin a shower (C68_single_layer_partial, C68_frozen_fails). -/
theorem C68_update_partial (fuel : Nat) (sa : Bool) (s s' : State K) (hv : s.p.invalidSoil = false)
    (h : update fuel sa s = .ok s')
    (ht : s.p.timesteps + 2 ≤ s'.p.timesteps ∨ s.p.timesteps < s'.p.timesteps ∧ (s.p.precipPrev ≠ 0 ∨ s.precipMm = 0)) :
    ∀ f ∈ s'.head.dropLast, 1 < f.psi → OnCurve s'.geo f := by
  rcases update_inv h with ⟨hi, _⟩ | ⟨_, s1, d, v, u, h1, _, hu, h2⟩
  · rw [hv] at hi; simp at hi
  obtain ⟨giuh, queue, _, hh, _, hso, _, _, _, _, _, _, hpp, _⟩ := updatePost_inv h2
  obtain ⟨_, _, fs, soils, l, fc, pm, q, _, rfl, _⟩ := updatePre_inv h1
  have hg : s'.geo = (stepCfg fuel sa
      { s with head := l, soils := soils, p := { s.p with
        frozen := fs, calibFlag := false, fcPsi := fc, pondMax := pm,
        timestepH := chooseTimestep s.p s.precipMm s.mb.volonT, forcingInterval := CMath.toInt (q + 1.0e-8) } }).geo := by
    simp only [State.geo, stepCfg, hpp, hso]
  rw [hg, hh]
  refine subLoop_curved hu ?_
  rw [hpp] at ht
  refine ht.imp_right fun ⟨h3, h4⟩ => ⟨h3, ?_⟩
  unfold NoFront
  refine h4.imp_right fun h5 => ?_
  simp [subInit, h5, fmax_eq]

/-- C68 for columns of one unfrozen layer: after every Update of every run that does a sub-timestep, also one that creates a
front.  Missing for the full statement: as for C68_move_partial. -/
theorem C68_single_layer_partial (env : Env K) (lines : List (List Char)) (s0 s s1 s2 : State K) (hist : List (State K))
    (fuel : Nat) (sa : Bool) (h0 : bmiInitialize env lines = .ok s0) (hinc : s0.p.cum.Pairwise (· < ·))
    (hN : s0.p.numLayers = 1) (hr : Run s0 hist s) (hi : Inputs s s1) (hv : s1.p.invalidSoil = false)
    (h : update fuel sa s1 = .ok s2) (hf : s2.p.frozen[1]? = some 1) (ht : s1.p.timesteps < s2.p.timesteps) :
    ∀ f ∈ s2.head.dropLast, 1 < f.psi → OnCurve s2.geo f := by
  obtain ⟨hgood, hN1, hc1⟩ := run_good_single h0 hinc hN hr
  obtain ⟨i1, _, _, _, _, i6, _, _, _, ip⟩ := hi.frame
  rcases update_inv h with ⟨hi, _⟩ | ⟨_, s3, d, v, u, h1, _, hu, h2⟩
  · rw [hv] at hi; simp at hi
  obtain ⟨giuh, queue, _, hh, _, hso, _, _, _, _, _, _, hpp, _⟩ := updatePost_inv h2
  have hsk := updatePre_skel h1
  obtain ⟨_, _, fs, soils, l, fc, pm, q, _, rfl, _, hcal⟩ := updatePre_inv h1
  have hg : s2.geo = (stepCfg fuel sa
      { s1 with head := l, soils := soils, p := { s1.p with
        frozen := fs, calibFlag := false, fcPsi := fc, pondMax := pm,
        timestepH := chooseTimestep s1.p s1.precipMm s1.mb.volonT, forcingInterval := CMath.toInt (q + 1.0e-8) } }).geo := by
    simp only [State.geo, stepCfg, hpp, hso]
  rw [hg, hh]
  rw [hpp] at hf ht
  have hn : s1.p.numLayers = 1 := by rw [ip]; exact hN1.trans hN
  have hcum : s1.p.cum = s0.p.cum := by rw [ip]; exact hc1
  have hg0 : Good s1.geo s1.head := by rw [i1, i6]; exact hgood
  refine subLoop_curved_single hn hf (by simp only [stepCfg, State.geo]; rw [hcum]; exact hinc) ?_ hu ht
  have hl : Good s1.geo l := by
    refine ⟨hg0.sound.skel hsk, ?_⟩
    rcases hcal with ⟨_, _, _, hl, _⟩ | ⟨_, _, _, rfl, _⟩
    · have e := congrArg (List.map (fun x : K × K × K × Nat × Int × Bool × K => (x.1, x.2.2.2.1, x.2.2.2.2.2.1))) (calibLoop_frame hl).1
      rw [List.map_map, List.map_map] at e
      exact col_congr e.symm hg0.col
    · exact hg0.col
  exact hl.geo rfl rfl

end Exact

/- Runs in which stored values do not belong to the moisture. -/

open Stops

/-- Test for C68_saturated_fails. -/
def SatTest (s0 s : State Grid) : Prop :=
  PhysTest s0.geo ∧ s0.p.sftCoupled = false ∧ s0.p.numLayers = 1 ∧
    Sample.okAnd (s.geo.soil 1) (fun so => decide (∃ f ∈ s.head.head?, f.layer = 1 ∧ f.toBottom = false ∧ f.theta = so.thetaE ∧
      relCond so f.theta = 1 ∧ f.psi = headOf so f.theta ∧ 0 < f.K ∧ 5 * f.K < so.Ksat)) = true ∧
    s.geo.frozen[1]? = some 1

instance (s0 s : State Grid) : Decidable (SatTest s0 s) := by unfold SatTest; infer_instance

theorem sat_check : Sample.okAnd (bmiInitialize Sample.env (cfg "50" "1" "100")) (fun s0 =>
    Sample.okAnd (tfSteps 1000 true [(10, 0), (20, 0), (60, 0)] s0) fun s => decide (SatTest s0 s)) = true := by decide +kernel

attribute [local irreducible] cfg bmiInitialize update tfSteps Sample.env relCond headOf in
/-- C68 fails for fronts that have become saturated: in an unfrozen column of one layer three hours of rising rain saturate
the surface front; its conductivity then still is that of the moisture an hour before, less than a fifth of the saturated
conductivity that belongs to its moisture.  (lgar.cxx 1508 skips fronts with a head of at most 1 cm.) -/
theorem C68_saturated_fails : ∃ (env : Env Grid) (lines : List (List Char)) (s0 s : State Grid) (hist : List (State Grid))
    (f : Front Grid) (so : SoilProps Grid), bmiInitialize env lines = .ok s0 ∧ PhysGeo s0.geo ∧ s0.p.sftCoupled = false ∧
    s0.p.numLayers = 1 ∧ TieFreeRun s0 hist s ∧ hist.length = 3 ∧ s.head.head? = some f ∧ f.toBottom = false ∧
    s.geo.soil f.layer = .ok so ∧ f.theta = so.thetaE ∧ 5 * f.K < so.Ksat ∧ ¬ OnCurve s.geo f := by
  obtain ⟨s0, h0, h1⟩ := Sample.okAnd_get sat_check
  obtain ⟨s, hs, ht⟩ := Sample.okAnd_get h1
  obtain ⟨h2, h3, h4, h5, h6⟩ := of_decide_eq_true ht
  obtain ⟨so, hso, h7⟩ := Sample.okAnd_get h5
  obtain ⟨f, hf, e1, e2, e3, e4, e5, e6, e7⟩ := of_decide_eq_true h7
  obtain ⟨hist, hr, hl⟩ := tfSteps_run (.nil) hs
  refine ⟨_, _, s0, s, hist, f, so, h0, h2.phys, h3, h4, hr, by simpa using hl, hf, e2, by rw [e1]; exact hso, e3, e7, ?_⟩
  rintro ⟨so', ff, g1, g2, _, g4⟩
  rw [e1, hso] at g1
  obtain rfl : so = so' := by simpa using g1
  rw [e1, h6] at g2
  obtain rfl : 1 = ff := by simpa using g2
  rw [e4, one_mul, mul_one] at g4
  rw [g4] at e6 e7
  linarith

/-- Test for C68_bottom_fails. -/
def BottomTest (s0 s : State Grid) : Prop :=
  PhysTest s0.geo ∧ s0.p.sftCoupled = false ∧
    Sample.okAnd (s.geo.soil 1) (fun so => decide (∃ f ∈ s.head.getLast?, f.layer = 1 ∧ 1 < f.psi ∧ f.psi = headOf so f.theta ∧
      1.2 * (so.Ksat * relCond so f.theta) < f.K ∧ 0 < so.Ksat * relCond so f.theta)) = true ∧
    s.geo.frozen[1]? = some 1

instance (s0 s : State Grid) : Decidable (BottomTest s0 s) := by unfold BottomTest; infer_instance

theorem bottom_check : Sample.okAnd (bmiInitialize Sample.env (cfg "50" "1" "100")) (fun s0 =>
    Sample.okAnd (tfSteps 1000 true [(0, 2), (0, 2)] s0) fun s => decide (BottomTest s0 s)) = true := by decide +kernel

attribute [local irreducible] cfg bmiInitialize update tfSteps Sample.env relCond headOf in
/-- C68 fails for the deepest front: two hours of evapotranspiration dry an unfrozen column of one layer; the conductivity
of its only front stays that of the initial moisture.  (lgar.cxx 1505 stops before the last front.) -/
theorem C68_bottom_fails : ∃ (env : Env Grid) (lines : List (List Char)) (s0 s : State Grid) (hist : List (State Grid))
    (f : Front Grid) (so : SoilProps Grid), bmiInitialize env lines = .ok s0 ∧ PhysGeo s0.geo ∧ s0.p.sftCoupled = false ∧
    TieFreeRun s0 hist s ∧ hist.length = 2 ∧ s.head.getLast? = some f ∧ 1 < f.psi ∧ s.geo.soil f.layer = .ok so ∧
    f.psi = headOf so f.theta ∧ 1.2 * (so.Ksat * relCond so f.theta) < f.K ∧ ¬ OnCurve s.geo f := by
  obtain ⟨s0, h0, h1⟩ := Sample.okAnd_get bottom_check
  obtain ⟨s, hs, ht⟩ := Sample.okAnd_get h1
  obtain ⟨h2, h3, h5, h6⟩ := of_decide_eq_true ht
  obtain ⟨so, hso, h7⟩ := Sample.okAnd_get h5
  obtain ⟨f, hf, e1, e2, e3, e4, e5⟩ := of_decide_eq_true h7
  obtain ⟨hist, hr, hl⟩ := tfSteps_run (.nil) hs
  refine ⟨_, _, s0, s, hist, f, so, h0, h2.phys, h3, hr, by simpa using hl, hf, e2, by rw [e1]; exact hso, e3, e4, ?_⟩
  rintro ⟨so', ff, g1, g2, _, g4⟩
  rw [e1, hso] at g1
  obtain rfl : so = so' := by simpa using g1
  rw [e1, h6] at g2
  obtain rfl : 1 = ff := by simpa using g2
  rw [one_mul] at g4
  rw [g4] at e4
  linarith

/-- Configuration with soil temperatures at 10, 20 and 60 cm. -/
def frostCfg : List (List Char) := "sft_coupled=true".toList :: "soil_z=10,20,60[cm]".toList :: cfg "50" "1" "100"

/-- Rain on soil at -10 °C. -/
def frostFeed (s : State Grid) : State Grid :=
  { s with precipMm := 10, petMm := 0, p := { s.p with soilTemp := [263, 263, 263] } }

/-- Test for C68_frozen_fails. -/
def FrostTest (s0 s : State Grid) : Prop :=
  PhysTest s0.geo ∧ s0.p.sftCoupled = true ∧
    Sample.okAnd (s.geo.soil 1) (fun so => decide (∃ f ∈ s.head.head?, f.layer = 1 ∧ f.toBottom = false ∧
      20 * f.K = 0.05 * so.Ksat * relCond so f.theta ∧ 0 < f.K)) = true ∧
    s.geo.frozen[1]? = some (0.05 : Grid)

instance (s0 s : State Grid) : Decidable (FrostTest s0 s) := by unfold FrostTest; infer_instance

theorem frost_check : Sample.okAnd (bmiInitialize Sample.env frostCfg) (fun s0 =>
    Sample.okAnd (update 1000 true (frostFeed s0)) fun s => decide (FrostTest s0 s)) = true := by decide +kernel

attribute [local irreducible] frostCfg bmiInitialize update Sample.env relCond headOf in
/-- C68 fails in frozen soil: one hour of rain on soil at -10 °C creates a front whose conductivity is a twentieth of the
(already reduced) conductivity that belongs to its moisture, because the frost factor 0.05 is applied twice. -/
theorem C68_frozen_fails : ∃ (env : Env Grid) (lines : List (List Char)) (s0 s1 s : State Grid) (f : Front Grid)
    (so : SoilProps Grid), bmiInitialize env lines = .ok s0 ∧ PhysGeo s0.geo ∧ Inputs s0 s1 ∧ update 1000 true s1 = .ok s ∧
    s.head.head? = some f ∧ f.toBottom = false ∧ s.geo.soil f.layer = .ok so ∧ s.geo.frozen[f.layer]? = some (0.05 : Grid) ∧
    20 * f.K = 0.05 * so.Ksat * relCond so f.theta ∧ ¬ OnCurve s.geo f := by
  obtain ⟨s0, h0, h1⟩ := Sample.okAnd_get frost_check
  obtain ⟨s, hs, ht⟩ := Sample.okAnd_get h1
  obtain ⟨h2, h3, h5, h6⟩ := of_decide_eq_true ht
  obtain ⟨so, hso, h7⟩ := Sample.okAnd_get h5
  obtain ⟨f, hf, e1, e2, e4, e5⟩ := of_decide_eq_true h7
  refine ⟨_, _, s0, _, s, f, so, h0, h2.phys, ⟨_, _, _, _, rfl⟩, hs, hf, e2, by rw [e1]; exact hso, by rw [e1]; exact h6, e4, ?_⟩
  rintro ⟨so', ff, g1, g2, _, g4⟩
  rw [e1, hso] at g1
  obtain rfl : so = so' := by simpa using g1
  rw [e1, h6] at g2
  obtain rfl : 0.05 = ff := by simpa using g2
  rw [← g4] at e4
  linarith

/- Cases meeting the hypotheses of the positive theorems: an Update that moves a front of layer 1 with a head above 1 cm. -/

/-- Test for the example. -/
def CurveTest (s0 s : State Grid) : Prop :=
  s0.p.cum.Pairwise (· < ·) ∧ s0.p.numLayers = 1 ∧ s.p.invalidSoil = false ∧ s.p.precipPrev ≠ 0 ∧
    Sample.okAnd (update 1000 true (Sample.feed (20, 1) s)) (fun s2 => decide (s.p.timesteps < s2.p.timesteps ∧
      s2.p.frozen[1]? = some 1 ∧ ∃ f ∈ s2.head.dropLast, 1 < f.psi)) = true

instance (s0 s : State Grid) : Decidable (CurveTest s0 s) := by unfold CurveTest; infer_instance

theorem curve_check : Sample.okAnd (bmiInitialize Sample.env (cfg "50" "1" "100")) (fun s0 =>
    Sample.okAnd (tfSteps 1000 true [(10, 0)] s0) fun s => decide (CurveTest s0 s)) = true := by decide +kernel

attribute [local irreducible] cfg bmiInitialize update tfSteps Sample.env in
example : ∃ (env : Env Grid) (lines : List (List Char)) (s0 s s1 s2 : State Grid) (hist : List (State Grid)),
    bmiInitialize env lines = .ok s0 ∧ s0.p.cum.Pairwise (· < ·) ∧ s0.p.numLayers = 1 ∧ Run s0 hist s ∧ Inputs s s1 ∧
    s1.p.invalidSoil = false ∧ update 1000 true s1 = .ok s2 ∧ s2.p.frozen[1]? = some 1 ∧ s1.p.timesteps < s2.p.timesteps ∧
    s1.p.precipPrev ≠ 0 ∧ ∃ f ∈ s2.head.dropLast, 1 < f.psi := by
  obtain ⟨s0, h0, h1⟩ := Sample.okAnd_get curve_check
  obtain ⟨s, hs, ht⟩ := Sample.okAnd_get h1
  obtain ⟨h2, h3, h4, h5, h6⟩ := of_decide_eq_true ht
  obtain ⟨s2, hu, h7⟩ := Sample.okAnd_get h6
  obtain ⟨e1, e2, e3⟩ := of_decide_eq_true h7
  obtain ⟨hist, hr, _⟩ := tfSteps_run (.nil) hs
  exact ⟨_, _, s0, s, Sample.feed (20, 1) s, s2, hist, h0, h2, h3, hr.run, ⟨_, _, _, _, rfl⟩, h4, hu, e2, e1, h5, e3⟩

end LGAR
