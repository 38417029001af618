import Verif.Lemmas.Damp
import Verif.Lemmas.RunSoils
import Verif.Props.Bounds
import Verif.Spec.SampleDbl
/-
What is left of the column structure in every run, whatever coincidences occur (C14, C15), and the moisture bounds in every run
(C56).
-/
set_option linter.unusedSectionVars false
namespace LGAR

section LawFree
variable {α : Type} [Add α] [Sub α] [Mul α] [Div α] [Neg α] [Zero α] [One α] [OfScientific α]
  [LT α] [LE α] [DecidableLT α] [DecidableLE α] [BEq α] [CMath α] [Compared α]

/-- A well-formed column is anchored. -/
theorem Col.anchored {N : Nat} {cum : List α} : ∀ {l : List (Front α)} {s : Nat}, 1 ≤ s → Col N cum s l → Anchored N cum l
  | [], _, _, _ => trivial
  | [f], s, h1, h => by
    rw [col_single_iff] at h
    obtain ⟨a1, a2, a3, a4⟩ := h
    exact ⟨⟨by omega, by omega, fun _ => a4, fun _ g hg => by simp at hg, fun hb => by simp [a3] at hb,
      fun hN => absurd (a1.trans a2) hN⟩, trivial⟩
  | f :: g :: t, s, h1, h => by
    have hr := h.range f (by simp)
    rw [col_cons_iff] at h
    obtain ⟨a1, a2, a3, a4, a5⟩ := h
    have ih := Col.anchored (by rcases a2 with a2 | a2 <;> omega) a5
    refine ⟨⟨by omega, hr.2, a4, ?_, ?_, ?_⟩, ih⟩
    · intro hb x hx
      simp only [List.head?_cons, Option.some.injEq] at hx
      subst hx
      exact (a3.mp hb).symm
    · intro hb
      have e : f.layer = g.layer := by
        rw [hb] at a3; simpa using a3
      obtain ⟨x, hx, e1, e2⟩ := ih.flagged (f := g) (by simp)
      exact ⟨x, hx, by rw [e1, e], e2⟩
    · intro hN
      rcases a2 with a2 | a2
      · obtain ⟨x, hx, e⟩ := ih.next_layer (f := g) (by simp) (by rw [a2, ← a1]; exact hN)
        exact ⟨x, hx, by rw [e, a2, a1]⟩
      · exact ⟨g, by simp, by rw [a2, a1]⟩

/-- The structure over all runs. -/
theorem run_firm {env : Env α} {lines : List (List Char)} {s0 s : State α} {hist : List (State α)}
    (h0 : bmiInitialize env lines = .ok s0) (hinc : Layered s0.p.numLayers s0.p.cum) (hr : Run s0 hist s) :
    Firm s.geo s.head ∧ s.p.numLayers = s0.p.numLayers ∧ s.p.cum = s0.p.cum := by
  induction hr with
  | nil =>
    have hc := Col.initialize h0
    refine ⟨⟨(Sound.initialize h0).1, hc.anchored le_rfl, ?_⟩, rfl, rfl⟩
    cases hl : s0.head with
    | nil => exact absurd hl hc.ne_nil
    | cons f t => exact ⟨f, t, rfl, by rw [hl] at hc; exact hc.head⟩
  | step _ hi hu ih =>
    obtain ⟨a, b, c⟩ := ih
    obtain ⟨i1, _, _, _, _, i6, _, _, _, ip⟩ := hi.frame
    obtain ⟨e1, e2, _⟩ := update_fixed hu
    rw [ip] at e1 e2
    refine ⟨Firm.update (by rw [i1, i6]; exact a) (by rw [ip]; rw [← b, ← c] at hinc; exact hinc) hu, ?_, ?_⟩
    · rw [e1]; exact b
    · rw [e2]; exact c

/-- C14 in any arithmetic whose comparisons obey the three laws of `Compared` (IEEE 754 does, NaN and infinities included): layers
of positive thickness.  After Initialize and any number of Updates with any inputs there is a deepest front, it is in the deepest
layer, flagged as touching the bottom, at rest, and its depth is the depth of the column, not merely close to it. -/
theorem C87_bottom (env : Env α) (lines : List (List Char)) (s0 s : State α) (hist : List (State α))
    (h0 : bmiInitialize env lines = .ok s0) (hinc : Layered s0.p.numLayers s0.p.cum) (hr : Run s0 hist s) :
    ∃ f, s.head.getLast? = some f ∧ f.layer = s0.p.numLayers ∧ f.toBottom = true ∧ f.dzdt = 0 ∧
      s0.p.cum[s0.p.numLayers]? = some f.depth := by
  obtain ⟨a, b, c⟩ := run_firm h0 hinc hr
  obtain ⟨f, h1, h2, h3, h4⟩ := a.sound.last
  obtain ⟨t, f', e, e1, e2, e3⟩ := a.anch.last a.ne_nil
  have : f' = f := by rw [e] at h1; simpa using h1
  subst this
  refine ⟨f', h1, ?_, h3, h4, ?_⟩
  · rw [← b]; exact h2
  · rw [← b, ← c]; exact e3

/-- The structure in any such arithmetic: the first front is in layer 1; flagged fronts lie exactly at the bottom of their layer
and the front below them is in another layer; below every front that is not flagged there is a flagged one of its layer; below
every front that is not in the deepest layer there is one of the next layer. -/
theorem C87_anchored (env : Env α) (lines : List (List Char)) (s0 s : State α) (hist : List (State α))
    (h0 : bmiInitialize env lines = .ok s0) (hinc : Layered s0.p.numLayers s0.p.cum) (hr : Run s0 hist s) :
    Anchored s0.p.numLayers s0.p.cum s.head ∧ StartsAtTop s.head := by
  obtain ⟨a, b, c⟩ := run_firm h0 hinc hr
  rw [← b, ← c]
  exact ⟨a.anch, a.top⟩

/-- In any such arithmetic every layer has a front exactly at its bottom. -/
theorem C87_every_layer (env : Env α) (lines : List (List Char)) (s0 s : State α) (hist : List (State α))
    (h0 : bmiInitialize env lines = .ok s0) (hinc : Layered s0.p.numLayers s0.p.cum) (hr : Run s0 hist s) :
    ∀ k, 1 ≤ k → k ≤ s0.p.numLayers → ∃ f ∈ s.head, f.layer = k ∧ f.toBottom = true ∧ s0.p.cum[k]? = some f.depth := by
  obtain ⟨ha, f, t, e, hf⟩ := C87_anchored env lines s0 s hist h0 hinc hr
  have occ : ∀ k, k + 1 ≤ s0.p.numLayers → ∃ x ∈ s.head, x.layer = k + 1 := by
    intro k
    induction k with
    | zero => exact fun _ => ⟨f, by rw [e]; simp, hf⟩
    | succ k ih =>
      intro hk
      obtain ⟨x, hx, ex⟩ := ih (by omega)
      obtain ⟨y, hy, ey⟩ := ha.next_layer hx (by omega)
      exact ⟨y, hy, by omega⟩
  intro k h1 h2
  obtain ⟨x, hx, ex⟩ := occ (k - 1) (by omega)
  obtain ⟨y, hy, ey, eb⟩ := ha.flagged hx
  have e2 : y.layer = k := by omega
  exact ⟨y, hy, e2, eb, by rw [← e2]; exact ha.depths y hy eb⟩

theorem Damp.initialize {In : SoilProps α → α → Prop} {Pos : α → Prop} {env : Env α} {lines : List (List Char)} {s : State α}
    (h : bmiInitialize env lines = .ok s) (hinc : Layered s.p.numLayers s.p.cum) (hg : KeepsGeo In Pos s.geo)
    (hpsi : Pos s.p.initialPsi) : Damp In Pos s.geo s.head := by
  refine ⟨(run_firm h hinc .nil).1, ?_⟩
  obtain ⟨c, _, h, hne⟩ := bmiInitialize_inv h
  obtain ⟨ts, file, fl, soils, cnt, thick, psi, dt, endt, wp, fc, res, ords, inv, giuh, soilZ, q, depth, vs, cs, _, _, _, _, _,
    _, _, _, _, _, _, _, _, _, _, _, _, _, _, _, hhead, _, _, _, hs⟩ := lgarInit_inv h
  have e : s.p.initialPsi = psi := by rw [hs]
  rw [e] at hpsi
  intro f hf
  obtain ⟨i, hi⟩ := List.mem_iff_getElem?.mp hf
  obtain ⟨s1, th, c, ff, Se, K, h1, h2, hc, _, _, _, rfl⟩ := (initFronts_inv hhead).2.2 i f hi
  exact ⟨s1, h1, (hg _ _ (by omega) h1).theta _ _ hpsi h2, hpsi⟩

/-- Ranges that the soil functions keep are kept in every run. -/
theorem run_damp {In : SoilProps α → α → Prop} {Pos : α → Prop} {env : Env α} {lines : List (List Char)} {s0 s : State α}
    {hist : List (State α)} (h0 : bmiInitialize env lines = .ok s0) (hg : KeepsGeo In Pos s0.geo) (hpsi : Pos s0.p.initialPsi)
    (hinc : Layered s0.p.numLayers s0.p.cum)
    (hcal : s0.p.calibFlag = true →
      DistinctTypes s0.p.layerSoilType s0.p.numLayers ∧ ∀ a, hist.head? = some a → KeepsGeo In Pos a.geo)
    (hr : Run s0 hist s) : Damp In Pos s.geo s.head := by
  obtain ⟨c, _, hi0, _⟩ := bmiInitialize_inv h0
  have hv := lgarInit_valid hi0
  induction hr with
  | nil => exact Damp.initialize h0 hinc hg hpsi
  | @step hist s s1 s2 fuel sa hr hi hu ih =>
    have hP := run_soils (Q := Keeps In Pos) (.step hr hi hu) hg (fun h => (hcal h).2) hv
    have hc' : s0.p.calibFlag = true →
        DistinctTypes s0.p.layerSoilType s0.p.numLayers ∧ ∀ a, hist.head? = some a → KeepsGeo In Pos a.geo :=
      fun h => ⟨(hcal h).1, fun a ha => (hcal h).2 a (head_snoc ha)⟩
    have hF := ih hc'
    obtain ⟨_, p2, _, _, _, p6⟩ := run_soils (Q := Keeps In Pos) hr hg (fun h => (hc' h).2) hv
    obtain ⟨_, r2, r3, r4⟩ := run_sound h0 hr
    obtain ⟨pr, pet, temp, cal, rfl⟩ := hi
    exact Damp.update hP.1
      (s := { s with precipMm := pr, petMm := pet, calib := cal, p := { s.p with soilTemp := temp } }) hF r2
      (by show Layered s.p.numLayers s.p.cum; rw [r3, r4]; exact hinc)
      (fun h => by show DistinctTypes s.p.layerSoilType s.p.numLayers; rw [p2, r3]; exact (hcal (p6 h)).1) hu

end LawFree

section Exact
variable {K : Type} [Field K] [LinearOrder K] [IsStrictOrderedRing K] [CMath K] [LawfulNum K]

theorem layered_of {N : Nat} {cum : List K} (h : cum.Pairwise (· < ·)) : Layered N cum :=
  ⟨h, fun d _ t => by rw [zero_mul, add_zero]⟩

theorem Good.firm {g : Geo K} {l : List (Front K)} (h : Good g l) : Firm g l := by
  refine ⟨h.sound, h.col.anchored le_rfl, ?_⟩
  cases l with
  | nil => exact absurd rfl h.col.ne_nil
  | cons f t => exact ⟨f, t, rfl, h.col.head⟩

/-- C14, complete: layers of positive thickness.  After Initialize and any number of Updates with any inputs there is a deepest
front, it is in the deepest layer, flagged as touching the bottom, at rest, and at the depth of the column.  No condition on
coincidences. -/
theorem C14_bottom_depth (env : Env K) (lines : List (List Char)) (s0 s : State K) (hist : List (State K))
    (h0 : bmiInitialize env lines = .ok s0) (hinc : s0.p.cum.Pairwise (· < ·)) (hr : Run s0 hist s) :
    ∃ f, s.head.getLast? = some f ∧ f.layer = s0.p.numLayers ∧ f.toBottom = true ∧ f.dzdt = 0 ∧
      s0.p.cum[s0.p.numLayers]? = some f.depth :=
  C87_bottom env lines s0 s hist h0 (layered_of hinc) hr

/-- The part of C15 that holds in every run: the first front is in layer 1; flagged fronts lie at the bottom of their layer and
the front below them is in another layer; below every front that is not flagged there is a flagged one of its layer; below every
front that is not in the deepest layer there is one of the next layer.  What is missing for the full statement, and false
(C15_cross_stray_fails, C16_run_fails): that the layers are stacked without returning to an upper one. -/
theorem C15_anchored_partial (env : Env K) (lines : List (List Char)) (s0 s : State K) (hist : List (State K))
    (h0 : bmiInitialize env lines = .ok s0) (hinc : s0.p.cum.Pairwise (· < ·)) (hr : Run s0 hist s) :
    Anchored s0.p.numLayers s0.p.cum s.head ∧ StartsAtTop s.head :=
  C87_anchored env lines s0 s hist h0 (layered_of hinc) hr

/-- In every run every layer has a front at its bottom. -/
theorem C15_every_layer (env : Env K) (lines : List (List Char)) (s0 s : State K) (hist : List (State K))
    (h0 : bmiInitialize env lines = .ok s0) (hinc : s0.p.cum.Pairwise (· < ·)) (hr : Run s0 hist s) :
    ∀ k, 1 ≤ k → k ≤ s0.p.numLayers → ∃ f ∈ s.head, f.layer = k ∧ f.toBottom = true ∧ s0.p.cum[k]? = some f.depth :=
  C87_every_layer env lines s0 s hist h0 (layered_of hinc) hr

end Exact

section Pow
variable {K : Type} [Field K] [LinearOrder K] [IsStrictOrderedRing K] [CMath K] [LawfulNum K] [LawfulPow K]

/-- The range of C56. -/
def SoilRange (s : SoilProps K) (t : K) : Prop := s.thetaR ≤ t ∧ t ≤ s.thetaE

theorem SoilProps.Physical.keeps {s : SoilProps K} (hs : s.Physical) : Keeps SoilRange (fun h : K => 0 ≤ h) s where
  theta _ _ h he := calcTheta_range hs h he
  head _ _ _ ht he hp := psi_nonneg hs ht.1 ht.2 he hp
  clamp o := clamp_range hs o
  clampTop t := by
    simp only [fmax_eq, fmin_eq]
    exact ⟨le_max_left _ _, max_le hs.gap.le (min_le_left _ _)⟩
  fresh _ _ _ _ _ t Se hsp hSe h0 := by
    refine ⟨?_, surficialSplit_le hsp⟩
    rw [LawfulPow.sqrtOk_iff] at h0
    unfold calcSeFromTheta at hSe
    rw [cdiv_ok] at hSe
    rw [hSe.2] at h0
    have := hs.gap
    by_contra hc
    have : (t - s.thetaR) / (s.thetaE - s.thetaR) < 0 := div_neg_of_neg_of_pos (by linarith) (by linarith)
    linarith

/-- C56 over all runs: physically meaningful soils, layers of positive thickness, initial head not negative.  After Initialize
and any number of Updates with any inputs every front is within the range of its layer and its head is not negative, whatever
coincidences occur.  With calibration the layers need different soil types (otherwise see C41) and the calibrated soils must be
meaningful, too. -/
theorem C56_run (env : Env K) (lines : List (List Char)) (s0 s : State K) (hist : List (State K))
    (h0 : bmiInitialize env lines = .ok s0) (hg : PhysGeo s0.geo) (hpsi : 0 ≤ s0.p.initialPsi)
    (hinc : s0.p.cum.Pairwise (· < ·))
    (hcal : s0.p.calibFlag = true →
      DistinctTypes s0.p.layerSoilType s0.p.numLayers ∧ ∀ a, hist.head? = some a → PhysGeo a.geo)
    (hr : Run s0 hist s) : ∀ f ∈ s.head, Bounded s.geo f := by
  have := run_damp (In := SoilRange) (Pos := fun h : K => 0 ≤ h) h0 (fun k s hk hs => (hg k s hk hs).keeps) hpsi (layered_of hinc)
    (fun h => ⟨(hcal h).1, fun a ha k s hk hs => ((hcal h).2 a ha k s hk hs).keeps⟩) hr
  intro f hf
  obtain ⟨s, h1, h2, h3⟩ := this.bd f hf
  exact ⟨s, h1, h2.1, h2.2, h3⟩

end Pow

/- Cases meeting the hypotheses. -/

attribute [local irreducible] Sample.env Sample.cfg bmiInitialize update in
/-- A run of a two-layer column with rain. -/
example : ∃ (env : Env Grid) (lines : List (List Char)) (s0 s : State Grid) (hist : List (State Grid)),
    bmiInitialize env lines = .ok s0 ∧ PhysGeo s0.geo ∧ 0 ≤ s0.p.initialPsi ∧ s0.p.cum.Pairwise (· < ·) ∧
      (s0.p.calibFlag = true → DistinctTypes s0.p.layerSoilType s0.p.numLayers ∧ ∀ a, hist.head? = some a → PhysGeo a.geo) ∧
      Run s0 hist s ∧ s0.p.numLayers = 2 ∧ s.head.length = 3 := by
  obtain ⟨s0, h0, ⟨h1, h2, h3, h4⟩, k1, k2, k3⟩ := Sample.okAnd_exists fine_check
  obtain ⟨s, hs, h5⟩ := Sample.okAnd_exists h4
  exact ⟨_, _, s0, s, _, h0, k1.phys, k2, h1, fun h => by simp [k3] at h, Run.step .nil ⟨_, _, _, _, rfl⟩ hs, h2, h5⟩

/-- An anchored column that is not stacked: layers 1, 2, 1, 2 as after the coincidence of C15_cross_stray_fails. -/
example : Anchored 2 [0, 10, 30] [⟨10, 1/4, 5, 1, 1, 1, true, 0⟩, ⟨12, 1/4, 5, 1, 2, 2, false, 1⟩,
    ⟨10, 1/5, 9, 1, 1, 3, true, 0⟩, ⟨30, 1/5, 9, 1, 2, 4, true, (0 : ℚ)⟩] ∧
    ¬ LayersFrom 2 1 [⟨10, 1/4, 5, 1, 1, 1, true, 0⟩, ⟨12, 1/4, 5, 1, 2, 2, false, 1⟩,
      ⟨10, 1/5, 9, 1, 1, 3, true, 0⟩, ⟨30, 1/5, 9, 1, 2, 4, true, (0 : ℚ)⟩] := by
  refine ⟨⟨⟨by decide, by decide, fun _ => rfl, ?_, by simp, ?_⟩, ⟨by decide, by decide, by simp, by simp, ?_, by simp⟩,
    ⟨by decide, by decide, fun _ => rfl, ?_, by simp, ?_⟩, ⟨by decide, by decide, fun _ => rfl, by simp, by simp, by simp⟩, trivial⟩,
    by decide⟩
  all_goals simp

namespace SampleDbl
open Dbl

/-- Layers whose bottoms are not sums in 53 bits. -/
def cfgDeep : List (List Char) :=
  ["layer_thickness=10.4,20.4[cm]".toList, "layer_soil_type=1,2".toList, "soil_params_file=x".toList,
   "max_valid_soil_types=2".toList, "initial_psi=100[cm]".toList, "timestep=30[min]".toList, "endtime=5[hr]".toList,
   "forcing_resolution=60[min]".toList, "ponded_depth_max=2[cm]".toList, "use_closed_form_G=true".toList,
   "wilting_point_psi=15495.0[cm]".toList, "field_capacity_psi=340.9[cm]".toList, "giuh_ordinates=0.7,0.3".toList]

/-- Test for the example below. -/
def DeepTest (a : State Dbl × List (State Dbl)) : Prop :=
  a.2.length = 1 ∧ a.1.p.numLayers = 2 ∧ a.1.p.cum.Pairwise (· < ·) ∧
    (∀ d ∈ a.1.p.cum[2]?, d + 0 = d ∧ toRat d ≠ rnd (104 / 10) + rnd (204 / 10)) ∧ ∀ x ∈ a.2, x.head.length = 3

instance : DecidablePred DeepTest := fun a => by unfold DeepTest; infer_instance

theorem deep_check : Sample.okAnd (play 100 cfgDeep 1000 true [(5.3, 0)]) (fun a => decide (DeepTest a)) = true := by
  decide +kernel

end SampleDbl

attribute [local irreducible] SampleDbl.env SampleDbl.cfgDeep SampleDbl.play bmiInitialize in
/-- C87, a run in 53-bit arithmetic: the depth of the column is a rounded sum. -/
example : ∃ (env : Env Dbl) (lines : List (List Char)) (s0 s : State Dbl) (hist : List (State Dbl)),
    bmiInitialize env lines = .ok s0 ∧ Layered s0.p.numLayers s0.p.cum ∧ Run s0 hist s ∧ s0.p.numLayers = 2 ∧
    s.head.length = 3 := by
  obtain ⟨s0, hist, s, h1, _, h2, ⟨l1, l2, l3, l4, l5⟩, rfl⟩ := SampleDbl.play_run SampleDbl.deep_check
  refine ⟨_, _, s0, _, hist, h1, ⟨l3, fun d hd t => ?_⟩, h2.run, l2, l5 _ (Sample.last1 (x := s0) l1)⟩
  rw [l2] at hd
  have e : (0 : Dbl) * t = 0 := by
    show Dbl.rnd (0 * Dbl.toRat t) = 0
    rw [zero_mul, Dbl.rnd_zero]
  rw [e]
  exact (l4 d hd).1

end LGAR
