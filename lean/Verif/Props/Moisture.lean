import Verif.Lemmas.MoistRound
import Verif.Lemmas.SoilFile
import Verif.Props.Anchor
/-
C88: the moisture range in correctly rounded arithmetic.
-/
set_option linter.unusedSectionVars false
namespace LGAR
open Rounded

section Rounded
variable {α : Type} [Add α] [Sub α] [Mul α] [Div α] [Neg α] [Zero α] [One α] [OfScientific α]
  [LT α] [LE α] [DecidableLT α] [DecidableLE α] [BEq α] [CMath α] [Rounded α] [Correct α]

/-- All layers have such soils, with moisture contents between 0 and 1. -/
def SaneGeo (g : Geo α) : Prop :=
  ∀ k s, 1 ≤ k → g.soil k = .ok s → s.Sane ∧ 0 ≤ val s.thetaR ∧ val s.thetaE ≤ 1

/-- C88.  Correctly rounded arithmetic, soils as in the shipped tables, layers of positive thickness, initial head not negative.
After Initialize and any number of Updates with any inputs the moisture of every front is at least the residual moisture of its
layer, at most the saturated moisture plus three rounding errors, and its head is not negative.  Nothing is assumed of the
intermediate results.  With calibration the layers need different soil types and the calibrated soils must be of the kind, too. -/
theorem C88_range (env : Env α) (lines : List (List Char)) (s0 s : State α) (hist : List (State α))
    (h0 : bmiInitialize env lines = .ok s0) (hg : SaneGeo s0.geo) (hpsi : 0 ≤ val s0.p.initialPsi)
    (hinc : Layered s0.p.numLayers s0.p.cum)
    (hcal : s0.p.calibFlag = true →
      DistinctTypes s0.p.layerSoilType s0.p.numLayers ∧ ∀ a, hist.head? = some a → SaneGeo a.geo)
    (hr : Run s0 hist s) :
    ∀ f ∈ s.head, ∃ q, s.geo.soil f.layer = .ok q ∧ val q.thetaR ≤ val f.theta ∧ val f.theta ≤ val q.thetaE + 3 * eps α ∧
      0 ≤ val f.psi := by
  have : Compared α := Rounded.compared
  have key : ∀ {q : SoilProps α}, (q.Sane ∧ 0 ≤ val q.thetaR ∧ val q.thetaE ≤ 1) →
      Keeps (fun (q : SoilProps α) t => SaneRange q t ∧ (q.Sane ∧ 0 ≤ val q.thetaR ∧ val q.thetaE ≤ 1)) (fun h : α => 0 ≤ val h) q :=
    fun h => ⟨fun x t hx hh => ⟨h.1.keeps.theta x t hx hh, h⟩, fun t Se psi ht => h.1.keeps.head t Se psi ht.1,
      fun o => ⟨h.1.keeps.clamp o, h⟩, fun t => ⟨h.1.keeps.clampTop t, h⟩,
      fun a b c d e t Se h1 h2 h3 => ⟨h.1.keeps.fresh a b c d e t Se h1 h2 h3, h⟩⟩
  have := run_damp h0 (fun k q hk hq => key (hg k q hk hq)) hpsi hinc
    (fun h => ⟨(hcal h).1, fun a ha k q hk hq => key ((hcal h).2 a ha k q hk hq)⟩) hr
  intro f hf
  obtain ⟨q, h1, ⟨h2, h3⟩, h4⟩ := this.bd f hf
  exact ⟨q, h1, h2.1, h2.2.trans (h3.1.top_le h3.2.1 h3.2.2), h4⟩

end Rounded

namespace Dbl

/-- The conditions on a soil, as a test on its numbers. -/
def saneOk (s : SoilProps Dbl) : Bool :=
  decide (0 < toRat s.vgAlpha ∧ 0 < toRat s.vgM ∧ toRat s.vgM ≤ 1 ∧ 0 < toRat (s.thetaE - s.thetaR) ∧
    toRat (s.thetaE - s.thetaR) ≤ 1 ∧ rnd (toRat s.thetaR) = toRat s.thetaR ∧
    toRat (s.thetaE - s.thetaR + s.thetaR - s.thetaR) ≤ toRat (s.thetaE - s.thetaR) ∧ 0 ≤ toRat s.thetaR ∧ toRat s.thetaE ≤ 1)

theorem val_le_val {a b : Dbl} : Rounded.val a ≤ Rounded.val b ↔ toRat a ≤ toRat b := by
  show ((toRat a : Rat) : ℝ) ≤ ((toRat b : Rat) : ℝ) ↔ _
  exact_mod_cast Iff.rfl

theorem val_pos {a : Dbl} : 0 < Rounded.val a ↔ 0 < toRat a := by
  show (0 : ℝ) < ((toRat a : Rat) : ℝ) ↔ _
  exact_mod_cast Iff.rfl

theorem val_nonneg {a : Dbl} : 0 ≤ Rounded.val a ↔ 0 ≤ toRat a := by
  show (0 : ℝ) ≤ ((toRat a : Rat) : ℝ) ↔ _
  exact_mod_cast Iff.rfl

theorem saneOk_sound {s : SoilProps Dbl} (h : saneOk s = true) : s.Sane ∧ 0 ≤ Rounded.val s.thetaR ∧ Rounded.val s.thetaE ≤ 1 := by
  obtain ⟨h1, h2, h3, h4, h5, h6, h7, h8, h9⟩ := of_decide_eq_true h
  exact ⟨⟨val_pos.mpr h1, ⟨val_pos.mpr h2, val_le_one.mpr h3⟩, ⟨val_pos.mpr h4, val_le_one.mpr h5⟩,
    ⟨toRat s.thetaR, rfl, by rw [h6]; rfl⟩, val_le_val.mpr h7⟩, val_nonneg.mpr h8, val_le_one.mpr h9⟩

/-- The rows (theta_r, theta_e, alpha, n) of the tables in /repo/data. -/
def shipped : List (Rat × Rat × Rat × Rat) :=
  [(1/10, 23/50, 1/100, 5/4), (2/25, 11/25, 1/50, 71/50), (3/50, 2/5, 1/100, 147/100), (1/20, 39/100, 3/100, 7/4),
   (1/20, 19/50, 1/25, 159/50), (3/25, 39/100, 3/100, 121/100), (3/50, 19/50, 1/50, 133/100), (1/25, 39/100, 3/100, 29/20),
   (1/20, 49/100, 1/100, 42/25), (11/100, 12/25, 1/50, 33/25), (9/100, 12/25, 1/100, 38/25), (7/100, 11/25, 1/100, 83/50),
   (81/1250, 4513/10000, 31297/10000000, 8429/5000), (831/10000, 4773/10000, 10409/1250000, 1299/1000),
   (167/2500, 4617/10000, 18727/5000000, 16151/10000), (649/10000, 4481/10000, 9567/1000000, 13579/10000),
   (42/625, 119/250, 661/125000, 3819/2500), (823/10000, 2391/5000, 4467/1000000, 2917/2000),
   (9/200, 43/100, 29/200, 67/25), (57/1000, 41/100, 31/250, 57/25), (13/200, 41/100, 3/40, 189/100),
   (67/1000, 9/20, 1/50, 141/100), (17/500, 23/50, 2/125, 137/100), (39/500, 43/100, 9/250, 39/25),
   (1/10, 39/100, 59/1000, 37/25), (89/1000, 43/100, 1/100, 123/100), (19/200, 41/100, 19/1000, 131/100),
   (1/10, 19/50, 27/1000, 123/100), (7/100, 9/25, 1/200, 109/100), (17/250, 19/50, 1/125, 109/100)]

/-- The record of a row, numbers read as the nearest 53-bit numbers. -/
def recOf (name : List Char) (Ksat : Dbl) (r : Rat × Rat × Rat × Rat) : SoilRec Dbl :=
  ⟨name, ofRat (rnd r.1), ofRat (rnd r.2.1), ofRat (rnd r.2.2.1), ofRat (rnd r.2.2.2), Ksat⟩

/-- The numbers of the record that enter. -/
def soilOf (r : SoilRec Dbl) : SoilProps Dbl := ⟨r.thetaR, r.thetaE, r.alpha, r.n, 1 - 1 / r.n, 0, 0, 0, 0, 0⟩

theorem saneOk_congr {s t : SoilProps Dbl} (h1 : s.thetaR = t.thetaR) (h2 : s.thetaE = t.thetaE) (h3 : s.vgAlpha = t.vgAlpha)
    (h4 : s.vgM = t.vgM) : saneOk s = saneOk t := by
  unfold saneOk
  rw [h1, h2, h3, h4]

end Dbl

/-- C88: every soil that is read from a shipped table meets the condition in 53-bit arithmetic. -/
theorem C88_shipped (r : Rat × Rat × Rat × Rat) (hr : r ∈ Dbl.shipped) (wp Ksat : Dbl) (old s : SoilProps Dbl) (name : List Char)
    (h : soilOfRec wp old (Dbl.recOf name Ksat r) = .ok s) : s.Sane ∧ 0 ≤ val s.thetaR ∧ val s.thetaE ≤ 1 := by
  have key : ∀ r ∈ Dbl.shipped, Dbl.saneOk (Dbl.soilOf (Dbl.recOf [] 0 r)) = true := by decide +kernel
  have hf : s.thetaR = (Dbl.recOf name Ksat r).thetaR ∧ s.thetaE = (Dbl.recOf name Ksat r).thetaE ∧
      s.vgAlpha = (Dbl.recOf name Ksat r).alpha ∧ s.vgM = 1 - 1 / (Dbl.recOf name Ksat r).n := by
    obtain ⟨h1, h2, h3, h4, h5, h6⟩ := soilOfRec_fields h
    obtain ⟨q, h7, h8⟩ := h6
    rw [cdiv_ok_iff] at h7
    exact ⟨h1, h2, h3, by rw [h8, h7.2]⟩
  exact Dbl.saneOk_sound ((Dbl.saneOk_congr hf.1 hf.2.1 hf.2.2.1 hf.2.2.2).trans (key r hr))

namespace SampleDbl
open Dbl

/-- Two soils with the moisture ranges of "Silt" in vG_default_params_HYDRUS.dat and "Clay" in vG_default_params.dat. -/
def envWet : Env Dbl :=
  { env with files := fun _ => some ["name thr the alpha n Ks".toList, "silt 0.034 0.46 0.016 2 0.25".toList,
      "clay 0.1 0.46 0.01 2 0.612".toList] }

/-- Initial head 0: the whole column is saturated. -/
def cfgWet : List (List Char) :=
  ["layer_thickness=10,20[cm]".toList, "layer_soil_type=1,2".toList, "soil_params_file=x".toList,
   "max_valid_soil_types=2".toList, "initial_psi=0[cm]".toList, "timestep=30[min]".toList, "endtime=5[hr]".toList,
   "forcing_resolution=60[min]".toList, "ponded_depth_max=2[cm]".toList, "use_closed_form_G=true".toList,
   "wilting_point_psi=15495.0[cm]".toList, "field_capacity_psi=340.9[cm]".toList, "giuh_ordinates=0.7,0.3".toList]

/-- Test: the first front is wetter than saturation, the second drier; both heads are 0. -/
def WetTest (s : State Dbl) : Prop :=
  s.head.length = 2 ∧ (∀ f ∈ s.head, toRat f.psi = 0) ∧
    (∀ f ∈ s.head[0]?, ∀ q ∈ (s.geo.soil 1).toOption, f.layer = 1 ∧ toRat q.thetaE < toRat f.theta) ∧
    (∀ f ∈ s.head[1]?, ∀ q ∈ (s.geo.soil 2).toOption, f.layer = 2 ∧ toRat f.theta < toRat q.thetaE) ∧
    (s.geo.soil 1).toOption.isSome = true ∧ (s.geo.soil 2).toOption.isSome = true ∧
    ∀ k ∈ [1, 2], ∀ q ∈ (s.geo.soil k).toOption, saneOk q = true

instance : DecidablePred WetTest := fun a => by unfold WetTest; infer_instance

theorem wet_check : Sample.okAnd (bmiInitialize envWet cfgWet) (fun a => decide (WetTest a)) = true := by
  decide +kernel

/-- Test for the example below. -/
def DampTest (a : State Dbl × List (State Dbl)) : Prop :=
  a.2.length = 1 ∧ a.1.p.numLayers = 2 ∧ a.1.p.cum.Pairwise (· < ·) ∧ (∀ d ∈ a.1.p.cum[2]?, d + 0 = d) ∧
    a.1.p.calibFlag = false ∧ 0 ≤ toRat a.1.p.initialPsi ∧ a.1.geo.numLayers = 2 ∧ a.1.geo.soilType.length = 3 ∧
    (∀ k ∈ [1, 2], ∀ q ∈ (a.1.geo.soil k).toOption, saneOk q = true) ∧ ∀ x ∈ a.2, x.head.length = 3

instance : DecidablePred DampTest := fun a => by unfold DampTest; infer_instance

theorem damp_check : Sample.okAnd (play 100 cfgDeep 1000 true [(5.3, 0)]) (fun a => decide (DampTest a)) = true := by
  decide +kernel

theorem saneGeo {g : Geo Dbl} (hl : g.soilType.length = 3)
    (h : ∀ k ∈ [1, 2], ∀ q ∈ (g.soil k).toOption, saneOk q = true) : SaneGeo g := by
  intro k q hk hq
  have : k ≤ 2 := by
    unfold Geo.soil at hq
    simp only [bind_ok_iff, idx_ok_iff] at hq
    obtain ⟨i, hi, _⟩ := hq
    have := (List.getElem?_eq_some_iff.mp hi).1
    omega
  refine saneOk_sound (h k ?_ q (by rw [hq]; rfl))
  rcases (by omega : k = 1 ∨ k = 2) with rfl | rfl <;> simp

end SampleDbl

attribute [local irreducible] SampleDbl.envWet SampleDbl.cfgWet bmiInitialize in
/-- C88, saturation is not exact: in 53-bit arithmetic a column initialised with head 0 has a layer that is wetter than its
saturated moisture and a layer that is drier (moisture ranges of two shipped soils).  The tests `theta == theta_e` (lgar.cxx 2030)
and `theta >= theta_e` (lgar.cxx 2642) do not see the second layer as saturated. -/
theorem C88_saturation_fails : ∃ (env : Env Dbl) (lines : List (List Char)) (s0 : State Dbl) (f1 f2 : Front Dbl)
    (q1 q2 : SoilProps Dbl), bmiInitialize env lines = .ok s0 ∧ s0.head = [f1, f2] ∧ s0.geo.soil f1.layer = .ok q1 ∧
      s0.geo.soil f2.layer = .ok q2 ∧ q1.Sane ∧ q2.Sane ∧ val f1.psi = 0 ∧ val f2.psi = 0 ∧ val q1.thetaE < val f1.theta ∧
      val f2.theta < val q2.thetaE := by
  obtain ⟨s0, h0, h1, h2, h3, h4, h5, h6, h7⟩ := Sample.okAnd_exists SampleDbl.wet_check
  obtain ⟨f1, f2, hl⟩ : ∃ f1 f2, s0.head = [f1, f2] := List.length_eq_two.mp h1
  obtain ⟨q1, e1⟩ : ∃ q, s0.geo.soil 1 = .ok q := by
    cases hq : s0.geo.soil 1 with
    | ok q => exact ⟨q, rfl⟩
    | error e => rw [hq] at h5; cases h5
  obtain ⟨q2, e2⟩ : ∃ q, s0.geo.soil 2 = .ok q := by
    cases hq : s0.geo.soil 2 with
    | ok q => exact ⟨q, rfl⟩
    | error e => rw [hq] at h6; cases h6
  obtain ⟨a1, a2⟩ := h3 f1 (by rw [hl]; rfl) q1 (by rw [e1]; rfl)
  obtain ⟨b1, b2⟩ := h4 f2 (by rw [hl]; rfl) q2 (by rw [e2]; rfl)
  have z1 := h2 f1 (by rw [hl]; simp)
  have z2 := h2 f2 (by rw [hl]; simp)
  exact ⟨_, _, s0, f1, f2, q1, q2, h0, hl, by rw [a1]; exact e1, by rw [b1]; exact e2,
    (Dbl.saneOk_sound (h7 1 (by simp) q1 (by rw [e1]; rfl))).1, (Dbl.saneOk_sound (h7 2 (by simp) q2 (by rw [e2]; rfl))).1,
    Rat.cast_eq_zero.mpr z1, Rat.cast_eq_zero.mpr z2, Rat.cast_lt.mpr a2, Rat.cast_lt.mpr b2⟩

attribute [local irreducible] SampleDbl.env SampleDbl.cfgDeep SampleDbl.play bmiInitialize in
/-- C88, a run in 53-bit arithmetic. -/
example : ∃ (env : Env Dbl) (lines : List (List Char)) (s0 s : State Dbl) (hist : List (State Dbl)),
    bmiInitialize env lines = .ok s0 ∧ SaneGeo s0.geo ∧ 0 ≤ val s0.p.initialPsi ∧ Layered s0.p.numLayers s0.p.cum ∧
      (s0.p.calibFlag = true →
        DistinctTypes s0.p.layerSoilType s0.p.numLayers ∧ ∀ a, hist.head? = some a → SaneGeo a.geo) ∧
      Run s0 hist s ∧ s0.p.numLayers = 2 ∧ s.head.length = 3 := by
  obtain ⟨s0, hist, s, h1, _, h2, ⟨l1, l2, l3, l4, l5, l6, _, l8, l9, l10⟩, rfl⟩ := SampleDbl.play_run SampleDbl.damp_check
  refine ⟨_, _, s0, _, hist, h1, SampleDbl.saneGeo l8 l9, Dbl.val_nonneg.mpr l6, ⟨l3, fun d hd t => ?_⟩, fun h => (by rw [show s0.p.calibFlag = false from l5] at h; cases h),
    h2.run, l2, l10 _ (Sample.last1 (x := s0) l1)⟩
  rw [l2] at hd
  have e : (0 : Dbl) * t = 0 := by
    show Dbl.rnd (0 * Dbl.toRat t) = 0
    rw [MulZeroClass.zero_mul, Dbl.rnd_zero]
  rw [e]
  exact l4 d hd

end LGAR
