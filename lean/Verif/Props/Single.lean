import Verif.Lemmas.SingleRun
import Verif.Props.Bounds
import Verif.Props.Frozen
import Verif.Props.Stops
/-
C64 for columns of one layer.
-/
set_option linter.unusedSectionVars false
namespace LGAR

section Exact
variable {K : Type} [Field K] [LinearOrder K] [IsStrictOrderedRing K] [CMath K] [LawfulNum K] [LawfulPow K] [LawfulMono K]

/-- What holds between two Updates of a one-layer column. -/
structure Level (column : K) (so : SoilProps K) (s : State K) : Prop where
  layers : s.p.numLayers = 1
  soil : s.geo.soil 1 = .ok so
  phys : PhysGeo s.geo
  lam : 0 < so.bcLambda
  psib : 0 ≤ so.bcPsib
  surf : layerTop s.p.cum 1 = 0
  inc : s.p.cum.Pairwise (· < ·)
  col : s.p.cum[1]? = some column
  pos : 0 < column
  times : PosTimes s.p
  pondMax : 0 ≤ s.p.pondMax
  frozen : ∀ (k : Nat) f, s.p.frozen[k]? = some f → 0 < f
  tidy : Settled s.geo column so.thetaE s.head
  pond : 0 ≤ s.mb.volonT
  calib : s.p.calibFlag = false

theorem Level.inputs {column : K} {so : SoilProps K} {s s' : State K} (h : Level column so s) (hi : Inputs s s') : Level column so s' := by
  obtain ⟨pr, pet, temp, cal, rfl⟩ := hi
  exact ⟨h.layers, h.soil, h.phys, h.lam, h.psib, h.surf, h.inc, h.col, h.pos, ⟨h.times.1, h.times.2, h.times.3⟩, h.pondMax, h.frozen, h.tidy,
    h.pond, h.calib⟩

theorem frozen_pos {cum : List K} {cells : List (K × K)} {old fs : List K} (ho : ∀ (k : Nat) f, old[k]? = some f → 0 < f)
    (h : frozenFactor cum cells old = .ok fs) : ∀ (k : Nat) f, fs[k]? = some f → 0 < f := by
  unfold frozenFactor at h
  simp only [bind_ok_iff, pure_eq_ok, Except.ok.injEq] at h
  obtain ⟨r, hr, rfl⟩ := h
  intro k f hf
  rcases List.mem_append.mp (List.mem_of_getElem? hf) with hm | hm
  · obtain ⟨i, hi⟩ := List.getElem?_of_mem (List.mem_of_mem_take hm)
    exact ho i f hi
  · have := ((frozenLayers_bounds hr).2 f hm).1
    exact lt_of_lt_of_le (by norm_num) this

/-- The subcycling loop starts well. -/
theorem Level.start {column d v : K} {so : SoilProps K} {s s1 : State K} (h : Level column so s) (fuel : Nat) (sa : Bool)
    (hp : updatePre s = .ok (s1, d)) (hv : massBal s1.p.cum s1.head = .ok v) :
    OneLayer (stepCfg fuel sa s1) column so ∧ Steady (stepCfg fuel sa s1) column so (subInit s1 v) := by
  obtain ⟨_, _, fs, soils, l, fc, pm, q, _, rfl, hfs, ⟨hc, _⟩ | ⟨_, rfl, rfl, rfl, rfl, _⟩⟩ := updatePre_inv hp
  · rw [h.calib] at hc; exact absurd hc (by simp)
  · have hfr : ∀ (k : Nat) f, fs[k]? = some f → 0 < f := by
      rcases hfs with ⟨_, hfs⟩ | ⟨_, rfl⟩
      · exact frozen_pos h.frozen hfs
      · exact h.frozen
    refine ⟨⟨h.layers, h.soil, h.phys, h.lam, h.psib, h.surf, h.inc, h.col, h.pos, h.times.choose _ _, h.pondMax, hfr 1⟩, ?_, massBal_val hv,
      h.pond⟩
    have := h.tidy
    exact ⟨this.fine.geo rfl rfl rfl rfl, this.neat, this.top, this.speed⟩

theorem Level.update {column : K} {so : SoilProps K} {s s' : State K} {fuel : Nat} {sa : Bool} (h : Level column so s)
    (hv : s.p.invalidSoil = false) (hu : LGAR.update fuel sa s = .ok s') : Level column so s' := by
  rcases update_inv hu with ⟨hi, _⟩ | ⟨_, s1, d, v, u, h1, hm, hl, h2⟩
  · rw [hv] at hi; exact absurd hi (by simp)
  · obtain ⟨ho, hs⟩ := h.start fuel sa h1 hm
    have he := hs.loop ho hl
    obtain ⟨_, _, _, hh, _, hso, _, _, _, _, _, _, hpp, hmb, _⟩ := updatePost_inv h2
    obtain ⟨_, _, fs, soils, l, fc, pm, q, _, rfl, hfs, ⟨hc, _⟩ | ⟨_, rfl, rfl, rfl, rfl, _⟩⟩ := updatePre_inv h1
    · rw [h.calib] at hc; exact absurd hc (by simp)
    · have hg : s'.geo = { s.geo with frozen := fs } := by
        unfold State.geo; rw [hpp, hso]
      have hfr : ∀ (k : Nat) f, fs[k]? = some f → 0 < f := by
        rcases hfs with ⟨_, hfs⟩ | ⟨_, rfl⟩
        · exact frozen_pos h.frozen hfs
        · exact h.frozen
      refine ⟨by rw [hpp]; exact h.layers, by rw [hg]; exact h.soil, by rw [hg]; exact h.phys, h.lam, h.psib, by rw [hpp]; exact h.surf,
        by rw [hpp]; exact h.inc, by rw [hpp]; exact h.col, h.pos, by rw [hpp]; exact ⟨h.times.choose _ _, h.times.2, h.times.3⟩,
        by rw [hpp]; exact h.pondMax, by rw [hpp]; exact hfr, ?_, by rw [hmb]; exact he.pond, by rw [hpp]⟩
      rw [hg, hh]; exact he.tidy

theorem Level.init {env : Env K} {lines : List (List Char)} {s : State K} {so : SoilProps K} (h : bmiInitialize env lines = .ok s)
    (hN : s.p.numLayers = 1) (hso : s.geo.soil 1 = .ok so) (hg : PhysGeo s.geo) (hlam : 0 < so.bcLambda) (hpsib : 0 ≤ so.bcPsib)
    (hpsi : 0 ≤ s.p.initialPsi) (hinc : s.p.cum.Pairwise (· < ·)) (hpond : 0 ≤ s.p.pondMax) (hcal : s.p.calibFlag = false) :
    ∃ column, Level column so s := by
  have hf := Fine.initialize h hg hpsi
  obtain ⟨_, _, _, hB, _, _, hT⟩ := init_books h
  obtain ⟨c, hc, h, _⟩ := bmiInitialize_inv h
  have hB := hB (lgarInit_valid h)
  obtain ⟨ts, file, fl, soils, cnt, thick, psi, dt, endt, wp, fc, res, ords, inv, giuh, soilZ, q, depth, vs, cs, _, _, _, _, _,
    hthick, _, _, hdt, _, _, _, hres, _, _, _, _, _, hdepth, hgeo, hhead, hm, hlen, _, hs⟩ := lgarInit_inv h
  have ecum : s.p.cum = cumThickness thick := by rw [hs]
  have efr : s.p.frozen = List.replicate (thick.length + 1) 1 := by rw [hs]
  have eN : thick.length = 1 := by rw [← hN, hs]
  rw [eN, ← ecum] at hdepth
  have hpos : 0 < depth := by
    have h0 : s.p.cum[0]? = some 0 := by rw [ecum]; rfl
    rw [List.pairwise_iff_getElem] at hinc
    obtain ⟨l0, e0⟩ := List.getElem?_eq_some_iff.mp h0
    obtain ⟨l1, e1⟩ := List.getElem?_eq_some_iff.mp hdepth
    have := hinc 0 1 l0 l1 (by omega)
    rw [e0, e1] at this; exact this
  obtain ⟨f, hfe⟩ : ∃ f, s.head = [f] := List.length_eq_one_iff.mp (hlen.symm.trans eN)
  obtain ⟨s1, th, cc, ff, Se, Kc, hs1, hth, hcc, _, _, _, hff⟩ := (initFronts_inv hhead).2.2 0 f (by rw [hfe]; rfl)
  have ecc : cc = depth := by
    have : s.p.cum[1]? = some cc := hcc
    rw [hdepth, Option.some.injEq] at this; exact this.symm
  refine ⟨depth, hN, hso, hg, hlam, hpsib, by rw [ecum]; rfl, hinc, hdepth, hpos, hT, hpond, ?_, ⟨hf, ?_, ?_, ?_⟩, hB.pond, hcal⟩
  · intro k x hx
    rw [efr] at hx
    rw [(List.mem_replicate.mp (List.mem_of_getElem? hx)).2]; exact one_pos
  · rw [hfe]
    refine ⟨?_, trivial, by simp, ?_⟩
    · intro x hx
      simp only [List.mem_singleton] at hx
      rw [hx, hff]
    · intro x hx
      simp only [List.head?_cons, Option.mem_some_iff] at hx
      rw [← hx, hff]; left; simp only; rw [ecc]; exact ⟨hpos, le_rfl⟩
  · rw [hfe]
    intro x hx
    simp only [List.head?_cons, Option.mem_some_iff] at hx
    rw [← hx, hff]; simp only; rw [ecc]; exact hpos
  · rw [hfe]; simp

theorem Level.run {column : K} {so : SoilProps K} {s0 s : State K} {hist : List (State K)} (h0 : Level column so s0)
    (hv : s0.p.invalidSoil = false) (hr : Run s0 hist s) : Level column so s ∧ s.p.invalidSoil = false := by
  induction hr with
  | nil => exact ⟨h0, hv⟩
  | @step hist s s1 s2 fuel sa hr hi hu ih =>
    obtain ⟨h1, h2⟩ := ih
    have hv1 : s1.p.invalidSoil = false := by
      obtain ⟨pr, pet, temp, cal, rfl⟩ := hi; exact h2
    refine ⟨(h1.inputs hi).update hv1 hu, ?_⟩
    rw [(update_fixed hu).2.2.2.1, hv1]

/-- C64 for a column of one layer: with a physically meaningful soil and no calibration, in any run with any inputs, an Update in which
the search for the moisture of a lone front ends within 1e-5 cm of its target (or at saturation) is not stopped by the mass-balance
check.  Missing: columns of several layers (there the claim is false, C64_fails) and searches that end elsewhere. -/
theorem C64_single_layer_partial (env : Env K) (lines : List (List Char)) (s0 s s1 : State K) (hist : List (State K)) (so : SoilProps K)
    (fuel : Nat) (sa : Bool) (h0 : bmiInitialize env lines = .ok s0) (hN : s0.p.numLayers = 1) (hg : PhysGeo s0.geo)
    (hso : s0.geo.soil 1 = .ok so) (hlam : 0 < so.bcLambda) (hpsib : 0 ≤ so.bcPsib) (hpsi : 0 ≤ s0.p.initialPsi)
    (hinc : s0.p.cum.Pairwise (· < ·)) (hpond : 0 ≤ s0.p.pondMax) (hcal : s0.p.calibFlag = false)
    (hr : Run s0 hist s) (hi : Inputs s s1) (hsol : UpdateSolved fuel sa s1) :
    update fuel sa s1 ≠ .error (.abort "local mass balance larger than expected") := by
  obtain ⟨column, hc⟩ := Level.init h0 hN hso hg hlam hpsib hpsi hinc hpond hcal
  obtain ⟨cfg, _, hl, _⟩ := bmiInitialize_inv h0
  obtain ⟨h1, h2⟩ := hc.run (lgarInit_valid hl) hr
  have h3 := h1.inputs hi
  have : NS (update fuel sa s1) := by
    unfold update
    split
    · exact NS.ok
    · refine NS.bind NS.updatePre fun x hx => ?_
      obtain ⟨s2, d⟩ := x
      refine NS.bind NS.massBal fun v hv => ?_
      obtain ⟨ho, hs⟩ := h3.start fuel sa hx hv
      refine NS.bind (hs.loop_ns ho ((hsol.of_ok hx).of_ok hv)) fun u _ => NS.updatePost
  exact this.ne

end Exact

namespace Stops

/-- The condition on the closed form's parameters in C64_single_layer_partial. -/
def BcTest (g : Geo Grid) : Prop := ∃ so, g.soil 1 = .ok so ∧ 0 < so.bcLambda ∧ 0 ≤ so.bcPsib

instance (g : Geo Grid) : Decidable (BcTest g) :=
  match h : g.soil 1 with
  | .ok so =>
    if hc : 0 < so.bcLambda ∧ 0 ≤ so.bcPsib then isTrue ⟨so, h, hc⟩
    else isFalse (by rintro ⟨so', e, hc'⟩; rw [h, Except.ok.injEq] at e; subst e; exact hc hc')
  | .error _ => isFalse (by rintro ⟨so', e, _⟩; rw [h] at e; exact absurd e (by simp))

/-- Test for the example below: in the last state there is a lone front, and the Update creates a second one. -/
def SoloTest (s0 s : State Grid) : Prop :=
  s0.p.numLayers = 1 ∧ PhysTest s0.geo ∧ BcTest s0.geo ∧ 0 ≤ s0.p.initialPsi ∧ s0.p.cum.Pairwise (· < ·) ∧ 0 ≤ s0.p.pondMax ∧
    s0.p.calibFlag = false ∧ s.head.length = 1 ∧ UpdateSolved 1000 true (Sample.feed (10, 0) s) ∧
    Sample.okAnd (update 1000 true (Sample.feed (10, 0) s)) (fun s2 => decide (s2.head.length = 2)) = true

instance (s0 s : State Grid) : Decidable (SoloTest s0 s) := by unfold SoloTest; infer_instance

theorem solo_check : Sample.okAnd (bmiInitialize Sample.env (cfg "20" "1" "100"))
    (fun s0 => Sample.okAnd (tfSteps 1000 true [(5, 0), (0, 1), (0, 0)] s0) fun s => decide (SoloTest s0 s)) = true := by
  decide +kernel

end Stops

open Stops in
attribute [local irreducible] cfg bmiInitialize update tfSteps UpdateSolved in
/-- The conditions of C64_single_layer_partial hold in a run of three Updates (rain, ET, nothing) with 10 mm/h of rain in the fourth. -/
example : ∃ (env : Env Grid) (lines : List (List Char)) (s0 s s1 : State Grid) (hist : List (State Grid)) (so : SoilProps Grid),
    bmiInitialize env lines = .ok s0 ∧ s0.p.numLayers = 1 ∧ PhysGeo s0.geo ∧ s0.geo.soil 1 = .ok so ∧ 0 < so.bcLambda ∧
      0 ≤ so.bcPsib ∧ 0 ≤ s0.p.initialPsi ∧ s0.p.cum.Pairwise (· < ·) ∧ 0 ≤ s0.p.pondMax ∧ s0.p.calibFlag = false ∧
      Run s0 hist s ∧ hist.length = 3 ∧ Inputs s s1 ∧ UpdateSolved 1000 true s1 ∧
      ∃ s2, update 1000 true s1 = .ok s2 ∧ s.head.length = 1 ∧ s2.head.length = 2 := by
  obtain ⟨s0, h0, h1⟩ := Sample.okAnd_get solo_check
  obtain ⟨s, hs, t1, t2, ⟨so, b1, b2, b3⟩, t3, t4, t5, t6, t7, t8, t9⟩ := Sample.okAnd_exists h1
  obtain ⟨hist, hr, hl⟩ := tfSteps_run .nil hs
  obtain ⟨s2, hu, h2⟩ := Sample.okAnd_exists t9
  exact ⟨_, _, s0, s, Sample.feed (10, 0) s, hist, so, h0, t1, t2.phys, b1, b2, b3, t3, t4, t5, t6, hr.run, hl, ⟨_, _, _, _, rfl⟩, t8,
    s2, hu, t7, h2⟩

end LGAR
