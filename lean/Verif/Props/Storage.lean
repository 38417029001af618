import Verif.Lemmas.Storage
import Verif.Props.Anchor
import Verif.Props.Infil
import Verif.Props.Order
/-
C91: the storage stays between that of a residually dry and that of a saturated column.
-/
set_option linter.unusedSectionVars false
namespace LGAR

/-- Residual moisture of layer `k` (0 if the layer has no soil). -/
def resTheta {K : Type} [Field K] [LinearOrder K] [CMath K] (g : Geo K) (k : Nat) : K :=
  match g.soil k with | .ok s => s.thetaR | .error _ => 0

section Exact
variable {K : Type} [Field K] [LinearOrder K] [IsStrictOrderedRing K] [CMath K] [LawfulNum K]

/-- C91 for any profile of any number of layers: if the layers are stacked, the depths are in order and start below the surface, and
every moisture is between two bounds of its layer, then the storage that the code computes is between that of columns filled to these
bounds. -/
theorem C91_profile (N : Nat) (cum : List K) (l : List (Front K)) (lo hi : Nat → K) (v : K) (hcol : Column N cum l)
    (h0 : cum[0]? = some 0) (hpos : ∀ f ∈ l.head?, 0 ≤ f.depth) (ho : DepthOrder l) (hb : MoistureWithin lo hi l)
    (hv : massBal cum l = .ok v) : filledTo lo cum N ≤ v ∧ v ≤ filledTo hi cum N := by
  have hc := (column_iff _ _ _).mp hcol
  have ht : layerTop cum 1 = 0 := by unfold layerTop; rw [List.getD_eq_getElem?_getD, h0]; rfl
  have hN : 1 ≤ N := by
    obtain ⟨f, hf⟩ := List.exists_mem_of_ne_nil l hc.ne_nil
    have := hc.range f hf
    omega
  have hfill : ∀ th : Nat → K, filledTo th cum N = fillBelow th cum N 1 (layerTop cum 1) := by
    intro th
    unfold filledTo fillBelow
    obtain ⟨d, rfl⟩ : ∃ d, N = d + 1 := ⟨N - 1, by omega⟩
    rw [List.range'_succ, List.map_cons, List.sum_cons, Nat.add_sub_cancel]
  have key := waterBelow_range (above := none) hc ho
    (fun f hf => by show layerTop cum 1 ≤ _; rw [ht]; exact hpos f hf) hb
  rw [massBal_val hv, ← water_eq_mass, hfill, hfill]
  exact key

theorem massBal_of_run {cum : List K} {l : List (Front K)} (h : LayersInRange cum l) : massBal cum l = .ok (water cum l) := by
  rw [massBal_eq cum l h, water_eq_mass]

end Exact

section Exact
variable {K : Type} [Field K] [LinearOrder K] [IsStrictOrderedRing K] [CMath K] [LawfulNum K] [LawfulPow K] [LawfulMono K]

theorem uncalibrated_run {s0 s : State K} {hist : List (State K)} (hv : s0.p.invalidSoil = false) (hc : s0.p.calibFlag = false)
    (hr : Run s0 hist s) : s.p.invalidSoil = false ∧ s.p.calibFlag = false ∧ s.p.pondMax = s0.p.pondMax ∧
      s.mb.volcalib = s0.mb.volcalib ∧ ∀ x ∈ hist, x.p.pondMax = s0.p.pondMax := by
  induction hr with
  | nil => exact ⟨hv, hc, rfl, rfl, by simp⟩
  | @step hist s s1 s2 fuel sa hr hi hu ih =>
    obtain ⟨i1, i2, i3, i4, i5⟩ := ih
    obtain ⟨pr, pet, temp, cal, rfl⟩ := hi
    have key : s2.p.invalidSoil = false ∧ s2.p.calibFlag = false ∧ s2.p.pondMax = s0.p.pondMax ∧
        s2.mb.volcalib = s0.mb.volcalib := by
      rcases update_inv hu with ⟨hi, _⟩ | ⟨_, s1, d, v, u, h1, hm, hl, h2⟩
      · exact absurd hi (by rw [show (State.p _).invalidSoil = s.p.invalidSoil from rfl, i1]; simp)
      obtain ⟨_, _, _, _, _, _, _, _, _, _, _, _, hp, hmb, _⟩ := updatePost_inv h2
      obtain ⟨_, _, fs, soils, l, fc, pm, q, _, rfl, _, ⟨hc, _⟩ | ⟨_, rfl, rfl, rfl, rfl, rfl⟩⟩ := updatePre_inv h1
      · exact absurd hc (by rw [show (State.p _).calibFlag = s.p.calibFlag from rfl, i2]; simp)
      · rw [hp, hmb]
        refine ⟨i1, rfl, i3, ?_⟩
        show s.mb.volcalib + 0 = _
        rw [add_zero, i4]
    refine ⟨key.1, key.2.1, key.2.2.1, key.2.2.2, fun x hx => ?_⟩
    rcases List.mem_append.mp hx with hx | hx
    · exact i5 x hx
    · rw [List.mem_singleton.mp hx]; exact key.2.2.1

/-- C91 in any run of a column of any number of layers, with or without calibration: whenever the fronts are stacked and in depth order,
the storage is between that of a residually dry and that of a saturated column.  Missing for the full statement: states in which they
are not (C15_cross_stray_fails, C65_order_fails). -/
theorem C91_run_partial (env : Env K) (lines : List (List Char)) (s0 s : State K) (hist : List (State K))
    (h0 : bmiInitialize env lines = .ok s0) (hg : PhysGeo s0.geo) (hpsi : 0 ≤ s0.p.initialPsi)
    (hinc : s0.p.cum.Pairwise (· < ·))
    (hcal : s0.p.calibFlag = true →
      DistinctTypes s0.p.layerSoilType s0.p.numLayers ∧ ∀ a, hist.head? = some a → PhysGeo a.geo)
    (hr : Run s0 hist s) (hcol : Column s0.p.numLayers s0.p.cum s.head) (hpos : ∀ f ∈ s.head.head?, 0 ≤ f.depth)
    (ho : DepthOrder s.head) :
    filledTo (resTheta s.geo) s0.p.cum s0.p.numLayers ≤ water s0.p.cum s.head ∧
      water s0.p.cum s.head ≤ filledTo (satTheta s.geo) s0.p.cum s0.p.numLayers := by
  have hz : s0.p.cum[0]? = some 0 := by
    obtain ⟨cfg, _, hl, _⟩ := bmiInitialize_inv h0
    obtain ⟨ts, file, fl, soils, cnt, thick, psi, dt, endt, wp, fc, res, ords, inv, giuh, soilZ, q, depth, vs, cs, _, _, _, _, _,
      _, _, _, _, _, _, _, _, _, _, _, _, _, _, _, _, _, _, _, hs⟩ := lgarInit_inv hl
    rw [hs]; rfl
  have hb := C56_run env lines s0 s hist h0 hg hpsi hinc hcal hr
  have hlr : LayersInRange s0.p.cum s.head := by
    intro f hf
    have hc := (column_iff _ _ _).mp hcol
    refine ⟨(hc.range f hf).1, ?_⟩
    obtain ⟨x, hx, _, _, _, hd⟩ := C14_bottom_depth env lines s0 s hist h0 hinc hr
    have := (List.getElem?_eq_some_iff.mp hd).1
    have := (hc.range f hf).2
    omega
  refine C91_profile _ _ s.head _ _ _ hcol hz hpos ho ?_ (massBal_of_run hlr)
  intro f hf
  obtain ⟨so, e, q1, q2, _⟩ := hb f hf
  unfold resTheta satTheta
  rw [e]
  exact ⟨q1, q2⟩

/-- C91 for a column of one layer, in any run with any inputs: the storage is never below that of a residually dry column, nor below
that of a column with the moisture of its last front; and it is not above that of a column with the moisture of its first front, so
not above saturation, unless the first front is saturated and lies below the bottom.  The depths need not be in order (they are not,
C65_order_fails).  The exception occurs (C65_bottom_fails); C91_single_layer_cap has the upper bound for it too.  Missing for the full
statement: columns of several layers whose fronts are out of order. -/
theorem C91_single_layer_partial (env : Env K) (lines : List (List Char)) (s0 s : State K) (hist : List (State K)) (so : SoilProps K)
    (h0 : bmiInitialize env lines = .ok s0) (hN : s0.p.numLayers = 1) (hg : PhysGeo s0.geo)
    (hso : s0.geo.soil 1 = .ok so) (hlam : 0 < so.bcLambda) (hpsib : 0 ≤ so.bcPsib) (hpsi : 0 ≤ s0.p.initialPsi)
    (hinc : s0.p.cum.Pairwise (· < ·)) (hpond : 0 ≤ s0.p.pondMax) (hcal : s0.p.calibFlag = false) (hr : Run s0 hist s) :
    ∃ column first last, s0.p.cum[1]? = some column ∧ s.head.head? = some first ∧ s.head.getLast? = some last ∧
      so.thetaR * column ≤ water s.p.cum s.head ∧ last.theta * column ≤ water s.p.cum s.head ∧
      (water s.p.cum s.head ≤ first.theta * column ∧ water s.p.cum s.head ≤ so.thetaE * column ∨
        column < first.depth ∧ first.theta = so.thetaE) := by
  obtain ⟨column, hc⟩ := Level.init h0 hN hso hg hlam hpsib hpsi hinc hpond hcal
  obtain ⟨cfg, _, hl, _⟩ := bmiInitialize_inv h0
  obtain ⟨h1, -⟩ := hc.run (lgarInit_valid hl) hr
  obtain ⟨b, b1, -, -, -, b2⟩ := C14_bottom_depth_single_layer env lines s0 s hist h0 hinc hN hr
  have hcb : b.depth = column := by
    have := hc.col
    rw [b2, Option.some.injEq] at this; exact this
  have ht := h1.tidy
  obtain ⟨f, hf⟩ : ∃ f, s.head.head? = some f := by
    cases hh : s.head with
    | nil => rw [hh] at b1; simp at b1
    | cons x t => exact ⟨x, rfl⟩
  have hpos : ∀ x ∈ s.head, 0 < x.depth := by
    intro x hx
    cases hh : s.head with
    | nil => rw [hh] at hx; simp at hx
    | cons y t =>
      rw [hh, List.mem_cons] at hx
      rcases hx with rfl | hx
      · exact ht.top x (by rw [hh]; simp)
      · exact (ht.neat.tail x (by rw [hh]; exact hx)).1
  obtain ⟨m1, m2⟩ := mass_one (column := column) h1.surf ht.neat.lay ht.neat.dry hpos b1
  have hbd : ∀ x ∈ s.head, so.thetaR ≤ x.theta ∧ x.theta ≤ so.thetaE := by
    intro x hx
    obtain ⟨so', e, q1, q2, _⟩ := ht.fine.bd x hx
    rw [ht.neat.lay x hx, h1.soil, Except.ok.injEq] at e
    subst e
    exact ⟨q1, q2⟩
  have hbm : b ∈ s.head := List.mem_of_getLast? b1
  have hfm : f ∈ s.head := List.mem_of_head? hf
  rw [water_eq_mass]
  rw [hcb] at m1
  refine ⟨column, f, b, hc.col, hf, b1, ?_, by rw [mul_comm]; exact m1, ?_⟩
  · refine le_trans ?_ m1
    rw [mul_comm]
    exact mul_le_mul_of_nonneg_left (hbd b hbm).1 hc.pos.le
  · by_cases hd : f.depth ≤ column
    · left
      have hall : ∀ x ∈ s.head, x.depth ≤ column := by
        intro x hx
        cases hh : s.head with
        | nil => rw [hh] at hx; simp at hx
        | cons y t =>
          rw [hh, List.mem_cons] at hx
          rw [hh, List.head?_cons, Option.some.injEq] at hf
          rcases hx with rfl | hx
          · rw [hf]; exact hd
          · exact (ht.neat.tail x (by rw [hh]; exact hx)).2
      have := m2 hall hcb f hf
      rw [mul_comm f.theta, mul_comm so.thetaE]
      exact ⟨this, this.trans (mul_le_mul_of_nonneg_left (hbd f hfm).2 hc.pos.le)⟩
    · right
      exact ⟨not_le.mp hd, (ht.neat.head f hf).resolve_left fun h => hd h.2⟩

/-- A column of one layer cannot lose more than it has: in any run, ET and percolation together are at most the water infiltrated and the
initial storage above that of a residually dry column, up to the tolerance of the check in every sub-timestep. -/
theorem C91_losses (env : Env K) (lines : List (List Char)) (s0 s : State K) (hist : List (State K)) (so : SoilProps K)
    (h0 : bmiInitialize env lines = .ok s0) (hN : s0.p.numLayers = 1) (hg : PhysGeo s0.geo)
    (hso : s0.geo.soil 1 = .ok so) (hlam : 0 < so.bcLambda) (hpsib : 0 ≤ so.bcPsib) (hpsi : 0 ≤ s0.p.initialPsi)
    (hinc : s0.p.cum.Pairwise (· < ·)) (hpond : 0 ≤ s0.p.pondMax) (hcal : s0.p.calibFlag = false) (hr : Run s0 hist s)
    (hne : hist ≠ []) :
    ∃ column, s0.p.cum[1]? = some column ∧ s.mb.volAET + s.mb.volrech ≤
      s.mb.volin + (water s0.p.cum s0.head - so.thetaR * column) + (s.p.timesteps : K) * (1e-4 + 1e-12) := by
  obtain ⟨column, f, b, c1, _, _, c2, _⟩ := C91_single_layer_partial env lines s0 s hist so h0 hN hg hso hlam hpsib hpsi hinc hpond hcal hr
  obtain ⟨cfg, _, hl, _⟩ := bmiInitialize_inv h0
  obtain ⟨_, _, _, e4, e5⟩ := uncalibrated_run (lgarInit_valid hl) hcal hr
  have hp : ∀ x ∈ hist, 0 ≤ x.p.pondMax := fun x hx => by rw [e5 x hx]; exact hpond
  obtain ⟨b1, b2, b3⟩ := C01_global_balance env lines s0 s hist h0 hr hne hp
  obtain ⟨b4, b5⟩ := C61_surface_balance env lines s0 s hist h0 hr hne hp
  have z : s0.mb.volcalib = 0 := by
    obtain ⟨ts, file, fl, soils, cnt, thick, psi, dt, endt, wp, fc, res, ords, inv, giuh, soilZ, q, depth, vs, cs, _, _, _, _, _,
      _, _, _, _, _, _, _, _, _, _, _, _, _, _, _, _, _, _, _, hs⟩ := lgarInit_inv hl
    rw [hs]
  refine ⟨column, c1, ?_⟩
  rw [e4, z, b3] at b1
  rw [← b2]
  rw [abs_le] at b1
  linarith [b1.1]

end Exact

/- Cases meeting the hypotheses. -/

/-- C91_profile: three fronts in two layers. -/
example : Column 2 [0, 10, 30] Sample.col3 ∧ DepthOrder Sample.col3 ∧ MoistureWithin (fun _ => 1/10) (fun _ => 3/10) Sample.col3 ∧
    massBal (α := ℚ) [0, 10, 30] Sample.col3 = .ok (44/10) ∧
    filledTo (K := ℚ) (fun _ => 1/10) [0, 10, 30] 2 = 3 ∧ filledTo (K := ℚ) (fun _ => 3/10) [0, 10, 30] 2 = 9 := by
  unfold DepthOrder MoistureWithin
  decide +kernel

/-- C91_profile needs the order: a column of one layer with a front below the next one can hold more than a saturated one. -/
example : ∃ l : List (Front ℚ), Column 1 [0, 10] l ∧ ¬ DepthOrder l ∧ MoistureWithin (fun _ => 1/10) (fun _ => 3/10) l ∧
    massBal (α := ℚ) [0, 10] l = .ok 5 ∧ filledTo (K := ℚ) (fun _ => 3/10) [0, 10] 1 = 3 := by
  refine ⟨[Sample.fr 20 (3/10) 1 1 false, Sample.fr 10 (1/10) 1 2 true], ?_⟩
  unfold DepthOrder MoistureWithin
  decide +kernel

/-- C91_single_layer_partial and C91_losses: the run of C65_order_fails, whose fronts are out of order. -/
example : ∃ (env : Env Grid) (lines : List (List Char)) (s0 s : State Grid) (hist : List (State Grid)) (so : SoilProps Grid),
    bmiInitialize env lines = .ok s0 ∧ s0.p.numLayers = 1 ∧ PhysGeo s0.geo ∧ s0.geo.soil 1 = .ok so ∧ 0 < so.bcLambda ∧
      0 ≤ so.bcPsib ∧ 0 ≤ s0.p.initialPsi ∧ s0.p.cum.Pairwise (· < ·) ∧ 0 ≤ s0.p.pondMax ∧ s0.p.calibFlag = false ∧
      Run s0 hist s ∧ hist ≠ [] ∧ ¬ DepthOrder s.head := by
  obtain ⟨env, lines, s0, s, hist, so, h0, h1, h2, h3, h4, h5, h6, h7, h8, h9, h10, h11, _, h12⟩ := C65_order_fails
  exact ⟨env, lines, s0, s, hist, so, h0, h1, h2, h3, h4, h5, h6, h7, h8, h9, h10.run, by rintro rfl; simp at h11, h12⟩

namespace Stops

/-- Test for the example below. -/
def FillTest (s0 s : State Grid) : Prop :=
  PhysTest s0.geo ∧ 0 ≤ s0.p.initialPsi ∧ s0.p.cum.Pairwise (· < ·) ∧ s0.p.calibFlag = false ∧ s0.p.numLayers = 2 ∧
    Column s0.p.numLayers s0.p.cum s.head ∧ (∀ f ∈ s.head.head?, 0 ≤ f.depth) ∧ DepthOrder s.head ∧ s.head.length = 3

instance (s0 s : State Grid) : Decidable (FillTest s0 s) := by unfold FillTest; infer_instance

theorem fill_check : Sample.okAnd (bmiInitialize envMix (cfg "5,100" "1,2" "50"))
    (fun s0 => Sample.okAnd (tfSteps 1000 true [(5, 1)] s0) fun s => decide (FillTest s0 s)) = true := by
  decide +kernel

end Stops

open Stops in
attribute [local irreducible] envMix cfg bmiInitialize update tfSteps in
/-- C91_run_partial: a run over two layers. -/
example : ∃ (env : Env Grid) (lines : List (List Char)) (s0 s : State Grid) (hist : List (State Grid)),
    bmiInitialize env lines = .ok s0 ∧ PhysGeo s0.geo ∧ 0 ≤ s0.p.initialPsi ∧ s0.p.cum.Pairwise (· < ·) ∧ s0.p.calibFlag = false ∧
      Run s0 hist s ∧ s0.p.numLayers = 2 ∧ Column s0.p.numLayers s0.p.cum s.head ∧ (∀ f ∈ s.head.head?, 0 ≤ f.depth) ∧
      DepthOrder s.head ∧ s.head.length = 3 := by
  obtain ⟨s0, h0, h1⟩ := Sample.okAnd_get fill_check
  obtain ⟨s, hs, t1, t2, t3, t4, t5, t6⟩ := Sample.okAnd_exists h1
  obtain ⟨hist, hr, hl⟩ := tfSteps_run .nil hs
  exact ⟨_, _, s0, s, hist, h0, t1.phys, t2, t3, t4, hr.run, t5, t6⟩

end LGAR
