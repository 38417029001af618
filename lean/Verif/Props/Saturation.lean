import Verif.Lemmas.Cap
import Verif.Props.Single
import Verif.Props.Storage
import Verif.Props.Bottom
/-
C91 for columns of one layer: the storage does not exceed that of the saturated column, also when the first front lies below the bottom.
-/
set_option linter.unusedSectionVars false
namespace LGAR

section Exact
variable {K : Type} [Field K] [LinearOrder K] [IsStrictOrderedRing K] [CMath K] [LawfulNum K] [LawfulPow K] [LawfulMono K]

theorem update_later {s s' : State K} {fuel : Nat} {sa : Bool} (hu : LGAR.update fuel sa s = .ok s') : s.p.timesteps ≤ s'.p.timesteps := by
  rcases update_inv hu with ⟨_, rfl⟩ | ⟨_, s1, d, v, u, h1, hm, hl, h2⟩
  · exact le_rfl
  · obtain ⟨_, _, _, hh, _, hso, _, _, _, _, _, _, hpp, hmb, _⟩ := updatePost_inv h2
    obtain ⟨_, _, fs, soils, l, fc, pm, q, _, rfl, hfs, -⟩ := updatePre_inv h1
    have := subLoop_later hl
    rw [hpp]
    exact this

theorem Level.cap {column : K} {so : SoilProps K} {s s' : State K} {fuel : Nat} {sa : Bool} (h : Level column so s) (hone : so.thetaE ≤ 1)
    (hv : s.p.invalidSoil = false) (hc : Capped so.thetaE s.p.timesteps column (mass s.p.cum s.head)) (hu : LGAR.update fuel sa s = .ok s')
    (hmax : column * so.thetaE + (s'.p.timesteps : K) * 2e-10 ≤ 49 + column * so.thetaR) :
    Capped so.thetaE s'.p.timesteps column (mass s'.p.cum s'.head) := by
  rcases update_inv hu with ⟨hi, _⟩ | ⟨_, s1, d, v, u, h1, hm, hl, h2⟩
  · rw [hv] at hi; exact absurd hi (by simp)
  · obtain ⟨ho, hs⟩ := h.start fuel sa h1 hm
    obtain ⟨_, _, _, hh, _, hso, _, _, _, _, _, _, hpp, hmb, _⟩ := updatePost_inv h2
    obtain ⟨_, _, fs, soils, l, fc, pm, q, _, rfl, hfs, ⟨hc', _⟩ | ⟨_, rfl, rfl, rfl, rfl, _⟩⟩ := updatePre_inv h1
    · rw [h.calib] at hc'; exact absurd hc' (by simp)
    · rw [hpp] at hmax
      have hcap := hs.loop_cap ho hone (by exact hc) hl hmax
      rw [hpp, hh]
      exact hcap

theorem Level.cap_run {column : K} {so : SoilProps K} {s0 s : State K} {hist : List (State K)} (h0 : Level column so s0)
    (hone : so.thetaE ≤ 1) (hv : s0.p.invalidSoil = false) (hc : Capped so.thetaE s0.p.timesteps column (mass s0.p.cum s0.head))
    (hr : Run s0 hist s) (hmax : column * so.thetaE + (s.p.timesteps : K) * 2e-10 ≤ 49 + column * so.thetaR) :
    Capped so.thetaE s.p.timesteps column (mass s.p.cum s.head) := by
  induction hr with
  | nil => exact hc
  | @step hist s s1 s2 fuel sa hr hi hu ih =>
    obtain ⟨h1, h2⟩ := h0.run hv hr
    have hi' := h1.inputs hi
    have hlater := update_later hu
    obtain ⟨pr, pet, temp, cal, rfl⟩ := hi
    have hcast : (s.p.timesteps : K) ≤ (s2.p.timesteps : K) := Int.cast_le.mpr hlater
    have hle : (s.p.timesteps : K) * 2e-10 ≤ (s2.p.timesteps : K) * 2e-10 := mul_le_mul_of_nonneg_right hcast (by norm_num)
    exact hi'.cap hone h2 (ih (by linarith)) hu hmax

/-- C91 for a column of one layer, in any run with any inputs: the column holds at least the water of the residually dry column, and at
most that of the saturated one, up to 2e-10 cm per sub-timestep so far (the tolerance of the mass correction).  This also holds while the
first front lies below the bottom (C65_bottom_fails).  The column may be as deep as 49 cm of water between residual and saturated
moisture allow (the correction, which gives up after 10000 rounds, needs this). -/
theorem C91_single_layer_cap (env : Env K) (lines : List (List Char)) (s0 s : State K) (hist : List (State K)) (so : SoilProps K)
    (h0 : bmiInitialize env lines = .ok s0) (hN : s0.p.numLayers = 1) (hg : PhysGeo s0.geo)
    (hso : s0.geo.soil 1 = .ok so) (hlam : 0 < so.bcLambda) (hpsib : 0 ≤ so.bcPsib) (hpsi : 0 ≤ s0.p.initialPsi)
    (hinc : s0.p.cum.Pairwise (· < ·)) (hpond : 0 ≤ s0.p.pondMax) (hcal : s0.p.calibFlag = false) (hone : so.thetaE ≤ 1)
    (hr : Run s0 hist s) :
    ∃ column, s0.p.cum[1]? = some column ∧ so.thetaR * column ≤ water s.p.cum s.head ∧
      ((so.thetaE - so.thetaR) * column + (s.p.timesteps : K) * 2e-10 ≤ 49 →
        water s.p.cum s.head ≤ so.thetaE * column + (s.p.timesteps : K) * 2e-10) := by
  obtain ⟨column, f, b, c1, _, _, c2, _⟩ := C91_single_layer_partial env lines s0 s hist so h0 hN hg hso hlam hpsib hpsi hinc hpond hcal hr
  obtain ⟨column', hc⟩ := Level.init h0 hN hso hg hlam hpsib hpsi hinc hpond hcal
  have e : column' = column := by
    have := hc.col
    rw [c1, Option.some.injEq] at this; exact this.symm
  subst e
  obtain ⟨cfg, _, hl, _⟩ := bmiInitialize_inv h0
  refine ⟨column', c1, c2, fun hmax => ?_⟩
  have hz : s0.p.timesteps = 0 := by
    obtain ⟨ts, file, fl, soils, cnt, thick, psi, dt, endt, wp, fc, res, ords, inv, giuh, soilZ, q, depth, vs, cs, _, _, _, _, _,
      _, _, _, _, _, _, _, _, _, _, _, _, _, _, _, _, _, _, _, hs⟩ := lgarInit_inv hl
    rw [hs]
  have hstart : Capped so.thetaE s0.p.timesteps column' (mass s0.p.cum s0.head) := by
    obtain ⟨x, hx⟩ : ∃ x, s0.head = [x] := by
      obtain ⟨ts, file, fl, soils, cnt, thick, psi, dt, endt, wp, fc, res, ords, inv, giuh, soilZ, q, depth, vs, cs, _, _, _, _, _,
        _, _, _, _, _, _, _, _, _, _, _, _, _, _, _, _, _, hlen, _, hs⟩ := lgarInit_inv hl
      have : thick.length = 1 := by rw [← hN, hs]
      exact List.length_eq_one_iff.mp (hlen.symm.trans this)
    have ht := hc.tidy
    have hd := ht.fine.good.lastDepth x (by rw [hx]; rfl)
    have hd : s0.p.cum[s0.p.numLayers]? = some x.depth := hd
    rw [hN, c1, Option.some.injEq] at hd
    refine ⟨hz.ge, ?_⟩
    rw [hz, Int.cast_zero, zero_mul, add_zero]
    refine neat_mass (g := s0.geo) hN hc.surf c1 hc.pos ht.fine.good ht.neat.lay ht.neat.dry ?_ ?_
    · intro y hy
      rw [hx, List.mem_singleton] at hy
      subst hy
      rw [← hd]; exact ⟨hc.pos, le_rfl⟩
    · intro y hy
      obtain ⟨so', e, _, q2, _⟩ := ht.fine.bd y hy
      rw [ht.neat.lay y hy, hso, Except.ok.injEq] at e
      subst e
      exact q2
  have := (hc.cap_run hone (lgarInit_valid hl) hstart hr (by linarith)).2
  rw [water_eq_mass, mul_comm]
  exact this

end Exact

namespace Stops

/-- Test for the example below: the values of the soil and the column, and a second front. -/
def FullTest (s0 s : State Grid) : Prop :=
  s0.p.numLayers = 1 ∧ PhysTest s0.geo ∧ BcTest s0.geo ∧ 0 ≤ s0.p.initialPsi ∧ s0.p.cum.Pairwise (· < ·) ∧ 0 ≤ s0.p.pondMax ∧
    s0.p.calibFlag = false ∧ s.head.length = 2 ∧
    match s0.geo.soil 1, s0.p.cum[1]? with
    | .ok so, some column => so.thetaE ≤ 1 ∧ (so.thetaE - so.thetaR) * column + (s.p.timesteps : Grid) * 2e-10 ≤ 49
    | _, _ => False

instance (s0 s : State Grid) : Decidable (FullTest s0 s) := by
  unfold FullTest
  cases s0.geo.soil 1 <;> cases s0.p.cum[1]? <;> infer_instance

theorem full_check : Sample.okAnd (bmiInitialize Sample.env (cfg "20" "1" "100"))
    (fun s0 => Sample.okAnd (tfSteps 1000 true [(5, 0), (0, 1), (0, 0), (10, 0)] s0) fun s => decide (FullTest s0 s)) = true := by
  decide +kernel

end Stops

open Stops in
attribute [local irreducible] cfg bmiInitialize update tfSteps in
/-- The conditions of C91_single_layer_cap hold in a run of four Updates (rain, ET, nothing, rain) that ends with two fronts. -/
example : ∃ (env : Env Grid) (lines : List (List Char)) (s0 s : State Grid) (hist : List (State Grid)) (so : SoilProps Grid) (column : Grid),
    bmiInitialize env lines = .ok s0 ∧ s0.p.numLayers = 1 ∧ PhysGeo s0.geo ∧ s0.geo.soil 1 = .ok so ∧ 0 < so.bcLambda ∧
      0 ≤ so.bcPsib ∧ 0 ≤ s0.p.initialPsi ∧ s0.p.cum.Pairwise (· < ·) ∧ 0 ≤ s0.p.pondMax ∧ s0.p.calibFlag = false ∧ so.thetaE ≤ 1 ∧
      Run s0 hist s ∧ hist.length = 4 ∧ s.head.length = 2 ∧ s0.p.cum[1]? = some column ∧
      (so.thetaE - so.thetaR) * column + (s.p.timesteps : Grid) * 2e-10 ≤ 49 := by
  obtain ⟨s0, h0, h1⟩ := Sample.okAnd_get full_check
  obtain ⟨s, hs, t1, t2, ⟨so, b1, b2, b3⟩, t3, t4, t5, t6, t7, t8⟩ := Sample.okAnd_exists h1
  obtain ⟨hist, hr, hl⟩ := tfSteps_run .nil hs
  split at t8
  · rename_i so' column e1 e2
    rw [b1, Except.ok.injEq] at e1
    subst e1
    exact ⟨_, _, s0, s, hist, so, column, h0, t1, t2.phys, b1, b2, b3, t3, t4, t5, t6, t8.1, hr.run, hl, t7, e2, t8.2⟩
  · exact t8.elim

end LGAR
