import Verif.Lemmas.Several
import Verif.Props.Saturation
import Verif.Props.Correction
/-
C26 and C59 for columns of one layer: ET between 0 and PET, no percolation from below.
-/
set_option linter.unusedSectionVars false
namespace LGAR

section Exact
variable {K : Type} [Field K] [LinearOrder K] [IsStrictOrderedRing K] [CMath K] [LawfulNum K] [LawfulPow K] [LawfulMono K]

theorem run_later {s0 s : State K} {hist : List (State K)} (hr : Run s0 hist s) : s0.p.timesteps ≤ s.p.timesteps := by
  induction hr with
  | nil => exact le_rfl
  | @step hist s s1 s2 fuel sa hr hi hu ih =>
    have := update_later hu
    obtain ⟨pr, pet, temp, cal, rfl⟩ := hi
    exact ih.trans this

theorem Level.books {column : K} {so : SoilProps K} {s s' : State K} {fuel : Nat} {sa : Bool} (h : Level column so s) (hone : so.thetaE ≤ 1)
    (hv : s.p.invalidSoil = false) (hc : Capped so.thetaE s.p.timesteps column (mass s.p.cum s.head)) (hl : UpdateLone fuel sa s)
    (hu : LGAR.update fuel sa s = .ok s') (hmax : column * so.thetaE + (s'.p.timesteps : K) * 2e-10 ≤ 49 + column * so.thetaR) :
    -(((s'.p.timesteps : K) - (s.p.timesteps : K)) * ((s'.p.timesteps : K) * 2e-10)) ≤ s'.mb.volAETT ∧
      s'.mb.volAETT ≤ s'.mb.volPETT ∧ 0 ≤ s'.mb.volrechT := by
  rcases update_inv hu with ⟨hi, _⟩ | ⟨_, s1, d, v, u, h1, hm, hloop, h2⟩
  · rw [hv] at hi; exact absurd hi (by simp)
  · obtain ⟨ho, hs⟩ := h.start fuel sa h1 hm
    have hlone := (hl.of_ok h1).of_ok hm
    obtain ⟨_, _, _, hh, _, hso, _, _, _, _, _, _, hpp, hmb, _⟩ := updatePost_inv h2
    obtain ⟨_, _, fs, soils, l, fc, pm, q, _, rfl, hfs, ⟨hc', _⟩ | ⟨_, rfl, rfl, rfl, rfl, _⟩⟩ := updatePre_inv h1
    · rw [h.calib] at hc'; exact absurd hc' (by simp)
    · rw [hpp] at hmax ⊢
      obtain ⟨b1, b2, b3⟩ := hs.loop_books ho hone hmax (by exact hc) hlone hloop le_rfl
      rw [hmb]
      simp only [subInit, sub_zero] at b1 b2 b3
      exact ⟨b1, b2, b3⟩

theorem one_layer_books {env : Env K} {lines : List (List Char)} {s0 s s1 s2 : State K} {hist : List (State K)} {so : SoilProps K}
    {column : K} {fuel : Nat} {sa : Bool}
    (h0 : bmiInitialize env lines = .ok s0) (hN : s0.p.numLayers = 1) (hg : PhysGeo s0.geo)
    (hso : s0.geo.soil 1 = .ok so) (hlam : 0 < so.bcLambda) (hpsib : 0 ≤ so.bcPsib) (hpsi : 0 ≤ s0.p.initialPsi)
    (hinc : s0.p.cum.Pairwise (· < ·)) (hpond : 0 ≤ s0.p.pondMax) (hcal : s0.p.calibFlag = false) (hone : so.thetaE ≤ 1)
    (hcol : s0.p.cum[1]? = some column) (hr : Run s0 hist s) (hi : Inputs s s1) (hl : UpdateLone fuel sa s1)
    (hu : update fuel sa s1 = .ok s2) (hmax : (so.thetaE - so.thetaR) * column + (s2.p.timesteps : K) * 2e-10 ≤ 49) :
    -(((s2.p.timesteps : K) - (s1.p.timesteps : K)) * ((s2.p.timesteps : K) * 2e-10)) ≤ s2.mb.volAETT ∧
      s2.mb.volAETT ≤ s2.mb.volPETT ∧ 0 ≤ s2.mb.volrechT := by
  obtain ⟨column', hc⟩ := Level.init h0 hN hso hg hlam hpsib hpsi hinc hpond hcal
  have e : column' = column := by
    have := hc.col
    rw [hcol, Option.some.injEq] at this; exact this.symm
  subst e
  obtain ⟨cfg, _, hli, _⟩ := bmiInitialize_inv h0
  obtain ⟨l1, l2⟩ := hc.run (lgarInit_valid hli) hr
  have li := l1.inputs hi
  have hlater := update_later hu
  obtain ⟨pr, pet, temp, cal, rfl⟩ := hi
  obtain ⟨col', e1, _, e3⟩ := C91_single_layer_cap env lines s0 s hist so h0 hN hg hso hlam hpsib hpsi hinc hpond hcal hone hr
  rw [hcol, Option.some.injEq] at e1
  subst e1
  have hcast : (s.p.timesteps : K) ≤ (s2.p.timesteps : K) := Int.cast_le.mpr hlater
  have hle : (s.p.timesteps : K) * 2e-10 ≤ (s2.p.timesteps : K) * 2e-10 := mul_le_mul_of_nonneg_right hcast (by norm_num)
  have hw := e3 (by linarith)
  rw [water_eq_mass, mul_comm] at hw
  have h0' : 0 ≤ s.p.timesteps := by
    have hz : s0.p.timesteps = 0 := by
      obtain ⟨ts, file, fl, soils, cnt, thick, psi, dt, endt, wp, fc, res, ords, inv, giuh, soilZ, q, depth, vs, cs, _, _, _, _, _,
        _, _, _, _, _, _, _, _, _, _, _, _, _, _, _, _, _, _, _, hs⟩ := lgarInit_inv hli
      rw [hs]
    rw [← hz]
    exact run_later hr
  exact li.books hone l2 ⟨h0', hw⟩ hl hu (by linarith)

/-- C26 for a column of one layer, in any run with any inputs: the ET an Update reports is at most the PET it reports, and not negative up
to 2e-10 cm per sub-timestep so far.  So with several fronts in the column neither the repair of a front over a wetter one nor the mass
correction spoils the ET (in columns of more layers both do: C26_negative, C26_limit_fails).  Missing for the full statement: in the
sub-timesteps that start with a single front this asks that the search for its moisture leaves no negative ET and that the correction does
not stop at its limit (UpdateLone), and the column is limited as in C91_single_layer_cap. -/
theorem C26_single_layer_partial (env : Env K) (lines : List (List Char)) (s0 s s1 s2 : State K) (hist : List (State K))
    (so : SoilProps K) (column : K) (fuel : Nat) (sa : Bool)
    (h0 : bmiInitialize env lines = .ok s0) (hN : s0.p.numLayers = 1) (hg : PhysGeo s0.geo)
    (hso : s0.geo.soil 1 = .ok so) (hlam : 0 < so.bcLambda) (hpsib : 0 ≤ so.bcPsib) (hpsi : 0 ≤ s0.p.initialPsi)
    (hinc : s0.p.cum.Pairwise (· < ·)) (hpond : 0 ≤ s0.p.pondMax) (hcal : s0.p.calibFlag = false) (hone : so.thetaE ≤ 1)
    (hcol : s0.p.cum[1]? = some column) (hr : Run s0 hist s) (hi : Inputs s s1) (hl : UpdateLone fuel sa s1)
    (hu : update fuel sa s1 = .ok s2) (hmax : (so.thetaE - so.thetaR) * column + (s2.p.timesteps : K) * 2e-10 ≤ 49) :
    -(((s2.p.timesteps : K) - (s1.p.timesteps : K)) * ((s2.p.timesteps : K) * 2e-10)) ≤ s2.mb.volAETT ∧
      s2.mb.volAETT ≤ s2.mb.volPETT := by
  obtain ⟨a, b, _⟩ := one_layer_books h0 hN hg hso hlam hpsib hpsi hinc hpond hcal hone hcol hr hi hl hu hmax
  exact ⟨a, b⟩

/-- C59 for a column of one layer, in any run with any inputs: the percolation an Update reports is not negative.  Missing as in
C26_single_layer_partial; without it the percolation can be negative (C59_fails). -/
theorem C59_single_layer_partial (env : Env K) (lines : List (List Char)) (s0 s s1 s2 : State K) (hist : List (State K))
    (so : SoilProps K) (column : K) (fuel : Nat) (sa : Bool)
    (h0 : bmiInitialize env lines = .ok s0) (hN : s0.p.numLayers = 1) (hg : PhysGeo s0.geo)
    (hso : s0.geo.soil 1 = .ok so) (hlam : 0 < so.bcLambda) (hpsib : 0 ≤ so.bcPsib) (hpsi : 0 ≤ s0.p.initialPsi)
    (hinc : s0.p.cum.Pairwise (· < ·)) (hpond : 0 ≤ s0.p.pondMax) (hcal : s0.p.calibFlag = false) (hone : so.thetaE ≤ 1)
    (hcol : s0.p.cum[1]? = some column) (hr : Run s0 hist s) (hi : Inputs s s1) (hl : UpdateLone fuel sa s1)
    (hu : update fuel sa s1 = .ok s2) (hmax : (so.thetaE - so.thetaR) * column + (s2.p.timesteps : K) * 2e-10 ≤ 49) :
    0 ≤ s2.mb.volrechT ∧ 0 ≤ s2.conv.rech := by
  have h := (one_layer_books h0 hN hg hso hlam hpsib hpsi hinc hpond hcal hone hcol hr hi hl hu hmax).2.2
  refine ⟨h, ?_⟩
  rcases update_inv hu with ⟨hb, _⟩ | ⟨_, sp, d, v, u, h1, hm, hlp, h2⟩
  · have hv := (run_routing h0 hr).1
    obtain ⟨pr, pet, temp, cal, rfl⟩ := hi
    rw [hv] at hb; simp at hb
  · obtain ⟨_, _, _, _, _, _, _, _, _, _, _, _, _, hmb, hconv⟩ := updatePost_inv h2
    rw [hmb] at h
    rw [hconv]
    exact mul_nonneg h (by norm_num)

end Exact

instance (fuel : Nat) (g : Geo Grid) (dt precip : Grid) (nFd : Nat) (oldMass aet : Grid) (prev l : List (Front Grid)) :
    Decidable (MoveLeaves fuel g dt precip nFd oldMass aet prev l) := by unfold MoveLeaves; infer_instance
instance (c : StepCfg Grid) (s : SubSt Grid) (b : Bool) (n : Nat) (x y z : Grid) : Decidable (FlowLeaves c s b n x y z) := by
  unfold FlowLeaves; infer_instance
instance (c : StepCfg Grid) (s : SubSt Grid) : Decidable (StepLeaves c s) := by unfold StepLeaves; infer_instance
instance decLoopLone (c : StepCfg Grid) : (n : Nat) → (s : SubSt Grid) → Decidable (LoopLone c n s)
  | 0, _ => isTrue trivial
  | n + 1, s =>
    have := decLoopLone c n
    inferInstanceAs (Decidable ((s.head.length = 1 → StepLeaves c s) ∧ Res.Holds (subStep c s) fun s' => LoopLone c n s'))
instance (fuel : Nat) (sa : Bool) (s : State Grid) : Decidable (UpdateLone fuel sa s) := by
  unfold UpdateLone; infer_instance

namespace Stops

/-- Test for the examples below: the values of the soil and the column, and an Update with rain and ET that starts with a single front. -/
def BooksTest (s0 : State Grid) : Prop :=
  s0.p.numLayers = 1 ∧ PhysTest s0.geo ∧ BcTest s0.geo ∧ 0 ≤ s0.p.initialPsi ∧ s0.p.cum.Pairwise (· < ·) ∧ 0 ≤ s0.p.pondMax ∧
    s0.p.calibFlag = false ∧ UpdateLone 1000 true (Sample.feed (5, 1) s0) ∧
    match s0.geo.soil 1, s0.p.cum[1]?, update 1000 true (Sample.feed (5, 1) s0) with
    | .ok so, some column, .ok s => so.thetaE ≤ 1 ∧ (so.thetaE - so.thetaR) * column + (s.p.timesteps : Grid) * 2e-10 ≤ 49 ∧
        s.head.length = 2 ∧ 0 < s.mb.volAETT ∧ s.mb.volAETT < s.mb.volPETT
    | _, _, _ => False

instance (s0 : State Grid) : Decidable (BooksTest s0) := by
  unfold BooksTest
  cases s0.geo.soil 1 <;> cases s0.p.cum[1]? <;> cases update 1000 true (Sample.feed (5, 1) s0) <;> infer_instance

theorem books_check : Sample.okAnd (bmiInitialize Sample.env (cfg "20" "1" "100")) (fun s0 => decide (BooksTest s0)) = true := by
  decide +kernel

end Stops

open Stops in
attribute [local irreducible] cfg bmiInitialize update in
/-- The conditions of C26_single_layer_partial and C59_single_layer_partial hold in an Update with rain and ET that turns a single front
into two. -/
example : ∃ (env : Env Grid) (lines : List (List Char)) (s0 s s1 s2 : State Grid) (hist : List (State Grid)) (so : SoilProps Grid)
    (column : Grid), bmiInitialize env lines = .ok s0 ∧ s0.p.numLayers = 1 ∧ PhysGeo s0.geo ∧ s0.geo.soil 1 = .ok so ∧ 0 < so.bcLambda ∧
      0 ≤ so.bcPsib ∧ 0 ≤ s0.p.initialPsi ∧ s0.p.cum.Pairwise (· < ·) ∧ 0 ≤ s0.p.pondMax ∧ s0.p.calibFlag = false ∧ so.thetaE ≤ 1 ∧
      s0.p.cum[1]? = some column ∧ Run s0 hist s ∧ Inputs s s1 ∧ UpdateLone 1000 true s1 ∧ update 1000 true s1 = .ok s2 ∧
      (so.thetaE - so.thetaR) * column + (s2.p.timesteps : Grid) * 2e-10 ≤ 49 ∧
      s2.head.length = 2 ∧ 0 < s2.mb.volAETT ∧ s2.mb.volAETT < s2.mb.volPETT := by
  obtain ⟨s0, h0, h1⟩ := Sample.okAnd_get books_check
  obtain ⟨t1, t2, ⟨so, b1, b2, b3⟩, t3, t4, t5, t6, t7, t8⟩ := of_decide_eq_true h1
  split at t8
  · rename_i so' column s2 e1 e2 e3
    rw [b1, Except.ok.injEq] at e1
    subst e1
    exact ⟨_, _, s0, s0, _, s2, [], so, column, h0, t1, t2.phys, b1, b2, b3, t3, t4, t5, t6, t8.1, e2, .nil, ⟨_, _, _, _, rfl⟩, t7, e3,
      t8.2⟩
  · exact t8.elim

end LGAR
