import Verif.Spec.Place
import Verif.Props.Single
import Verif.Props.Structure
/-
C65: where the fronts lie between two Updates.
-/
set_option linter.unusedSectionVars false
namespace LGAR

section Exact
variable {K : Type} [Field K] [LinearOrder K] [IsStrictOrderedRing K] [CMath K] [LawfulNum K] [LawfulPow K] [LawfulMono K]

/-- C65 for a column of one layer: with a physically meaningful soil and no calibration, in any run with any inputs, all fronts are in
layer 1, each is wetter than the next one, every front but the last moves down, all lie below the surface, and none below the
bottom of the column unless it is the first front and saturated.  Missing for the full statement: depth order (false,
C65_order_fails), and columns of several layers (there also the bound by the column is false, C65_column_fails). -/
theorem C65_single_layer_partial (env : Env K) (lines : List (List Char)) (s0 s : State K) (hist : List (State K)) (so : SoilProps K)
    (h0 : bmiInitialize env lines = .ok s0) (hN : s0.p.numLayers = 1) (hg : PhysGeo s0.geo)
    (hso : s0.geo.soil 1 = .ok so) (hlam : 0 < so.bcLambda) (hpsib : 0 ≤ so.bcPsib) (hpsi : 0 ≤ s0.p.initialPsi)
    (hinc : s0.p.cum.Pairwise (· < ·)) (hpond : 0 ≤ s0.p.pondMax) (hcal : s0.p.calibFlag = false) (hr : Run s0 hist s) :
    ∃ column, s0.p.cum[1]? = some column ∧ (∀ f ∈ s.head, f.layer = 1) ∧ WetterAbove s.head ∧ (∀ f ∈ s.head.dropLast, 0 < f.dzdt) ∧
      (∀ f ∈ s.head, 0 < f.depth) ∧ InColumn column s.head.tail ∧
      (∀ f ∈ s.head.head?, f.depth ≤ column ∨ (f.theta = so.thetaE ∧ 2 ≤ s.head.length)) := by
  obtain ⟨column, hc⟩ := Level.init h0 hN hso hg hlam hpsib hpsi hinc hpond hcal
  obtain ⟨cfg, _, hl, _⟩ := bmiInitialize_inv h0
  obtain ⟨h1, -⟩ := hc.run (lgarInit_valid hl) hr
  obtain ⟨b, b1, -, -, -, b2⟩ := C14_bottom_depth_single_layer env lines s0 s hist h0 hinc hN hr
  have hcb : column = b.depth := by
    have := hc.col
    rw [b2, Option.some.injEq] at this; exact this.symm
  have ht := h1.tidy
  refine ⟨column, hc.col, ht.neat.lay, ?_, ht.speed, ?_, ht.neat.tail, ?_⟩
  · intro i f n hf hn hlay
    exact strictlyDrying_iff.mp ht.neat.dry i f n hf hn hlay
  · intro f hf
    cases hl : s.head with
    | nil => rw [hl] at hf; simp at hf
    | cons x t =>
      rw [hl, List.mem_cons] at hf
      rcases hf with rfl | hf
      · exact ht.top f (by rw [hl]; simp)
      · exact (ht.neat.tail f (by rw [hl]; exact hf)).1
  · intro f hf
    by_cases h2 : 2 ≤ s.head.length
    · exact (ht.neat.head f hf).imp (fun h => h.2) fun h => ⟨h, h2⟩
    · left
      cases hl : s.head with
      | nil => rw [hl] at hf; simp at hf
      | cons x t =>
        have : t = [] := by
          rw [hl] at h2
          cases t with
          | nil => rfl
          | cons _ _ => simp at h2
        subst this
        rw [hl] at hf b1
        simp only [List.head?_cons, Option.mem_some_iff, List.getLast?_singleton, Option.some.injEq] at hf b1
        rw [← hf, b1, hcb]

end Exact

namespace Stops

/-- Environment with a sand and a clay, both with n = 2. -/
def envMix : Env Grid :=
  { Sample.env with files := fun _ => some ["name thr the alpha n Ks".toList, "sand 0.05 0.45 0.02 2 1.5".toList,
    "clay 0.08 0.42 0.015 2 0.2".toList] }

instance (l : List (Front Grid)) : Decidable (DepthOrder l) := by unfold DepthOrder; infer_instance

instance (c : Grid) (l : List (Front Grid)) : Decidable (InColumn c l) := by unfold InColumn; infer_instance

/-- Test for C65_order_fails. -/
def OrderTest (s0 s : State Grid) : Prop :=
  s0.p.numLayers = 1 ∧ PhysTest s0.geo ∧ BcTest s0.geo ∧ 0 ≤ s0.p.initialPsi ∧ s0.p.cum.Pairwise (· < ·) ∧ 0 ≤ s0.p.pondMax ∧
    s0.p.calibFlag = false ∧ s.head.length = 3 ∧ ¬ DepthOrder s.head

instance (s0 s : State Grid) : Decidable (OrderTest s0 s) := by unfold OrderTest; infer_instance

theorem order_check : Sample.okAnd (bmiInitialize envMix (cfg "40" "2" "1000"))
    (fun s0 => Sample.okAnd (tfSteps 1000 true [(0.5, 1), (0, 1), (0.5, 0), (0, 0), (60, 0)] s0) fun s => decide (OrderTest s0 s)) = true := by
  decide +kernel

/-- Test for C65_column_fails. -/
def BelowTest (s0 s : State Grid) : Prop :=
  PhysTest s0.geo ∧ 0 ≤ s0.p.initialPsi ∧ s0.p.cum.Pairwise (· < ·) ∧ s0.p.calibFlag = false ∧ s0.p.cum[2]? = some 105 ∧
    ∃ f ∈ s.head, 105 < f.depth

instance (s0 s : State Grid) : Decidable (BelowTest s0 s) := by unfold BelowTest; infer_instance

theorem below_check : Sample.okAnd (bmiInitialize envMix (cfg "5,100" "1,2" "50"))
    (fun s0 => Sample.okAnd (tfSteps 1000 true [(0, 0), (20, 1), (0, 0), (20, 1), (1, 0)] s0) fun s => decide (BelowTest s0 s)) = true := by
  decide +kernel

end Stops

open Stops in
attribute [local irreducible] envMix cfg bmiInitialize update tfSteps in
/-- C65 is false for a column of one layer: after five Updates of a clay column of 40 cm the first front lies below the second one.
The heavy rain of the last one makes a new front of 4.5 cm above two shallower ones; the single merge pass that follows (lgar.cxx
2159-2166) moves on after a merge (1573-1625), so the merged front is not compared with its new successor. -/
theorem C65_order_fails : ∃ (env : Env Grid) (lines : List (List Char)) (s0 s : State Grid) (hist : List (State Grid)) (so : SoilProps Grid),
    bmiInitialize env lines = .ok s0 ∧ s0.p.numLayers = 1 ∧ PhysGeo s0.geo ∧ s0.geo.soil 1 = .ok so ∧ 0 < so.bcLambda ∧
      0 ≤ so.bcPsib ∧ 0 ≤ s0.p.initialPsi ∧ s0.p.cum.Pairwise (· < ·) ∧ 0 ≤ s0.p.pondMax ∧ s0.p.calibFlag = false ∧
      TieFreeRun s0 hist s ∧ hist.length = 5 ∧ s.head.length = 3 ∧ ¬ DepthOrder s.head := by
  obtain ⟨s0, h0, h1⟩ := Sample.okAnd_get order_check
  obtain ⟨s, hs, t1, t2, ⟨so, b1, b2, b3⟩, t3, t4, t5, t6, t7, t8⟩ := Sample.okAnd_exists h1
  obtain ⟨hist, hr, hl⟩ := tfSteps_run .nil hs
  exact ⟨_, _, s0, s, hist, so, h0, t1, t2.phys, b1, b2, b3, t3, t4, t5, t6, hr, hl, t7, t8⟩

open Stops in
attribute [local irreducible] envMix cfg bmiInitialize update tfSteps in
/-- C65 is false for several layers also in the bound by the column: after five Updates of 5 cm of sand over 100 cm of clay a front
lies below the bottom of the column. -/
theorem C65_column_fails : ∃ (env : Env Grid) (lines : List (List Char)) (s0 s : State Grid) (hist : List (State Grid)),
    bmiInitialize env lines = .ok s0 ∧ PhysGeo s0.geo ∧ 0 ≤ s0.p.initialPsi ∧ s0.p.cum.Pairwise (· < ·) ∧
      s0.p.calibFlag = false ∧ TieFreeRun s0 hist s ∧ hist.length = 5 ∧ s0.p.cum[2]? = some 105 ∧ ¬ InColumn 105 s.head := by
  obtain ⟨s0, h0, h1⟩ := Sample.okAnd_get below_check
  obtain ⟨s, hs, t1, t2, t3, t4, t5, f, hf, hlt⟩ := Sample.okAnd_exists h1
  obtain ⟨hist, hr, hl⟩ := tfSteps_run .nil hs
  exact ⟨_, _, s0, s, hist, h0, t1.phys, t2, t3, t4, hr, hl, t5, fun h => absurd (h f hf).2 (not_le.mpr hlt)⟩

/-- The run of C65_order_fails meets the conditions of C65_single_layer_partial. -/
example : ∃ (env : Env Grid) (lines : List (List Char)) (s0 s : State Grid) (hist : List (State Grid)) (so : SoilProps Grid),
    bmiInitialize env lines = .ok s0 ∧ s0.p.numLayers = 1 ∧ PhysGeo s0.geo ∧ s0.geo.soil 1 = .ok so ∧ 0 < so.bcLambda ∧
      0 ≤ so.bcPsib ∧ 0 ≤ s0.p.initialPsi ∧ s0.p.cum.Pairwise (· < ·) ∧ 0 ≤ s0.p.pondMax ∧ s0.p.calibFlag = false ∧
      Run s0 hist s ∧ s.head.length = 3 := by
  obtain ⟨env, lines, s0, s, hist, so, h0, h1, h2, h3, h4, h5, h6, h7, h8, h9, h10, _, h11, _⟩ := C65_order_fails
  exact ⟨env, lines, s0, s, hist, so, h0, h1, h2, h3, h4, h5, h6, h7, h8, h9, h10.run, h11⟩

end LGAR
