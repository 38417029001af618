import Verif.Lemmas.Solver
import Verif.Spec.SampleRun
/-
C89: the search for the head at which the column holds its water.
-/
namespace LGAR

/-- C89.  A stack of slabs of meaningful soils holds the water `newMass` at the head `psi`, and there is a head `h'` at which it
holds exactly the water `prior`.  Then lgar_theta_mass_balance returns, it returns a number (not NaN), and this is the moisture
at some head `h` at least 0 with the following properties.  No slab is off from the solution by more than the whole stack is.
The stack is off by at most 1e-12 cm and the ET demand is unchanged; or the search gave up too wet, and what is too much is taken
off the ET demand except 1e-12, or not at all; or it gave up too dry, and then the ET demand is reduced, too, which doubles the
error, or unchanged. -/
theorem C89_solver (g : Geo ℝ) (layer : Nat) (s : SoilProps ℝ) (sl : List Slab) (dTheta dThick : List ℝ)
    (psi newMass prior aet h' : ℝ) (hd : SlabsOf g dTheta dThick layer sl) (ht : ∀ x ∈ sl, 0 ≤ x.thick)
    (hp : ∀ k q, 1 ≤ k → g.soil k = .ok q → q.Physical) (h1 : 1 ≤ layer) (hg : g.soil layer = .ok s)
    (hpsi : 0 ≤ psi) (hnew : newMass = stackWater sl psi) (hh : 0 ≤ h') (hsol : stackWater sl h' = prior) :
    ∃ h aet' N, (∀ fuel, N ≤ fuel →
        thetaMassBalance fuel g layer s psi newMass prior aet dTheta dThick = .ok (some (moistAt s h), aet')) ∧ 0 ≤ h ∧
      (∀ x ∈ sl, x.thick * |moistAt x.soil h - moistAt x.soil h'| ≤ |stackWater sl h - prior|) ∧
      ((|stackWater sl h - prior| ≤ 1e-12 ∧ aet' = aet) ∨
        (prior + 1e-12 < stackWater sl h ∧ (stackWater sl h + aet' = prior + aet + 1e-12 ∨ aet' = aet)) ∨
        (stackWater sl h < prior - 1e-12 ∧
          (stackWater sl h + aet' = prior + aet - 2 * (prior - stackWater sl h) + 1e-12 ∨ aet' = aet))) := by
  have hs : SlabsOk sl := by
    intro x hx
    obtain ⟨i, hi⟩ := List.mem_iff_getElem?.mp hx
    exact ⟨ht x hx, hp _ _ (by omega) (hd.2 i x hi).2.2⟩
  have hsat : prior ≤ stackWater sl 0 := by rw [← hsol]; exact stackWater_le hs le_rfl hh
  have hs0 := hp layer s h1 hg
  obtain ⟨r, hN0, N, hN1⟩ := thetaMassBalance_finishes (g := g) (layer := layer) (s := s) (dTheta := dTheta) (dThick := dThick)
    (prior := prior) (psi := psi) (newMass := newMass) (aet := aet)
    (fun k q hk hq => ⟨(hp k q hk hq).alpha, (hp k q hk hq).n_pos⟩) hs0.alpha hs0.n_pos
  dsimp only at hN1
  rcases thetaMassBalance_solves (aet := aet) hd hs h1 hg hsat (fuel := N) hpsi hnew with he | ⟨h, aet', he, k1, k3⟩
  · rw [hN1 N le_rfl] at he
    exact absurd he hN0
  refine ⟨h, aet', N, fun fuel hf => by rw [hN1 fuel hf, ← hN1 N le_rfl]; exact he, k1, fun x hx => ?_, ?_⟩
  · have := Slab.off_abs hs k1 hh hx
    rw [hsol] at this
    refine le_trans (le_of_eq ?_) this
    unfold Slab.water
    rw [← mul_sub, abs_mul, abs_of_nonneg (hs x hx).1]
    congr 2
    ring
  · rcases k3 with k3 | ⟨k3, k4⟩
    · exact .inl k3
    · rcases le_total prior (stackWater sl h) with hc | hc
      · rw [abs_of_nonneg (by linarith)] at k3 k4
        refine .inr (.inl ⟨by linarith, k4.imp_left fun e => by rw [e]; ring⟩)
      · rw [abs_of_nonpos (by linarith)] at k3 k4
        refine .inr (.inr ⟨by linarith, k4.imp_left fun e => by rw [e]; ring⟩)

namespace Grid

/-- A coarse sand (residual and saturated moisture, alpha as "Sand" of the shipped table, n = 3), one layer of 1 cm. -/
def coarse : SoilProps Grid := ⟨5 / 100, 38 / 100, 4 / 100, 3, 2 / 3, 0, 0, 0, 26, 0⟩
def coarseGeo : Geo Grid := ⟨1, [0, 1], [0, 1], [1, 1], [coarse, coarse]⟩

/-- The water of the layer at head 9e6, and a case with 0.1 cm more. -/
def coarseTest : Bool :=
  match calcThetaFromH (9000000 : Grid) coarse.vgAlpha coarse.vgM coarse.vgN coarse.thetaE coarse.thetaR with
  | .ok w => Sample.okAnd (thetaMassBalance 100 coarseGeo 1 coarse 9000000 (1 * (w - 0)) (w + 1 / 10) (1 / 100) [0, 0] [0, 1])
      (fun x => match x.1 with
        | some th => decide (th < w + 1 / 1000000 ∧ w + 1 / 10 < coarse.thetaE ∧ x.2 < -8 / 100)
        | none => false)
  | .error _ => false

theorem coarse_check : coarseTest = true := by decide +kernel

end Grid

/-- C89: giving up too dry happens.  A layer of coarse sand of 1 cm at head 9e6 cm is to take 0.1 cm of water, for which it has room
(saturated moisture is 0.38).  The water changes by less than 1e-15 in each of five steps, the search stops, the layer stays as
dry as it was, and the ET demand falls from 0.01 cm to below -0.08 cm: 0.1 cm is lost from the column and another 0.1 cm from the
demand. -/
theorem C89_too_dry_fails : ∃ (g : Geo Grid) (s : SoilProps Grid) (w th aet' : Grid), g.soil 1 = .ok s ∧
    calcThetaFromH 9000000 s.vgAlpha s.vgM s.vgN s.thetaE s.thetaR = .ok w ∧ w + 1 / 10 < s.thetaE ∧
    thetaMassBalance 100 g 1 s 9000000 (1 * (w - 0)) (w + 1 / 10) (1 / 100) [0, 0] [0, 1] = .ok (some th, aet') ∧
    th < w + 1 / 1000000 ∧ aet' < -8 / 100 := by
  have h := Grid.coarse_check
  unfold Grid.coarseTest at h
  split at h
  · rename_i w hw
    unfold Sample.okAnd at h
    split at h
    · rename_i x hx
      obtain ⟨o, a⟩ := x
      dsimp only at h
      split at h
      · rename_i th
        obtain ⟨h1, h2, h3⟩ := of_decide_eq_true h
        exact ⟨Grid.coarseGeo, Grid.coarse, w, th, a, rfl, hw, h2, hx, h1, h3⟩
      · cases h
    · cases h
  · cases h

/-- A case meeting the hypotheses of C89_solver: two layers of loam, 10 cm and 20 cm, at head 100, to be brought to head 50. -/
example : ∃ (g : Geo ℝ) (sl : List Slab), SlabsOf g [0, 0, 0] [0, 10, 20] 2 sl ∧ (∀ x ∈ sl, 0 ≤ x.thick) ∧
    (∀ k q, 1 ≤ k → g.soil k = .ok q → q.Physical) ∧ g.soil 2 = .ok loam ∧ stackWater sl 100 < stackWater sl 50 := by
  refine ⟨⟨2, [0, 10, 30], [0, 0, 0], [1, 1, 1], [loam]⟩, [⟨10, 0, loam⟩, ⟨20, 0, loam⟩], ⟨rfl, ?_⟩, ?_, ?_, rfl, ?_⟩
  · intro i x hx
    match i, hx with
    | 0, hx => cases hx; exact ⟨rfl, rfl, rfl⟩
    | 1, hx => cases hx; exact ⟨rfl, rfl, rfl⟩
  · intro x hx
    simp only [List.mem_cons, List.not_mem_nil, or_false] at hx
    rcases hx with rfl | rfl <;> norm_num
  · intro k q hk hq
    match k, hk, hq with
    | 1, _, hq => cases hq; exact loam_physical
    | 2, _, hq => cases hq; exact loam_physical
  · have := moistAt_lt loam_physical (h1 := 50) (h2 := 100) (by norm_num) (by norm_num)
    simp only [stackWater, List.map_cons, List.map_nil, List.sum_cons, List.sum_nil, Slab.water]
    linarith

end LGAR
