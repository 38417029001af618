import Verif.Lemmas.McLoop
import Verif.Props.Correction
/-
C108: the mass correction closes the water balance before it reaches its limit.
-/
set_option linter.unusedSectionVars false
namespace LGAR

section Exact
variable {K : Type} [Field K] [LinearOrder K] [IsStrictOrderedRing K] [CMath K] [LawfulNum K]

/-- C108.  Let `w` be the front that supplies the ET demand, saturated, above another front of its layer that is drier by at most 1.
Let `T` be the water that the column should hold.  If no more than 49 cm are missing, and no more than 0.04 cm are too much, then the
correction ends with the water at `T` up to 2e-10, and leaves ET and percolation as they are: it does not run into its limit of 10000
rounds (lgar.cxx 1370-1375), after which the rest would be booked as ET and percolation (C59_outcome). -/
theorem C108_closes (g : Geo K) (oldMass precip aet aet' flux : K) (l l1 l' : List (Front K)) (w n : Front K) (s : SoilProps K) (p : Nat)
    (h : moveTop g oldMass precip l aet = .ok (l', aet', flux)) (hcross : crossLayer g l = .ok l1) (hr : LayersInRange g.cum l1)
    (hp : listFindFront (Int.ofNat (wettingFrontFreeDrainage l1)) l1 [] = some p)
    (hw : l1[p]? = some w) (hn : l1[p + 1]? = some n) (hl : w.layer = n.layer) (hb : w.toBottom = false)
    (hs : g.soil (wettingFrontFreeDrainage l1) = .ok s) (hsat : |w.theta - s.thetaE| < 1e-15)
    (hdry : n.theta < w.theta) (hone : w.theta - n.theta ≤ 1)
    (hup : oldMass + precip - aet ≤ water g.cum l1 + 49) (hdn : water g.cum l1 ≤ oldMass + precip - aet + 0.04) :
    |water g.cum l' - (oldMass + precip - aet)| ≤ 2e-10 ∧ aet' = aet ∧ flux = 0 ∧
      ∃ d, l' = l1.set p { w with depth := d } := by
  obtain ⟨column, fac, st0, st, brk, hf, ha, h1, h2, h3, h4, h5, f1, f2, hmc, hm, hok, _, ⟨d, hd⟩, hl'⟩ :=
    moveTop_loop h hcross hr hp hw hn hl hb hs hsat hdry hone
  rw [water_eq_mass] at hup hdn
  have hbrk : brk = false := by
    refine mcLoop_start (q := 4990) hf le_rfl ha h1 ?_ ?_ hmc
    · rw [h4]; exact lt_of_lt_of_le (by norm_num) f1
    · simp only [mcGap, mcDown, h2, h4, h5, Bool.false_eq_true, if_false]
      rcases lt_or_ge 0 (oldMass + precip - aet - mass g.cum l1) with hg | hg
      · refine .inl ⟨hg, ?_, f2⟩
        norm_num at f1 ⊢
        linarith
      · refine .inr ⟨hg, ?_, ?_⟩
        · norm_num at f1 hdn ⊢
          linarith
        · norm_num at f2 ⊢
          linarith
  obtain ⟨o1, o2⟩ := hok hbrk
  simp only [Prod.mk.injEq] at o2
  obtain ⟨rfl, rfl, rfl⟩ := o2
  rw [massBal_water hm] at o1
  exact ⟨o1, rfl, rfl, d, hd⟩

/-- C108, why the bound on the surplus is needed: the steps down are a thousand times smaller than the steps up, so with more than
10.1 cm too much the correction always runs into its limit: part of the surplus stays in the column, is booked as ET on top of the
demand, and twice as negative percolation. -/
theorem C108_surplus (g : Geo K) (oldMass precip aet aet' flux : K) (l l1 l' : List (Front K)) (w n : Front K) (s : SoilProps K) (p : Nat)
    (h : moveTop g oldMass precip l aet = .ok (l', aet', flux)) (hcross : crossLayer g l = .ok l1) (hr : LayersInRange g.cum l1)
    (hp : listFindFront (Int.ofNat (wettingFrontFreeDrainage l1)) l1 [] = some p)
    (hw : l1[p]? = some w) (hn : l1[p + 1]? = some n) (hl : w.layer = n.layer) (hb : w.toBottom = false)
    (hs : g.soil (wettingFrontFreeDrainage l1) = .ok s) (hsat : |w.theta - s.thetaE| < 1e-15)
    (hdry : n.theta < w.theta) (hone : w.theta - n.theta ≤ 1) (hbig : oldMass + precip - aet + 10.1 < water g.cum l1) :
    oldMass + precip - aet < water g.cum l' ∧ aet' = aet + (water g.cum l' - (oldMass + precip - aet)) ∧
      flux = -2 * (water g.cum l' - (oldMass + precip - aet)) := by
  obtain ⟨column, fac, st0, st, brk, hf, ha, h1, h2, h3, h4, h5, f1, f2, hmc, hm, _, hlim, _, hl'⟩ :=
    moveTop_loop h hcross hr hp hw hn hl hb hs hsat hdry hone
  rw [water_eq_mass] at hbig
  have hfar := mcLoop_far hf ha (by
      simp only [mcDown, h2, h4, Bool.false_eq_true, if_false]
      exact mul_pos (lt_of_lt_of_le (by norm_num) f1) (by norm_num)) (by rw [h3]; omega) (by
      simp only [mcGap, mcDown, h1, h2, h3, h4, h5, Bool.false_eq_true, if_false]
      norm_num at f2 hbig ⊢
      linarith) hmc
  have hgap := hfar.2
  simp only [mcGap] at hgap hl'
  rw [massBal_water hm, ← hl'] at hgap
  have e0 : (0 : K) < 2e-10 := by norm_num
  have hlt : oldMass + precip - aet < water g.cum l' := by linarith
  obtain ⟨c2, c3⟩ := hlim hfar.1
  simp only at c2 c3
  rw [massBal_water hm, ← hl'] at c2 c3
  rw [abs_of_pos (by linarith)] at c2
  exact ⟨hlt, c2, by rw [c3, c2]; ring⟩

end Exact

/- Cases and counterexamples. -/

section Rational
attribute [-instance] Rat.instOfScientific
open Sample

/-- A saturated front of 10 cm above a drier one, in one layer of 30 cm: 7 cm of water. -/
def capped : List (Front ℚ) := [fr 10 (4/10) 1 1 false, fr 30 (3/20) 1 2 true]

/-- Conditions of C108_closes on `capped` with 0.021 cm missing. -/
example : ∃ r, moveTop geoTop 7 (21/1000) capped 0 = .ok r ∧ crossLayer geoTop capped = .ok capped ∧
    listFindFront (Int.ofNat (wettingFrontFreeDrainage capped)) capped [] = some 0 ∧
    |water geoTop.cum r.1 - 7021/1000| ≤ 2e-10 ∧ r.2 = (0, 0) := by
  have hc : crossLayer geoTop capped = .ok capped := by decide +kernel
  have hp : listFindFront (Int.ofNat (wettingFrontFreeDrainage capped)) capped [] = some 0 := by decide +kernel
  have hwat : water geoTop.cum capped = 7 := by decide +kernel
  have hok : (moveTop geoTop 7 (21/1000) capped 0).isOk = true := by decide +kernel
  cases h : moveTop geoTop 7 (21/1000) capped 0 with
  | error e => rw [h] at hok; simp [Except.isOk, Except.toBool] at hok
  | ok r =>
    obtain ⟨l', aet', flux⟩ := r
    obtain ⟨h1, h2, h3, _⟩ := C108_closes geoTop 7 (21/1000) 0 aet' flux capped capped l' _ _ soilA 0 h hc
      (by unfold LayersInRange; decide +kernel) hp rfl rfl rfl rfl rfl (by norm_num [fr, soilA]) (by norm_num [fr]) (by norm_num [fr])
      (by rw [hwat]; norm_num) (by rw [hwat]; norm_num)
    refine ⟨_, rfl, hc, hp, ?_, by simp [h2, h3]⟩
    norm_num at h1 ⊢
    exact h1

/-- Conditions of C108_surplus on `capped`, with 10.5 cm too much: ET is raised and percolation is negative. -/
example : ∃ r, moveTop geoTop 1 0 capped (9/2) = .ok r ∧ 9/2 < r.2.1 ∧ r.2.2 < 0 := by
  have hc : crossLayer geoTop capped = .ok capped := by decide +kernel
  have hp : listFindFront (Int.ofNat (wettingFrontFreeDrainage capped)) capped [] = some 0 := by decide +kernel
  have hwat : water geoTop.cum capped = 7 := by decide +kernel
  have hr : LayersInRange geoTop.cum capped := by unfold LayersInRange; decide +kernel
  obtain ⟨⟨l', aet', flux⟩, h⟩ := moveTop_total (oldMass := 1) (precip := 0) (aet := 9/2) (g := geoTop) (s := soilA) rfl hc hr
    (by norm_num) hp rfl rfl rfl rfl rfl (by norm_num [fr])
  obtain ⟨h1, h2, h3⟩ := C108_surplus geoTop 1 0 (9/2) aet' flux capped capped l' _ _ soilA 0 h hc hr hp rfl rfl rfl rfl rfl
    (by norm_num [fr, soilA]) (by norm_num [fr]) (by norm_num [fr]) (by rw [hwat]; norm_num)
  refine ⟨_, h, ?_, ?_⟩
  · simp only; linarith
  · simp only; linarith

end Rational
end LGAR
