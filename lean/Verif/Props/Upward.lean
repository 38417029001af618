import Verif.Props.LayerBooks
import Verif.Props.Capacity
/-
C109: no water leaves the soil through the surface.
-/
set_option linter.unusedSectionVars false
namespace LGAR

section Exact
variable {K : Type} [Field K] [LinearOrder K] [IsStrictOrderedRing K] [CMath K] [LawfulNum K] [LawfulPow K] [LawfulMono K]

/-- C109, an infiltration step of any layered column: the infiltrated water is not negative as long as the column holds no more water
than the saturated one, and otherwise at least the (negative) free space.  Conditions: the front that takes the water lies below the
surface and not above its layer, conductivities (with frost) are positive down to it, the moisture of the front below lies between the
residual and the saturated one, and the demand of ET is not negative. -/
theorem C109_step (fuel : Nat) (closed : Bool) (nint : Int) (g : Geo K) (dt aet ponded precip pondMax : K) (nFd : Nat)
    (l : List (Front K)) (fd h0 : Front K) (s : SoilProps K) (x runoff volin left : K) (hdt : 0 < dt) (haet : 0 ≤ aet) (hpd : 0 ≤ ponded)
    (hfd : derefOpt l (listFindFront (Int.ofNat nFd) l []) = .ok fd) (hh : l[0]? = some h0) (hs : g.soil fd.layer = .ok s)
    (hx : g.frozen[h0.layer]? = some x) (hz : g.cum[0]? = some 0) (h1 : 1 ≤ fd.layer) (hk : 0 < s.Ksat * x)
    (hd : 0 < fd.depth) (htop : layerTop g.cum fd.layer ≤ fd.depth)
    (hl : ∀ k p, 1 ≤ k → k < fd.layer → g.slab k = some p → 0 ≤ p.1 ∧ 0 < p.2)
    (hre : s.thetaR < s.thetaE) (hlam : 0 < s.bcLambda) (hpsib : 0 ≤ s.bcPsib)
    (hbelow : ∀ b, derefOpt l (listFindFront (Int.ofNat nFd + 1) l []) = .ok b → s.thetaR ≤ b.theta ∧ b.theta ≤ s.thetaE)
    (h : insertWater fuel closed nint g dt aet ponded 0 precip nFd pondMax l = .ok (runoff, volin, left)) :
    min (saturatedStorage g - water g.cum l) 0 ≤ volin := by
  obtain ⟨fp, hf, hpp⟩ := insertWater_inv h
  obtain ⟨p, hp, rfl⟩ := C86_limit fuel closed nint g dt aet ponded precip nFd l fp hf
  have hp0 : 0 ≤ p := by
    obtain ⟨G, g1, g2, hD, hgr⟩ := C85_green_ampt_partial fuel closed nint g dt aet ponded precip nFd l fd h0 s x p hfd hh hs hx hk.ne' hz h1 hp
    have hG : 0 ≤ G := by
      by_cases e : l.length = g.numLayers
      · rw [g1 e]
      · obtain ⟨b, hb, hG⟩ := g2 e
        obtain ⟨b1, b2⟩ := hbelow b hb
        exact capDrive_nonneg hre b1 b2 le_rfl hlam hpsib hG
    have hR : 0 ≤ slabsResist (g.stack fd.layer fd.depth (s.Ksat * x)) := by
      unfold slabsResist
      refine List.sum_nonneg fun y hy => ?_
      simp only [List.mem_map] at hy
      obtain ⟨q, hq, rfl⟩ := hy
      simp only [Geo.stack, List.mem_append, List.mem_filterMap, List.mem_range'_1, List.mem_singleton] at hq
      rcases hq with ⟨k, ⟨k1, k2⟩, hk'⟩ | rfl
      · obtain ⟨q1, q2⟩ := hl k q k1 (by omega) hk'
        exact div_nonneg q1 q2.le
      · exact div_nonneg (sub_nonneg.mpr htop) hk.le
    have hga : 0 ≤ greenAmpt (g.stack fd.layer fd.depth (s.Ksat * x)) G (max (ponded - precip * dt) 0) (s.Ksat * x) := by
      rw [greenAmpt, hD]
      have := le_max_right (ponded - precip * dt) 0
      exact add_nonneg (div_nonneg hd.le hR) (div_nonneg (mul_nonneg (by linarith) hk.le) hd.le)
    rcases hgr with rfl | ⟨_, rfl⟩
    · exact hga
    · exact le_min hga (div_nonneg haet hdt.le)
  have key : min (saturatedStorage g - water g.cum l) 0 ≤ min p ((saturatedStorage g - water g.cum l) / dt) * dt := by
    rcases min_cases p ((saturatedStorage g - water g.cum l) / dt) with ⟨hmn, _⟩ | ⟨hmn, _⟩
    · rw [hmn]; exact (min_le_right _ _).trans (mul_nonneg hp0 hdt.le)
    · rw [hmn, div_mul_cancel₀ _ hdt.ne']; exact min_le_left _ _
  obtain ⟨_, ⟨_, _, rfl, rfl, rfl⟩ | ⟨h0, _, rfl, rfl, rfl⟩ | ⟨_, _, rfl, rfl, rfl⟩ | ⟨_, rfl, rfl, rfl⟩⟩ :=
    partitionPond_inv hpp
  · exact le_min ((min_le_right _ _).trans hpd) key
  · exact key
  · exact min_le_right _ _
  · exact le_min ((min_le_right _ _).trans hpd) key

/-- Infiltration of the water movement in a sub-timestep. -/
theorem subFlow_infil {c : StepCfg K} {st : SubSt K} {column rate ponded aet : K} {s : SoilProps K} {b : Bool} {f : SubFlow K}
    (ho : OneLayer c column s) (ht : Settled c.geo column s.thetaE st.head) (hv : st.volend = mass c.geo.cum st.head)
    (hb : b = true → 0 < ponded) (haet : 0 ≤ aet)
    (h : subFlow c st b st.head (wettingFrontFreeDrainage st.head) rate ponded aet = .ok f) :
    min (column * s.thetaE - mass c.geo.cum st.head) 0 ≤ f.volinT - st.volinT := by
  have hfd := freeDrainage_one ht.neat.lay ht.fine.good.col.ne_nil
  rw [hfd] at h
  unfold subFlow at h
  split at h
  · rename_i hbt
    obtain ⟨l, flux, dry, d, h0, pd, hm, hd, hh, hcr, _, hvt, _, _, _⟩ := flowCreate_inv h
    obtain ⟨gm, nm, _⟩ := moveFronts_single ho.layers ho.soil ho.physSoil.gap ho.surf ho.inc ho.col ho.pos ho.dt.le ht.fine ht.neat
      ht.top ht.speed hv hm
    have fm := ht.fine.moveFronts ho.phys ho.inc (.inl ho.layers) hm
    simp only at gm nm fm
    match l, hh with
    | x :: t, hh =>
      simp only [List.getElem?_cons_zero, Option.some.injEq] at hh
      subst hh
      obtain ⟨d0, d1, d2⟩ := dryDepth_single ho fm (nm.lay x (by simp)) hd
      obtain ⟨s', thn, psi, Kc, hs', hv', -⟩ := createSurficial_inv hcr
      rw [ho.soil, Except.ok.injEq] at hs'
      subst hs'
      refine (min_le_right _ _).trans ?_
      rw [hvt, add_sub_cancel_left]
      rcases hv' with ⟨_, _, q3, _, _⟩ | ⟨_, q3, _, _⟩
      · simp only at q3; rw [q3]; exact (hb hbt).le
      · simp only at q3; rw [q3]; exact mul_nonneg d0.le (by linarith)
  · obtain ⟨hsf, _, _, hvt, _, _⟩ := flowMove_inv h
    have hlow := surfaceFlow_min ho ht haet hsf
    rw [hvt]
    split
    · rw [add_sub_cancel_left]; exact hlow
    · rw [sub_self]; exact min_le_right _ _

theorem Steady.infil {c : StepCfg K} {column : K} {s : SoilProps K} {st st' : SubSt K} (ho : OneLayer c column s)
    (hs : Steady c column s st) (h : subStep c st = .ok st') :
    min (column * s.thetaE - mass c.geo.cum st.head) 0 ≤ st'.volinT - st.volinT := by
  obtain ⟨aet, vs, h0, hsoil, f, l, ve, h1, ha, hvs, hh0, hhs, hsf, hl, hve, _, hh1, hpos, rfl⟩ := subStep_inv h
  have hr := rain_nonneg (x := st.precipMm) ho.dt
  have hpd := hs.pond
  have hpet : 0 ≤ CMath.fmax st.petMm (0 : K) := by rw [fmax_eq]; exact le_max_right _ _
  have ha0 : 0 ≤ aet := (aetDemand_bound ho.dt.le (mul_nonneg hpet (by norm_num)) ha).1
  exact subFlow_infil ho hs.tidy hs.vol (fun e => by have := wants_rain e; linarith) ha0 hsf

theorem Steady.loop_infil {c : StepCfg K} {column M : K} {s : SoilProps K} (ho : OneLayer c column s) (hone : s.thetaE ≤ 1)
    (hM : column * s.thetaE + M * 2e-10 ≤ 49 + column * s.thetaR) :
    ∀ {n : Nat} {st st' : SubSt K}, Steady c column s st → Capped s.thetaE st.timesteps column (mass c.geo.cum st.head) →
      subLoop c n st = .ok st' → (st'.timesteps : K) ≤ M →
      -(((st'.timesteps : K) - (st.timesteps : K)) * (M * 2e-10)) ≤ st'.volinT - st.volinT
  | 0, st, st', hs, hc, h, _ => by simp [subLoop] at h; subst h; simp
  | n + 1, st, st', hs, hc, h, hle => by
    have hlater := subLoop_later h
    unfold subLoop at h
    simp only [bind_ok_iff] at h
    obtain ⟨s1, h1, h⟩ := h
    have hcast : (st.timesteps : K) ≤ (st'.timesteps : K) := Int.cast_le.mpr hlater
    have h0 : (0 : K) ≤ (st.timesteps : K) := by exact_mod_cast hc.1
    have hM0 : 0 ≤ M * (2e-10 : K) := mul_nonneg (by linarith) (by norm_num)
    have hle' : (st.timesteps : K) * 2e-10 ≤ M * 2e-10 := mul_le_mul_of_nonneg_right (by linarith) (by norm_num)
    have hm2 := hc.2
    have hb : max (column * s.thetaE) (mass c.geo.cum st.head) ≤ 49 + column * s.thetaR := max_le (by linarith) (by linarith)
    have hlow : -(M * 2e-10) ≤ s1.volinT - st.volinT := le_trans (le_min (by linarith) (by linarith)) (hs.infil ho h1)
    have hcap := hs.cap ho hone hb h1
    have hts : s1.timesteps = st.timesteps + 1 := by
      obtain ⟨aet, vs, h0, hsoil, f, l, ve, hh, -, -, -, -, -, -, -, -, -, -, rfl⟩ := subStep_inv h1
      rfl
    have hc1 : Capped s.thetaE s1.timesteps column (mass c.geo.cum s1.head) := by
      refine ⟨by rw [hts]; have := hc.1; omega, ?_⟩
      rw [hts, Int.cast_add, Int.cast_one, add_mul, one_mul]
      have := max_le (a := column * s.thetaE) (c := column * s.thetaE + (st.timesteps : K) * 2e-10)
        (by have := mul_nonneg h0 (by norm_num : (0 : K) ≤ 2e-10); linarith) hm2
      linarith
    have hts' : (s1.timesteps : K) = (st.timesteps : K) + 1 := by rw [hts]; push_cast; ring
    split at h
    · simp only [pure_eq_ok, Except.ok.injEq] at h
      subst h
      rw [hts']
      have : ((st.timesteps : K) + 1 - (st.timesteps : K)) * (M * 2e-10) = M * 2e-10 := by
        generalize (2e-10 : K) = a; ring
      rw [this]; exact hlow
    · have i1 := Steady.loop_infil ho hone hM (hs.step ho h1) hc1 h hle
      rw [hts'] at i1
      have : ((st'.timesteps : K) - (st.timesteps : K)) * (M * 2e-10) =
          ((st'.timesteps : K) - ((st.timesteps : K) + 1)) * (M * 2e-10) + M * 2e-10 := by
        generalize (2e-10 : K) = a; ring
      rw [this]
      linarith

theorem Level.infil {column : K} {so : SoilProps K} {s s' : State K} {fuel : Nat} {sa : Bool} (h : Level column so s) (hone : so.thetaE ≤ 1)
    (hv : s.p.invalidSoil = false) (hc : Capped so.thetaE s.p.timesteps column (mass s.p.cum s.head))
    (hu : LGAR.update fuel sa s = .ok s') (hmax : column * so.thetaE + (s'.p.timesteps : K) * 2e-10 ≤ 49 + column * so.thetaR) :
    -(((s'.p.timesteps : K) - (s.p.timesteps : K)) * ((s'.p.timesteps : K) * 2e-10)) ≤ s'.mb.volinT := by
  rcases update_inv hu with ⟨hi, _⟩ | ⟨_, s1, d, v, u, h1, hm, hloop, h2⟩
  · rw [hv] at hi; exact absurd hi (by simp)
  · obtain ⟨ho, hs⟩ := h.start fuel sa h1 hm
    obtain ⟨_, _, _, hh, _, hso, _, _, _, _, _, _, hpp, hmb, _⟩ := updatePost_inv h2
    obtain ⟨_, _, fs, soils, l, fc, pm, q, _, rfl, hfs, ⟨hc', _⟩ | ⟨_, rfl, rfl, rfl, rfl, _⟩⟩ := updatePre_inv h1
    · rw [h.calib] at hc'; exact absurd hc' (by simp)
    · rw [hpp] at hmax ⊢
      have b1 := hs.loop_infil ho hone hmax (by exact hc) hloop le_rfl
      rw [hmb]
      simp only [subInit, sub_zero] at b1
      exact b1

/-- C109 for a column of one layer, in any run with any inputs: the infiltration an Update reports is not negative, up to 2e-10 cm per
sub-timestep so far and sub-timestep of the Update (the mass correction may leave the column over-full by that much, C109_fails says
what follows). -/
theorem C109_single_layer_partial (env : Env K) (lines : List (List Char)) (s0 s s1 s2 : State K) (hist : List (State K))
    (so : SoilProps K) (column : K) (fuel : Nat) (sa : Bool)
    (h0 : bmiInitialize env lines = .ok s0) (hN : s0.p.numLayers = 1) (hg : PhysGeo s0.geo)
    (hso : s0.geo.soil 1 = .ok so) (hlam : 0 < so.bcLambda) (hpsib : 0 ≤ so.bcPsib) (hpsi : 0 ≤ s0.p.initialPsi)
    (hinc : s0.p.cum.Pairwise (· < ·)) (hpond : 0 ≤ s0.p.pondMax) (hcal : s0.p.calibFlag = false) (hone : so.thetaE ≤ 1)
    (hcol : s0.p.cum[1]? = some column) (hr : Run s0 hist s) (hi : Inputs s s1)
    (hu : update fuel sa s1 = .ok s2) (hmax : (so.thetaE - so.thetaR) * column + (s2.p.timesteps : K) * 2e-10 ≤ 49) :
    -(((s2.p.timesteps : K) - (s1.p.timesteps : K)) * ((s2.p.timesteps : K) * 2e-10)) ≤ s2.mb.volinT := by
  obtain ⟨column', hc⟩ := Level.init h0 hN hso hg hlam hpsib hpsi hinc hpond hcal
  have e : column' = column := by
    have := hc.col
    rw [hcol, Option.some.injEq] at this; exact this.symm
  subst e
  obtain ⟨cfg, _, hli, _⟩ := bmiInitialize_inv h0
  obtain ⟨l1, l2⟩ := hc.run (lgarInit_valid hli) hr
  have li := l1.inputs hi
  have hlater := update_later hu
  obtain ⟨pr, pet, temp, cal, rfl⟩ := hi
  obtain ⟨col', e1, _, e3⟩ := C91_single_layer_cap env lines s0 s hist so h0 hN hg hso hlam hpsib hpsi hinc hpond hcal hone hr
  rw [hcol, Option.some.injEq] at e1
  subst e1
  have hcast : (s.p.timesteps : K) ≤ (s2.p.timesteps : K) := Int.cast_le.mpr hlater
  have hle : (s.p.timesteps : K) * 2e-10 ≤ (s2.p.timesteps : K) * 2e-10 := mul_le_mul_of_nonneg_right hcast (by norm_num)
  have hw := e3 (by linarith)
  rw [water_eq_mass, mul_comm] at hw
  have h0' : 0 ≤ s.p.timesteps := by
    have hz : s0.p.timesteps = 0 := by
      obtain ⟨ts, file, fl, soils, cnt, thick, psi, dt, endt, wp, fc, res, ords, inv, giuh, soilZ, q, depth, vs, cs, _, _, _, _, _,
        _, _, _, _, _, _, _, _, _, _, _, _, _, _, _, _, _, _, _, hs⟩ := lgarInit_inv hli
      rw [hs]
    rw [← hz]
    exact run_later hr
  exact li.infil hone l2 ⟨h0', hw⟩ hu (by linarith)

end Exact

section Cases
attribute [-instance] Rat.instOfScientific

/-- C109 fails in an over-full column: the first front, saturated, lies 1 cm below the bottom, and instead of entering the soil water
comes out of it (it is added to the ponded water). -/
def colOver : List (Front ℚ) := [Sample.fr 11 (4/10) 1 1 false, Sample.fr 10 (292/1000) 1 2 true]

theorem C109_fails : ∃ volin : ℚ, insertWater 100 true 120 geo1 (1/10) 0 (1/2) 0 5 1 1 colOver = .ok (0, volin, 1/2 - volin) ∧ volin < 0 := by
  have h := Sample.okAnd_exists (x := insertWater 100 true 120 geo1 (1/10) 0 (1/2) 0 5 1 1 colOver)
    (p := fun r => r.1 = 0 ∧ r.2.2 = 1/2 - r.2.1 ∧ r.2.1 < 0) (by decide +kernel)
  obtain ⟨⟨a, b, c⟩, h, h1, h2, h3⟩ := h
  simp only at h1 h2 h3
  subst h1 h2
  exact ⟨b, h, h3⟩

/-- The conditions of C109_step hold for a front in the second of two layers. -/
example : derefOpt colDeep (listFindFront (Int.ofNat 2) colDeep []) = .ok (Sample.fr 15 (5/10) 2 2 false) ∧
    Sample.geo2.soil 2 = .ok Sample.soilB ∧ Sample.geo2.frozen[1]? = some 1 ∧ Sample.geo2.cum[0]? = some 0 ∧
    0 < Sample.soilB.Ksat * 1 ∧ layerTop Sample.geo2.cum 2 ≤ 15 ∧ Sample.geo2.slab 1 = some (10, 1) ∧
    Sample.soilB.thetaR < Sample.soilB.thetaE ∧ 0 < Sample.soilB.bcLambda ∧ 0 ≤ Sample.soilB.bcPsib ∧
    Sample.okAnd (derefOpt colDeep (listFindFront (Int.ofNat 2 + 1) colDeep []))
      (fun b => decide (Sample.soilB.thetaR ≤ b.theta ∧ b.theta ≤ Sample.soilB.thetaE)) = true ∧
    Sample.okAnd (insertWater 100 true 120 Sample.geo2 (1/10) 0 3 0 10 2 1 colDeep) (fun r => decide (0 < r.2.1)) = true := by
  decide +kernel

end Cases

open Stops in
attribute [local irreducible] cfg bmiInitialize update tfSteps in
/-- The conditions of C109_single_layer_partial hold in the first Update of a run with rain and ET. -/
example : ∃ (env : Env Grid) (lines : List (List Char)) (s0 s s1 s2 : State Grid) (hist : List (State Grid)) (so : SoilProps Grid)
    (column : Grid), bmiInitialize env lines = .ok s0 ∧ s0.p.numLayers = 1 ∧ PhysGeo s0.geo ∧ s0.geo.soil 1 = .ok so ∧ 0 < so.bcLambda ∧
      0 ≤ so.bcPsib ∧ 0 ≤ s0.p.initialPsi ∧ s0.p.cum.Pairwise (· < ·) ∧ 0 ≤ s0.p.pondMax ∧ s0.p.calibFlag = false ∧ so.thetaE ≤ 1 ∧
      s0.p.cum[1]? = some column ∧ Run s0 hist s ∧ Inputs s s1 ∧ update 1000 true s1 = .ok s2 ∧
      (so.thetaE - so.thetaR) * column + (s2.p.timesteps : Grid) * 2e-10 ≤ 49 ∧ s2.head.length = 2 := by
  obtain ⟨s0, h0, h1⟩ := Sample.okAnd_get books_check
  obtain ⟨t1, t2, ⟨so, b1, b2, b3⟩, t3, t4, t5, t6, t7, t8⟩ := of_decide_eq_true h1
  split at t8
  · rename_i so' column s2 e1 e2 e3
    rw [b1, Except.ok.injEq] at e1
    subst e1
    exact ⟨_, _, s0, s0, _, s2, [], so, column, h0, t1, t2.phys, b1, b2, b3, t3, t4, t5, t6, t8.1, e2, .nil, ⟨_, _, _, _, rfl⟩, e3,
      t8.2.1, t8.2.2.1⟩
  · exact t8.elim

end LGAR
