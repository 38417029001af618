import Verif.Lemmas.DryRun
import Verif.Props.Rest
/-
C106: a dry spell dries a column with one front per layer as a whole.
-/
namespace LGAR

/-- C106: a column with one front per layer, all at the head `psi`, dries as a whole. Updates without rain and with any potential ET all
return. The fronts stay at the bottoms of their layers, do not move and share one head; the storage is what it was less the booked
ET, to 1e-12 cm per sub-timestep; the ET lies between 0 and the potential ET; no water infiltrates, runs off, percolates, is routed or
ponds. The range of heads `lo` to `hi` must have room for the potential ET. -/
theorem C106_dries (sa : Bool) (s : State ℝ) (sl : List Slab) (n : Nat) (psi lo hi N : ℝ) (xs : List (ℝ × List ℝ)) (h : Drought sl n psi s)
    (hm : Mild sl lo hi N) (hr : Room sl lo hi psi (spellPet s.p.forcingResH xs) (xs.length * n)) (hne : xs ≠ []) (hpet : ∀ x ∈ xs, 0 ≤ x.1)
    (hfr : s.p.sftCoupled = true → ∀ x ∈ xs, ∃ fs, frozenFactor s.p.cum (s.p.soilTempZ.zip x.2) s.p.frozen = .ok fs) :
    ∃ (s' : State ℝ) (psi' w w' : ℝ) (M : Nat), (∀ fuel, M ≤ fuel → drySpell fuel sa xs s = .ok s') ∧
      s'.head.length = s.p.numLayers ∧ (∀ (i : Nat) (f : Front ℝ), s'.head[i]? = some f → f.layer = i + 1 ∧ f.toBottom = true ∧ f.dzdt = 0 ∧
        f.psi = psi' ∧ s.p.cum[i + 1]? = some f.depth) ∧
      massBal s.p.cum s.head = .ok w ∧ massBal s'.p.cum s'.head = .ok w' ∧
      |w' - (w - (s'.mb.volAET - s.mb.volAET))| ≤ (xs.length * n : Nat) * 1e-12 ∧
      s.mb.volAET ≤ s'.mb.volAET ∧ s'.mb.volAET - s.mb.volAET ≤ s'.mb.volPET - s.mb.volPET ∧
      s'.mb.volPET - s.mb.volPET ≤ spellPet s.p.forcingResH xs ∧
      s'.mb.volprecip = s.mb.volprecip ∧ s'.mb.volin = s.mb.volin ∧ s'.mb.volrunoff = s.mb.volrunoff ∧ s'.mb.volrech = s.mb.volrech ∧
      s'.mb.volgiuh = s.mb.volgiuh ∧ s'.mb.volQ = s.mb.volQ ∧ s'.mb.volcalib = s.mb.volcalib ∧ s'.mb.volonT = 0 := by
  obtain ⟨s', x, A, j, M, e, h', d, p, w, hj⟩ := drySpell_dry (sa := sa) hm hne hpet h hr hfr
  have ea : s'.mb.volAET - s.mb.volAET = A := by rw [d.aet]; ring
  refine ⟨s', x, _, _, M, e, ?_, ?_, h.still.rest.massBal_stack h.still.ground h.head h.stack,
    h'.still.rest.massBal_stack h'.still.ground h'.head h'.stack, ?_, ?_, ?_, p, d.precip, d.infil, d.runoff, d.rech, d.giuh, d.Q, d.calib,
    d.volon⟩
  · rw [h'.still.rest.len]; exact d.layers
  · intro i f hf
    have := h'.still.rest.front i f hf
    refine ⟨this.layer, this.bottom, this.speed, this.head, ?_⟩
    have hd : s'.p.cum[i + 1]? = some f.depth := this.depth
    rw [← d.cum]; exact hd
  · rw [ea]
    refine w.trans (mul_le_mul_of_nonneg_right ?_ (by norm_num))
    exact_mod_cast hj
  · rw [d.aet]; have := d.aet0; linarith
  · rw [ea]; exact d.aetPet

/-- Two layers of loam at 75 cm, sub-timesteps of half an hour. -/
noncomputable def dryState : State ℝ :=
  { head := [{ depth := 10, theta := 4 / 5, psi := 75, K := 0, layer := 1, front := 1, toBottom := true, dzdt := 0 },
      { depth := 30, theta := 4 / 5, psi := 75, K := 0, layer := 2, front := 2, toBottom := true, dzdt := 0 }]
    prev := [], soils := [loam, loam]
    p := { layerThickness := [0, 10, 20], layerSoilType := [0, 1, 1], numLayers := 2, numWf := 2, cum := [0, 10, 30], soilDepth := 30,
           initialPsi := 75, timestepH := 1 / 2, forcingResH := 1, minTimestepH := 1 / 12, forcingInterval := 2, numSoilTypes := 1,
           moistureWf := [], depthWf := [], soilTemp := [], soilTempZ := [], frozen := [1, 1, 1], wpPsi := 15495, fcPsi := 340,
           closedG := false, adaptive := false, pondMax := 1, precipPrev := 0, nint := 120, timeS := 0, endtimeS := 36000, timesteps := 0,
           sftCoupled := false, calibFlag := false, invalidSoil := false }
    mb := SampleReal.env.junkMb, precipMm := 0, petMm := 0, calib := ⟨[], [], [], [], [], 340, 1⟩, conv := SampleReal.env.junkConv
    numGiuh := 1, giuhOrd := [1], giuhQueue := [0, 0] }

theorem dryState_drought {sl : List Slab} (hsl : ColumnStack geoLoams sl) : Drought sl 2 75 dryState := by
  have hp : PhysGeo dryState.geo := fun k q h1 h => geoLoams_soil k q h1 h ▸ loam_physical
  have hth : calcThetaFromH 75 loam.vgAlpha loam.vgM loam.vgN loam.thetaE loam.thetaR = .ok (4 / 5) := by
    rw [← loam_75]; exact calcTheta_moistAt loam_physical (by norm_num)
  refine ⟨⟨geoLoams_ground, ⟨rfl, fun i f hi => ?_⟩, rfl, ?_, ?_, rfl, ?_, ?_, ⟨rfl, ?_, rfl⟩, ?_⟩, by norm_num, hp, hsl, ?_, ?_, ?_, 2,
    by norm_num, le_rfl, ?_⟩
  · have : i = 0 ∨ i = 1 := by
      have := (List.getElem?_eq_some_iff.mp hi).1
      simp only [dryState, List.length_cons, List.length_nil] at this; omega
    rcases this with rfl | rfl
    all_goals
      simp only [dryState, List.getElem?_cons_zero, List.getElem?_cons_succ, Option.some.injEq] at hi
      subst hi
      exact ⟨rfl, rfl, rfl, rfl, rfl, le_rfl, rfl, loam, rfl, loam_physical, hth⟩
  all_goals simp [dryState]

/-- C106: two layers of loam lose up to 2 cm in any number of Updates up to 10^9. -/
example (sa : Bool) (xs : List (ℝ × List ℝ)) (hne : xs ≠ []) (hlen : xs.length ≤ 1000000000) (hpet : ∀ x ∈ xs, 0 ≤ x.1)
    (hP : spellPet 1 xs ≤ 2) : ∃ (s' : State ℝ) (psi' : ℝ) (M : Nat), (∀ fuel, M ≤ fuel → drySpell fuel sa xs dryState = .ok s') ∧
      s'.head.length = 2 ∧ (∀ f ∈ s'.head, f.psi = psi') ∧ s'.mb.volin = 0 := by
  have hs : ∀ k, 1 ≤ k → k ≤ 2 → geoLoams.soil k = .ok loam := fun k h1 h2 => by
    have : k = 1 ∨ k = 2 := by omega
    rcases this with rfl | rfl <;> simp [Geo.soil, geoLoams, idx, idxI, ok_bind]
  obtain ⟨sl, hsl⟩ := stack_exists geoLoams_ground (fun _ => 0) 30 (layer := 2) (by norm_num [geoLoams])
  have hcs : ColumnStack geoLoams sl := hsl
  have hq : ((120 : ℝ) / 40) ^ (2 : ℝ) = 9 := by
    rw [show (2 : ℝ) = ((2 : ℕ) : ℝ) by norm_num, Real.rpow_natCast]; norm_num
  have hmar : headMargin 120 = 12 := by unfold headMargin; rw [max_eq_right] <;> norm_num
  have hslope : ∀ x, 40 ≤ x → x ≤ 120 → 1 / 100 ≤ stackSlope sl x ∧ stackSlope sl x ≤ 1 := by
    intro x h1 h2
    have hr : 0 ≤ 1 + (x / 100) ^ 2 := by positivity
    have e := Real.sq_sqrt hr
    have hy1 : 1 ≤ Real.sqrt (1 + (x / 100) ^ 2) := Real.one_le_sqrt.mpr (by nlinarith)
    have hy2 : Real.sqrt (1 + (x / 100) ^ 2) ≤ 2 := Real.sqrt_le_iff.mpr ⟨by norm_num, by nlinarith⟩
    rw [hsl.slope_one (by norm_num) rfl hs, slopeAt_loam (by linarith) e.symm]
    generalize Real.sqrt (1 + (x / 100) ^ 2) = y at hy1 hy2
    have y1 : 1 ≤ y ^ 3 := one_le_pow₀ hy1
    have y2 : y ^ 3 ≤ 8 := by
      have := pow_le_pow_left₀ (by linarith) hy2 3
      linarith
    constructor
    · have : x / 10000 / 8 ≤ x / 10000 / y ^ 3 := by gcongr
      linarith
    · have : x / 10000 / y ^ 3 ≤ x / 10000 := div_le_self (by positivity) y1
      linarith
  have hw : ∀ x y : ℝ, 0 < y → 1 + (x / 100) ^ 2 = y ^ 2 → stackWater sl x = 30 / y := by
    intro x y hy e
    rw [hsl.one (by norm_num) rfl hs, moistAt_loam hy e]; ring
  have hm : Mild sl 40 120 2 := ⟨by norm_num, by rw [hmar]; norm_num, by norm_num, fun x hx => by rw [hsl.soils hs hx]; norm_num [loam],
    by rw [hq]; norm_num, fun x h1 h2 => by rw [hq]; have := (hslope x h1 h2).1; linarith,
    fun x h1 h2 => by rw [hq]; have := (hslope x h1 h2).2; linarith⟩
  have w75 : stackWater sl 75 = 24 := by rw [hw 75 (5 / 4) (by norm_num) (by norm_num)]; norm_num
  have w108 : stackWater sl 108 ≤ 21 := by
    have hr : (0 : ℝ) ≤ 1 + (108 / 100) ^ 2 := by norm_num
    have hy : (10 / 7 : ℝ) ≤ Real.sqrt (1 + (108 / 100) ^ 2) := Real.le_sqrt_of_sq_le (by norm_num)
    rw [hw 108 _ (lt_of_lt_of_le (by norm_num) hy) (Real.sq_sqrt hr).symm, div_le_iff₀ (lt_of_lt_of_le (by norm_num) hy)]
    linarith
  have w52 : 25 ≤ stackWater sl 52 := by
    have hr : (0 : ℝ) ≤ 1 + (52 / 100) ^ 2 := by norm_num
    have hy0 : (0 : ℝ) < Real.sqrt (1 + (52 / 100) ^ 2) := Real.sqrt_pos.mpr (by norm_num)
    have hy : Real.sqrt (1 + (52 / 100) ^ 2) ≤ (6 / 5 : ℝ) := Real.sqrt_le_iff.mpr ⟨by norm_num, by norm_num⟩
    rw [hw 52 _ hy0 (Real.sq_sqrt hr).symm, le_div_iff₀ hy0]
    linarith
  have hl : ((xs.length * 2 : Nat) : ℝ) * 1e-12 ≤ 1 / 100 := by
    have : (xs.length : ℝ) ≤ 1000000000 := by exact_mod_cast hlen
    push_cast; linarith
  have hr : Room sl 40 120 75 (spellPet dryState.p.forcingResH xs) (xs.length * 2) := by
    have e : dryState.p.forcingResH = 1 := rfl
    constructor
    · rw [hmar, e, w75, show (120 : ℝ) - 12 = 108 by norm_num]; linarith
    · rw [hmar, w75, show (40 : ℝ) + 12 = 52 by norm_num]; linarith
  obtain ⟨s', psi', _, _, M, e, hlen', hf, _, _, _, _, _, _, _, hin, _⟩ := C106_dries sa dryState sl 2 75 40 120 2 xs (dryState_drought hcs) hm hr
    hne hpet (fun h => by simp [dryState] at h)
  refine ⟨s', psi', M, e, hlen', fun f hf' => ?_, hin.trans rfl⟩
  obtain ⟨i, hi, rfl⟩ := List.getElem_of_mem hf'
  exact (hf i _ (List.getElem?_eq_getElem hi)).2.2.2.1

/-- C106 from the start of a run: Initialize leaves one front per layer at the configured head, so the dry spell may come first. -/
theorem C106_from_start (env : Env ℝ) (lines : List (List Char)) (s0 : State ℝ) (h : bmiInitialize env lines = .ok s0) (sa : Bool)
    (xs : List (ℝ × List ℝ)) (sl : List Slab) (n : Nat) (lo hi N : ℝ) (hp : PhysGeo s0.geo) (ht : ∀ x ∈ s0.p.layerThickness.drop 1, 0 < x)
    (hpsi : 0 ≤ s0.p.initialPsi) (hord : s0.giuhOrd ≠ []) (hwp : 0 < s0.p.wpPsi) (hfc : 0 ≤ s0.p.fcPsi)
    (hcount : ∃ k : Nat, 1 ≤ k ∧ k ≤ n ∧ s0.p.forcingResH = k * s0.p.timestepH) (hsl : ColumnStack s0.geo sl) (hm : Mild sl lo hi N)
    (hr : Room sl lo hi s0.p.initialPsi (spellPet s0.p.forcingResH xs) (xs.length * n)) (hne : xs ≠ []) (hpet : ∀ x ∈ xs, 0 ≤ x.1)
    (hfr : s0.p.sftCoupled = true → ∀ x ∈ xs, ∃ fs, frozenFactor s0.p.cum (s0.p.soilTempZ.zip x.2) s0.p.frozen = .ok fs) :
    ∃ (s : State ℝ) (psi v : ℝ) (M : Nat), (∀ fuel, M ≤ fuel → drySpell fuel sa xs s0 = .ok s) ∧
      s.head.length = s0.p.numLayers ∧ (∀ (i : Nat) (f : Front ℝ), s.head[i]? = some f → f.layer = i + 1 ∧ f.toBottom = true ∧ f.dzdt = 0 ∧
        f.psi = psi ∧ s0.p.cum[i + 1]? = some f.depth) ∧
      massBal s.p.cum s.head = .ok v ∧ |v - (s0.mb.volstart - s.mb.volAET)| ≤ (xs.length * n : Nat) * 1e-12 ∧
      0 ≤ s.mb.volAET ∧ s.mb.volAET ≤ s.mb.volPET ∧ s.mb.volPET ≤ spellPet s0.p.forcingResH xs ∧
      s.mb.volprecip = 0 ∧ s.mb.volin = 0 ∧ s.mb.volrunoff = 0 ∧ s.mb.volrech = 0 ∧ s.mb.volgiuh = 0 ∧ s.mb.volQ = 0 ∧
      s.mb.volcalib = 0 ∧ s.mb.volonT = 0 := by
  obtain ⟨c, hc, hi', _⟩ := bmiInitialize_inv h
  obtain ⟨_, file, fl, soils, cnt, thick, psi, dt, endt, wp, fc, res, ords, inv, giuh, soilZ, q, depth, vs, cs, _, _, _, _, _,
    _, _, _, b1, _, _, _, b2, _, _, _, _, _, _, hgeo, _, hmb, _, _, hs0⟩ := lgarInit_inv hi'
  obtain ⟨q1, q2, q3⟩ := readConfig_signs hc
  have hpond : 0 ≤ s0.p.pondMax := by
    rw [hs0]
    show 0 ≤ c.pondMax.getD 0
    cases e : c.pondMax with
    | none => exact le_refl _
    | some t => exact q3 t e
  have hst := initialize_still h hp ht hpsi hpond (by rw [hs0]; exact q1 _ b1) (by rw [hs0]; exact q2 _ b2) hord
  have hcal : s0.calib.fcPsi = s0.p.fcPsi := by rw [hs0]
  have hm0 : massBal s0.p.cum s0.head = .ok s0.mb.volstart := by
    have e1 : s0.p.cum = cumThickness thick := by rw [hs0]
    have e2 : s0.mb.volstart = vs := by rw [hs0]
    rw [e1, e2]; exact hmb
  obtain ⟨s, x, w, w', M, e, r1, r2, m0, m1, r3, r4, r5, r6, z1, z2, z3, z4, z5, z6, z7, z8⟩ := C106_dries sa s0 sl n _ lo hi N xs
    ⟨hst, hpsi, hp, hsl, hwp, hfc, fun _ => hcal ▸ hfc, hcount⟩ hm hr hne hpet hfr
  rw [hm0, Except.ok.injEq] at m0
  subst m0
  have za : s0.mb.volAET = 0 := by rw [hs0]
  have zp : s0.mb.volPET = 0 := by rw [hs0]
  rw [za, sub_zero] at r3 r5
  rw [zp, sub_zero] at r5 r6
  rw [za] at r4
  exact ⟨s, x, w', M, e, r1, r2, m1, r3, r4, r5, r6, z1.trans (by rw [hs0]), z2.trans (by rw [hs0]), z3.trans (by rw [hs0]),
    z4.trans (by rw [hs0]), z5.trans (by rw [hs0]), z6.trans (by rw [hs0]), z7.trans (by rw [hs0]), z8⟩

theorem moistAt_sand {s : SoilProps ℝ} (hs : SampleReal.Sand s) {x y : ℝ} (hy : 0 < y) (h : 1 + (x / 50) ^ 2 = y ^ 2) :
    moistAt s x = 1 / 20 + 2 / 5 / y := by
  obtain ⟨s1, s2, s3, s4, s5⟩ := hs
  have e1 : (s.vgAlpha * x) ^ s.vgN = (x / 50) ^ 2 := by
    rw [s4, s3, show (2 : ℝ) = ((2 : ℕ) : ℝ) by norm_num, Real.rpow_natCast]
    congr 1; ring
  unfold moistAt
  rw [e1, h, s5, ← Real.sqrt_eq_rpow, Real.sqrt_sq hy.le, s1, s2]
  norm_num

theorem slopeAt_sand {s : SoilProps ℝ} (hs : SampleReal.Sand s) {x y : ℝ} (hy : 0 < y) (h : 1 + (x / 50) ^ 2 = y ^ 2) :
    slopeAt s x = x / 6250 / y ^ 3 := by
  obtain ⟨s1, s2, s3, s4, s5⟩ := hs
  have e0 : s.vgAlpha * x = x / 50 := by rw [s3]; ring
  have e1 : (s.vgAlpha * x) ^ s.vgN = (x / 50) ^ 2 := by
    rw [e0, s4, show (2 : ℝ) = ((2 : ℕ) : ℝ) by norm_num, Real.rpow_natCast]
  have e2 : (y ^ 2 : ℝ) ^ (s.vgM + 1) = y ^ 3 := by
    rw [show s.vgM + 1 = 3 / 2 by rw [s5]; norm_num, ← Real.rpow_natCast, ← Real.rpow_mul hy.le, ← Real.rpow_natCast]
    norm_num
  unfold slopeAt
  rw [e1, h, e2, show s.vgN - 1 = 1 by rw [s4]; norm_num, Real.rpow_one, e0, s1, s2, s3, s4, s5]
  ring

/-- C106_from_start: the sample configuration, 10 cm of sand at a head of 3600 cm, calibrated in the first Update, loses up to 0.01 cm. -/
example (sa : Bool) (xs : List (ℝ × List ℝ)) (hne : xs ≠ []) (hlen : xs.length ≤ 1000000) (hpet : ∀ x ∈ xs, 0 ≤ x.1)
    (hP : spellPet 1 xs ≤ 1 / 100) : ∃ (s0 s : State ℝ) (M : Nat), bmiInitialize SampleReal.env SampleReal.lines = .ok s0 ∧
      s0.p.calibFlag = true ∧ (∀ fuel, M ≤ fuel → drySpell fuel sa xs s0 = .ok s) ∧ s.head.length = 1 ∧ s.mb.volin = 0 := by
  obtain ⟨s0, h0, hp, hcal, _, _, so, hso, hsand⟩ := SampleReal.init_soil
  obtain ⟨c, hc, hi, _⟩ := bmiInitialize_inv h0
  rw [SampleReal.readConfig_lines, Except.ok.injEq] at hc
  subst hc
  obtain ⟨_, file, fl, soils, cnt, thick, psi, dt, endt, wp, fc, res, ords, inv, giuh, soilZ, q, depth, vs, cs, _, _, _, _, _,
    a1, _, a2, a3, _, a8, a9, a4, a5, a6, a7, _, _, _, hgeo, _, hm, hlen', _, hs0⟩ := lgarInit_inv hi
  simp only [SampleReal.cfg, Option.some.injEq] at a1 a2 a3 a4 a5 a8 a9
  subst a1; subst a2; subst a3; subst a4; subst a5; subst a8; subst a9
  have hgi : giuh ≠ [] := by
    rw [cdiv_ne one_ne_zero, Except.ok.injEq, div_one] at a6
    subst a6
    rw [SampleReal.toInt_one] at a7
    intro hz
    subst hz
    simp only [Int.toNat_one, giuhResample, bind_ok_iff, pure_eq_ok, Except.ok.injEq] at a7
    obtain ⟨q, _, r, _, hr⟩ := a7
    simp at hr
  have epsi : s0.p.initialPsi = 3600 := by rw [hs0]
  have eres : s0.p.forcingResH = 1 := by rw [hs0]
  have eN : s0.geo.numLayers = 1 := by rw [hgeo]; rfl
  have ecum : s0.geo.cum = [0, 10] := by rw [hgeo]; simp [cumThickness, cumGo]
  have hs : ∀ k, 1 ≤ k → k ≤ 1 → s0.geo.soil k = .ok so := fun k h1 h2 => by
    obtain rfl : k = 1 := by omega
    exact hso
  have hst := initialize_still h0 hp (by rw [hs0]; simp) (by rw [epsi]; norm_num) (by rw [hs0]; simp [SampleReal.cfg])
    (by rw [hs0]; norm_num) (by rw [hs0]; norm_num) (by rw [hs0]; exact hgi)
  obtain ⟨sl, hsl⟩ := stack_exists hst.ground (fun _ => 0) 10 (layer := 1) (by rw [eN])
  have hcs : ColumnStack s0.geo sl := by
    unfold ColumnStack
    rw [eN, show layerTop s0.geo.cum (1 + 1) = 10 by rw [ecum]; rfl]
    exact hsl
  have hq : ((5000 : ℝ) / 2000) ^ (2 : ℝ) = 25 / 4 := by
    rw [show (2 : ℝ) = ((2 : ℕ) : ℝ) by norm_num, Real.rpow_natCast]; norm_num
  have hmar : headMargin 5000 = 500 := by unfold headMargin; rw [max_eq_right] <;> norm_num
  have hslope : ∀ x, 2000 ≤ x → x ≤ 5000 → 1e-8 ≤ stackSlope sl x ∧ stackSlope sl x ≤ 1 := by
    intro x h1 h2
    have hr : 0 ≤ 1 + (x / 50) ^ 2 := by positivity
    have e := Real.sq_sqrt hr
    have hy1 : 40 ≤ Real.sqrt (1 + (x / 50) ^ 2) := Real.le_sqrt_of_sq_le (by nlinarith)
    have hy2 : Real.sqrt (1 + (x / 50) ^ 2) ≤ 101 := Real.sqrt_le_iff.mpr ⟨by norm_num, by nlinarith⟩
    rw [hsl.slope_one (by norm_num) (by rw [ecum]; rfl) hs, slopeAt_sand hsand (by linarith) e.symm]
    generalize Real.sqrt (1 + (x / 50) ^ 2) = y at hy1 hy2
    have y1 : 40 ^ 3 ≤ y ^ 3 := pow_le_pow_left₀ (by norm_num) hy1 3
    have y2 : y ^ 3 ≤ 101 ^ 3 := pow_le_pow_left₀ (by linarith) hy2 3
    constructor
    · have : x / 6250 / 101 ^ 3 ≤ x / 6250 / y ^ 3 := by gcongr
      linarith
    · have : x / 6250 / y ^ 3 ≤ x / 6250 / 40 ^ 3 := by gcongr
      linarith
  have hw : ∀ x y : ℝ, 0 < y → 1 + (x / 50) ^ 2 = y ^ 2 → stackWater sl x = 1 / 2 + 4 / y := by
    intro x y hy e
    rw [hsl.one (by norm_num) (by rw [ecum]; rfl) hs, moistAt_sand hsand hy e]; ring
  have hm : Mild sl 2000 5000 2 := ⟨by norm_num, by rw [hmar]; norm_num, by norm_num,
    fun x hx => by rw [hsl.soils hs hx, hsand.2.2.2.1],
    by rw [hq]; norm_num, fun x h1 h2 => by rw [hq]; have := (hslope x h1 h2).1; linarith,
    fun x h1 h2 => by rw [hq]; have := (hslope x h1 h2).2; linarith⟩
  have wle : ∀ x y : ℝ, 0 < y → y ^ 2 ≤ 1 + (x / 50) ^ 2 → stackWater sl x ≤ 1 / 2 + 4 / y := by
    intro x y hy e
    have h1 := Real.le_sqrt_of_sq_le e
    rw [hw x _ (lt_of_lt_of_le hy h1) (Real.sq_sqrt (by positivity)).symm]
    have : 4 / Real.sqrt (1 + (x / 50) ^ 2) ≤ 4 / y := by gcongr
    linarith
  have wge : ∀ x y : ℝ, 0 < y → 1 + (x / 50) ^ 2 ≤ y ^ 2 → 1 / 2 + 4 / y ≤ stackWater sl x := by
    intro x y hy e
    have h1 := Real.sqrt_le_iff.mpr ⟨hy.le, e⟩
    have h0 : 0 < Real.sqrt (1 + (x / 50) ^ 2) := Real.sqrt_pos.mpr (by positivity)
    rw [hw x _ h0 (Real.sq_sqrt (by positivity)).symm]
    have : 4 / y ≤ 4 / Real.sqrt (1 + (x / 50) ^ 2) := by gcongr
    linarith
  have u1 := wle 4500 90 (by norm_num) (by norm_num)
  have u2 := wge 3600 (7201 / 100) (by norm_num) (by norm_num)
  have u3 := wle 3600 72 (by norm_num) (by norm_num)
  have u4 := wge 2500 51 (by norm_num) (by norm_num)
  norm_num at u1 u2 u3 u4
  have hl : ((xs.length * 1 : Nat) : ℝ) * 1e-12 ≤ 1e-6 := by
    have : (xs.length : ℝ) ≤ 1000000 := by exact_mod_cast hlen
    push_cast; linarith
  have hr : Room sl 2000 5000 s0.p.initialPsi (spellPet s0.p.forcingResH xs) (xs.length * 1) := by
    rw [epsi, eres]
    constructor
    · rw [hmar, show (5000 : ℝ) - 500 = 4500 by norm_num]; linarith
    · rw [hmar, show (2000 : ℝ) + 500 = 2500 by norm_num]; linarith
  obtain ⟨s, _, _, M, e, hl1, _, _, _, _, _, _, _, hin, _⟩ := C106_from_start _ _ s0 h0 sa xs sl 1 2000 5000 2 hp (by rw [hs0]; simp)
    (by rw [epsi]; norm_num) (by rw [hs0]; exact hgi) (by rw [hs0]; norm_num) (by rw [hs0]; norm_num) ⟨1, le_rfl, le_rfl, by rw [hs0]; norm_num⟩
    hcs hm hr hne hpet (by rw [hs0]; simp [SampleReal.cfg])
  exact ⟨s0, s, M, h0, hcal, e, hl1.trans eN, hin⟩

end LGAR
