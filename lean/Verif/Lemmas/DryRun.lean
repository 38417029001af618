import Verif.Lemmas.Dry
import Verif.Props.Ints
/-
Sub-timesteps and Updates of a dry spell (C106).
-/
namespace LGAR
section
variable {sl : List Slab} {lo hi N psi h P : ℝ} {n : Nat}

theorem Ground.slabsOk {g : Geo ℝ} (hg : Ground g) (hsl : ColumnStack g sl) : SlabsOk sl := by
  intro x hx
  obtain ⟨i, hi⟩ := List.mem_iff_getElem?.mp hx
  have hlt := (List.getElem?_eq_some_iff.mp hi).1
  rw [hsl.length] at hlt
  obtain ⟨s, hs, hp⟩ := hg.soil (i + 1) (by omega) (by omega)
  have := hsl.soil i x hi
  rw [hs, Except.ok.injEq] at this
  obtain ⟨a, b, ha, hb, hab⟩ := hg.cum i (by omega)
  refine ⟨?_, this ▸ hp⟩
  have ht := (hsl.whole i x hi).2.2
  rw [Nat.add_comm 1 i, layerTop_get ha, layerTop_get hb] at ht
  rw [ht]; linarith

theorem headMargin_pos (hi : ℝ) : 10 ≤ headMargin hi := by
  unfold headMargin
  have := le_max_left 1 (hi / 100)
  linarith

theorem Mild.lt (hm : Mild sl lo hi N) (hs : SlabsOk sl) {a b : ℝ} (ha : lo ≤ a) (hab : a < b) (hb : b ≤ hi) : stackWater sl b < stackWater sl a := by
  have hlo := hm.lo_pos
  obtain ⟨c, hc, he⟩ := exists_hasDerivAt_eq_slope (stackWater sl) (fun x => -stackSlope sl x) hab
    (fun x hx => (stackWater_deriv hs (lt_of_lt_of_le hlo (ha.trans hx.1))).continuousAt.continuousWithinAt)
    (fun x hx => stackWater_deriv hs (lt_of_lt_of_le hlo (ha.trans hx.1.le)))
  have hba : 0 < b - a := sub_pos.mpr hab
  rw [eq_div_iff hba.ne'] at he
  have hQ : 0 < (hi / lo) ^ N := Real.rpow_pos_of_pos (div_pos (by linarith) hlo) N
  have h1 : (0 : ℝ) < stackSlope sl c := lt_of_lt_of_le (by positivity) (hm.steep c (ha.trans hc.1.le) (hc.2.le.trans hb))
  nlinarith

/-- A head with water inside the range lies inside the range. -/
theorem Mild.inside (hm : Mild sl lo hi N) (hs : SlabsOk sl) (hpsi : 0 ≤ psi) (h1 : stackWater sl (hi - headMargin hi) ≤ stackWater sl psi)
    (h2 : stackWater sl psi ≤ stackWater sl (lo + headMargin hi)) : lo + headMargin hi ≤ psi ∧ psi ≤ hi - headMargin hi := by
  have hm0 := headMargin_pos hi
  have hw := hm.wide
  have hlo := hm.lo_pos
  constructor
  · by_contra hc
    rw [not_le] at hc
    rcases le_total lo psi with h | h
    · have := hm.lt hs h hc (by linarith); linarith
    · have := hm.lt hs le_rfl (show lo < lo + headMargin hi by linarith) (by linarith)
      have := stackWater_le hs hpsi h
      linarith
  · by_contra hc
    rw [not_le] at hc
    rcases le_total psi hi with h | h
    · have := hm.lt hs (show lo ≤ hi - headMargin hi by linarith) hc h; linarith
    · have := hm.lt hs (show lo ≤ hi - headMargin hi by linarith) (show hi - headMargin hi < hi by linarith) le_rfl
      have := stackWater_le hs (by linarith) h
      linarith

/-- With room for the water to be lost, the search succeeds. -/
theorem Mild.gentle (hm : Mild sl lo hi N) (hs : SlabsOk sl) (hpsi : 0 ≤ psi) (hr : Room sl lo hi psi P n) {a : ℝ} (ha : 0 ≤ a) (haP : a ≤ P) :
    ∃ h', stackWater sl h' = stackWater sl psi - a ∧ Gentle sl psi h' lo hi N := by
  have hm0 := headMargin_pos hi
  have hw := hm.wide
  have hlo := hm.lo_pos
  have hn : (0 : ℝ) ≤ n * 1e-12 := by positivity
  have hd := hr.dry
  have hwt := hr.wet
  obtain ⟨p1, p2⟩ := hm.inside hs hpsi (by linarith) (by linarith)
  have hcont : ContinuousOn (stackWater sl) (Set.Icc (lo + headMargin hi) (hi - headMargin hi)) := fun x hx =>
    (stackWater_deriv hs (lt_of_lt_of_le (by linarith) hx.1)).continuousAt.continuousWithinAt
  obtain ⟨h', ⟨h1, h2⟩, h3⟩ := intermediate_value_Icc' hw hcont (show stackWater sl psi - a ∈ Set.Icc _ _ from ⟨by linarith, by linarith⟩)
  have hmx : 10 * max 1 (psi / 100) ≤ headMargin hi := by
    unfold headMargin
    have : psi / 100 ≤ hi / 100 := by linarith
    have := max_le_max (le_refl (1 : ℝ)) this
    linarith
  exact ⟨h', h3, hlo, hm.hi_le, by linarith, by linarith, by linarith, by linarith, hm.shape, hm.ratio, hm.steep _ (by linarith) (by linarith),
    hm.flat _ (by linarith) (by linarith)⟩

theorem Room.next (hr : Room sl lo hi psi P (n + 1)) {a p : ℝ} (ha : 0 ≤ a) (hap : a ≤ p) (hp : |stackWater sl h - (stackWater sl psi - a)| ≤ 1e-12) :
    Room sl lo hi h (P - p) n := by
  obtain ⟨h1, h2⟩ := abs_le.mp hp
  have hd := hr.dry
  have hw := hr.wet
  push_cast at hd hw
  constructor <;> linarith

/-- Between sub-timesteps of a dry spell the column is at rest at some head. -/
structure Dries (c : StepCfg ℝ) (sl : List Slab) (psi : ℝ) (u : SubSt ℝ) : Prop where
  rest : Rest c.geo psi u.head
  head : 0 ≤ psi
  volend : u.volend = stackWater sl psi
  precip : u.precipMm = 0
  pet : 0 ≤ u.petMm
  volon : u.volon = 0

/-- What a part of a dry spell from `u` to `w` in `k` sub-timesteps with the ET `A` did. -/
structure Spell (c : StepCfg ℝ) (sl : List Slab) (psi h A : ℝ) (k : Nat) (u w : SubSt ℝ) : Prop where
  dries : Dries c sl h w
  close : |stackWater sl h - (stackWater sl psi - A)| ≤ k * 1e-12
  aet0 : 0 ≤ A
  aetP : A ≤ k * (u.petMm * 0.1 * c.dt)
  petMm : w.petMm = u.petMm
  aetT : w.aetT = u.aetT + A
  petT : w.petT = u.petT + k * (u.petMm * 0.1 * c.dt)
  precipT : w.precipT = u.precipT
  volinT : w.volinT = u.volinT
  runoffT : w.runoffT = u.runoffT
  rechT : w.rechT = u.rechT

theorem aetDemand_rest {c : StepCfg ℝ} (hg : Ground c.geo) (hwp : 0 < c.wpPsi) (hfc : 0 ≤ c.fcPsi) (hdt : 0 ≤ c.dt) {l : List (Front ℝ)}
    (hl : Rest c.geo psi l) (hpsi : 0 ≤ psi) {pet : ℝ} (hpet : 0 ≤ pet) : ∃ a, aetDemand c pet l = .ok a ∧ 0 ≤ a ∧ a ≤ pet * c.dt := by
  unfold aetDemand
  split_ifs with hp
  · obtain ⟨f, e, hf⟩ := hl.get (i := 0) hg.pos
    obtain ⟨s, hs, hph, _⟩ := hf.theta
    cases l with
    | nil => simp at e
    | cons x t =>
      simp only [List.getElem?_cons_zero, Option.some.injEq] at e
      subst e
      obtain ⟨_, _, _, _, _, _, _, he⟩ := C25_curve pet c.dt c.wpPsi c.fcPsi c.geo x t s (by rw [hf.layer]; exact hs) hph hwp hfc hpet hdt
        (by rw [hf.head]; exact hpsi)
      exact ⟨_, he, C25_bounded _ _ _ _ _ _ _ hpet hdt he⟩
  · exact ⟨0, rfl, le_rfl, mul_nonneg hpet hdt⟩

theorem subStep_drying {c : StepCfg ℝ} (hg : Ground c.geo) (hall : PhysGeo c.geo) (hpond : 0 ≤ c.pondMax) (hwp : 0 < c.wpPsi) (hfc : 0 ≤ c.fcPsi)
    (hdt : 0 ≤ c.dt) (hsl : ColumnStack c.geo sl) (hm : Mild sl lo hi N) {u : SubSt ℝ} (hu : Dries c sl psi u) (hr : Room sl lo hi psi P n)
    (hP : u.petMm * 0.1 * c.dt ≤ P) :
    ∃ w h A M, (∀ fuel, M ≤ fuel → subStep { c with fuel := fuel } u = .ok w) ∧ Spell c sl psi h A 1 u w := by
  have hs := hg.slabsOk hsl
  have hpet : 0 ≤ u.petMm * 0.1 := mul_nonneg hu.pet (by norm_num)
  obtain ⟨a, ea, a0, aP⟩ := aetDemand_rest hg hwp hfc hdt hu.rest hu.head hpet
  obtain ⟨h', e', hgen⟩ := hm.gentle hs hu.head hr a0 (aP.trans hP)
  obtain ⟨h, l, M, h1, h3, h0, hc⟩ := hu.rest.moveFronts_dry (dt := c.dt) hg hall hu.head hsl e' hgen
  obtain ⟨f, e1, _, hf⟩ := hu.rest.deref (i := 0) hg.pos
  obtain ⟨f', e1', _, hf'⟩ := h3.deref (i := 0) hg.pos
  obtain ⟨s, hso, _⟩ := hf.theta
  have hmax0 : CMath.fmax (0 : ℝ) 0 = 0 := max_self (0 : ℝ)
  have hmax : CMath.fmax u.petMm 0 = u.petMm := max_eq_left hu.pet
  have hmax2 : CMath.fmax (u.petMm * 0.1 * c.dt) 0 = u.petMm * 0.1 * c.dt := max_eq_left (mul_nonneg hpet hdt)
  have hcl : volonClean (0 : ℝ) = 0 := by
    unfold volonClean
    rw [hmax0]
    split_ifs <;> rfl
  have hw : ∀ a b d : ℝ, wantsFront a 0 b d 0 = false := by intro a b d; simp [wantsFront]
  have hsurf : ∀ fuel, surfaceFlow { c with fuel := fuel } u (wettingFrontFreeDrainage u.head) 0 0 a = .ok (0, 0, 0, 0) := by
    intro fuel
    unfold surfaceFlow
    rw [if_neg (lt_irrefl _)]
    dsimp only
    split_ifs with h
    · rfl
    · have : c.pondMax = 0 := le_antisymm (not_lt.1 h) hpond
      rw [this, sub_zero]
  have hflow : ∀ fuel, M ≤ fuel → flowMove { c with fuel := fuel } u (listCopy u.head) (wettingFrontFreeDrainage u.head) 0 0 a = .ok
      { head := l, prev := u.head, aet := a, volin := 0, runoff := 0, rech := 0, volon := 0, hp := 0, volinT := u.volinT,
        runoffT := u.runoffT + 0, rechT := u.rechT + 0 } := by
    intro fuel hf
    unfold flowMove
    rw [hsurf, ok_bind]
    simp only [listCopy_eq', hu.rest.drain hg, hu.volend, h1 fuel hf, ok_bind, if_neg (lt_irrefl (0 : ℝ))]
    rfl
  have hdz : ∀ fuel, LGAR.dzdtCalc fuel c.closed c.nint 0 c.geo l = .ok l := fun _ => h3.dzdtCalc hg
  have hm0 := hu.rest.massBal_stack hg hu.head hsl
  have hm1 := h3.massBal_stack hg h0 hsl
  have hmb : ¬ ((1.0e-4 : ℝ) < CMath.fabs (stackWater sl psi - a - stackWater sl h)) := by
    rw [fabs_eq, not_lt, abs_sub_comm]
    exact hc.trans (by norm_num)
  have hdep : 0 < f'.depth := hg.cum_lt (i := 0) (j := 1) (by omega) hg.pos hg.top hf'.depth
  refine ⟨
    { head := l, prev := u.head, precipMm := 0, petMm := u.petMm, timeS := u.timeS + c.dt * 3600.0, timesteps := u.timesteps + 1,
      precipPrev := 0, volend := stackWater sl h, volon := 0, precipT := u.precipT, petT := u.petT + u.petMm * 0.1 * c.dt, aetT := u.aetT + a,
      volinT := u.volinT, runoffT := u.runoffT, rechT := u.rechT, surfT := u.surfT, qgwT := u.qgwT,
      localMb := stackWater sl psi - a - stackWater sl h }, h, a, M, fun fuel hfu => ?_, ?_⟩
  · have ea' : aetDemand { c with fuel := fuel } (u.petMm * 0.1) u.head = .ok a := ea
    unfold subStep
    simp only [hu.precip, hu.volon, hmax, hmax0, zero_mul, add_zero, ea', ok_bind, hm0, hcl,
      e1, hf.layer, hso, hw, subFlow, Bool.false_eq_true, if_false, hflow fuel hfu, hdz, hm1, e1',
      (show cassert (0 < f'.depth) "state->head->depth_cm > 0.0" = .ok () from cassert_ok_iff.2 hdep)]
    simp only [sub_zero, hmax2]
    rw [if_neg hmb]
    rfl
  · exact ⟨⟨h3, h0, rfl, rfl, hu.pet, rfl⟩, by simpa using hc, a0, by simpa using aP, rfl, rfl, by simp, rfl, rfl, rfl, rfl⟩

theorem Spell.trans {c : StepCfg ℝ} {x a b : ℝ} {i j : Nat} {u v w : SubSt ℝ} (h1 : Spell c sl psi h a i u v) (h2 : Spell c sl h x b j v w) :
    Spell c sl psi x (a + b) (i + j) u w := by
  refine ⟨h2.dries, ?_, add_nonneg h1.aet0 h2.aet0, ?_, h2.petMm.trans h1.petMm, ?_, ?_, h2.precipT.trans h1.precipT,
    h2.volinT.trans h1.volinT, h2.runoffT.trans h1.runoffT, h2.rechT.trans h1.rechT⟩
  · obtain ⟨p1, p2⟩ := abs_le.mp h1.close
    obtain ⟨q1, q2⟩ := abs_le.mp h2.close
    push_cast
    rw [abs_le]
    constructor <;> linarith
  · have := h1.aetP
    have e := h2.aetP
    rw [h1.petMm] at e
    push_cast; linarith
  · rw [h2.aetT, h1.aetT]; ring
  · rw [h2.petT, h1.petT, h1.petMm]; push_cast; ring

theorem Spell.refl {c : StepCfg ℝ} {u : SubSt ℝ} (hu : Dries c sl psi u) : Spell c sl psi psi 0 0 u u :=
  ⟨hu, by simp, le_rfl, by simp, rfl, by simp, by simp, rfl, rfl, rfl, rfl⟩

theorem subLoop_dry {c : StepCfg ℝ} (hg : Ground c.geo) (hall : PhysGeo c.geo) (hpond : 0 ≤ c.pondMax) (hwp : 0 < c.wpPsi) (hfc : 0 ≤ c.fcPsi)
    (hdt : 0 ≤ c.dt) (hsl : ColumnStack c.geo sl) (hm : Mild sl lo hi N) : ∀ {k n : Nat} {psi P : ℝ} {u : SubSt ℝ}, Dries c sl psi u →
    Room sl lo hi psi P n → k ≤ n → k * (u.petMm * 0.1 * c.dt) ≤ P →
    ∃ w h A j M, (∀ fuel, M ≤ fuel → subLoop { c with fuel := fuel } k u = .ok w) ∧ Spell c sl psi h A j u w ∧ j ≤ k
  | 0, n, psi, P, u, hu, _, _, _ => ⟨u, psi, 0, 0, 0, fun _ _ => rfl, .refl hu, le_rfl⟩
  | k + 1, n, psi, P, u, hu, hr, hk, hP => by
    have hp0 : 0 ≤ u.petMm * 0.1 * c.dt := mul_nonneg (mul_nonneg hu.pet (by norm_num)) hdt
    have hk0 : (0 : ℝ) ≤ k * (u.petMm * 0.1 * c.dt) := mul_nonneg (Nat.cast_nonneg k) hp0
    push_cast at hP
    obtain ⟨v, h, A, M, e, hv⟩ := subStep_drying hg hall hpond hwp hfc hdt hsl hm hu hr (by linarith)
    by_cases hend : c.endtimeS ≤ v.timeS ∧ c.standalone = true
    · refine ⟨v, h, A, 1, M, fun fuel hf => ?_, hv, by omega⟩
      unfold subLoop
      rw [e fuel hf, ok_bind, if_pos hend]
      rfl
    · obtain ⟨m, rfl⟩ : ∃ m, n = m + 1 := ⟨n - 1, by omega⟩
      have hr' := hr.next hv.aet0 (by simpa using hv.aetP) (by simpa using hv.close)
      obtain ⟨w, x, B, j, M', e', hw, hj⟩ := subLoop_dry hg hall hpond hwp hfc hdt hsl hm (k := k) hv.dries hr' (by omega)
        (by rw [hv.petMm]; linarith)
      refine ⟨w, x, A + B, 1 + j, max M M', fun fuel hf => ?_, hv.trans hw, by omega⟩
      unfold subLoop
      rw [e fuel (le_trans (le_max_left _ _) hf), ok_bind, if_neg hend]
      exact e' fuel (le_trans (le_max_right _ _) hf)

theorem StackTo.frost {g : Geo ℝ} {b : SoilProps ℝ → ℝ} {z : ℝ} {k : Nat} (h : StackTo g b z k sl) (fs : List ℝ) :
    StackTo { g with frozen := fs } b z k sl := ⟨h.length, h.soil, h.base, h.thick⟩

/-- A state between Updates of a dry spell: one front per layer at one head, at most `n` sub-timesteps per Update. -/
structure Drought (sl : List Slab) (n : Nat) (psi : ℝ) (s : State ℝ) : Prop where
  still : Still psi s
  head : 0 ≤ psi
  phys : PhysGeo s.geo
  stack : ColumnStack s.geo sl
  wp : 0 < s.p.wpPsi
  fc : 0 ≤ s.p.fcPsi
  calFc : s.p.calibFlag = true → 0 ≤ s.calib.fcPsi
  count : ∃ k : Nat, 1 ≤ k ∧ k ≤ n ∧ s.p.forcingResH = k * s.p.timestepH

/-- What Updates of a dry spell leave as it was, and the ET `A` they booked. -/
structure Dried (s s' : State ℝ) (A : ℝ) : Prop where
  soils : s'.soils = s.soils
  cum : s'.p.cum = s.p.cum
  tempZ : s'.p.soilTempZ = s.p.soilTempZ
  sft : s'.p.sftCoupled = s.p.sftCoupled
  first : s'.p.frozen.take 1 = s.p.frozen.take 1
  layers : s'.p.numLayers = s.p.numLayers
  types : s'.p.layerSoilType = s.p.layerSoilType
  res : s'.p.forcingResH = s.p.forcingResH
  start : s'.mb.volstart = s.mb.volstart
  precip : s'.mb.volprecip = s.mb.volprecip
  infil : s'.mb.volin = s.mb.volin
  runoff : s'.mb.volrunoff = s.mb.volrunoff
  rech : s'.mb.volrech = s.mb.volrech
  giuh : s'.mb.volgiuh = s.mb.volgiuh
  Q : s'.mb.volQ = s.mb.volQ
  calib : s'.mb.volcalib = s.mb.volcalib
  volon : s'.mb.volonT = 0
  aet : s'.mb.volAET = s.mb.volAET + A
  aet0 : 0 ≤ A
  aetPet : A ≤ s'.mb.volPET - s.mb.volPET

theorem Dried.trans {a b c : State ℝ} {x y : ℝ} (h1 : Dried a b x) (h2 : Dried b c y) : Dried a c (x + y) :=
  ⟨h2.soils.trans h1.soils, h2.cum.trans h1.cum, h2.tempZ.trans h1.tempZ, h2.sft.trans h1.sft, h2.first.trans h1.first,
    h2.layers.trans h1.layers, h2.types.trans h1.types, h2.res.trans h1.res, h2.start.trans h1.start, h2.precip.trans h1.precip, h2.infil.trans h1.infil, h2.runoff.trans h1.runoff,
    h2.rech.trans h1.rech, h2.giuh.trans h1.giuh, h2.Q.trans h1.Q, h2.calib.trans h1.calib, h2.volon,
    by rw [h2.aet, h1.aet]; ring, add_nonneg h1.aet0 h2.aet0, by have := h1.aetPet; have := h2.aetPet; linarith⟩

/-- One Update of a dry spell. -/
theorem update_dry {sa : Bool} {s : State ℝ} {t : List ℝ} {e : ℝ} {m : Nat} (he : 0 ≤ e) (h : Drought sl n psi s) (hm : Mild sl lo hi N)
    (hr : Room sl lo hi psi P m) (hnm : n ≤ m) (hP : e * 0.1 * s.p.forcingResH ≤ P)
    (hfr : s.p.sftCoupled = true → ∃ fs, frozenFactor s.p.cum (s.p.soilTempZ.zip t) s.p.frozen = .ok fs) :
    ∃ (s' : State ℝ) (x A : ℝ) (j M : Nat), (∀ fuel, M ≤ fuel → update fuel sa { s with precipMm := 0, petMm := e, p := { s.p with soilTemp := t } } = .ok s') ∧
      Drought sl n x s' ∧ Dried s s' A ∧ s'.mb.volPET - s.mb.volPET ≤ e * 0.1 * s.p.forcingResH ∧
      |stackWater sl x - (stackWater sl psi - A)| ≤ j * 1e-12 ∧ j ≤ n := by
  have hst := h.still
  obtain ⟨fs, fc, pm, dt, hpre, hfok, hfirst, hpm, hfc, hdt0, hdt2⟩ := hst.pre he h.head hfr
  let s1 : State ℝ := { s with precipMm := 0, petMm := e, p := { s.p with soilTemp := t } }
  generalize hs2 : ({ s with precipMm := 0, petMm := e, p := { s.p with
        soilTemp := t, frozen := fs, calibFlag := false, fcPsi := fc, pondMax := pm, timestepH := dt,
        forcingInterval := CMath.toInt (s.p.forcingResH / dt + 1.0e-8) } } : State ℝ) = s2 at hpre
  have hfc0 : 0 ≤ fc := by
    rcases hfc with rfl | ⟨h1, rfl⟩
    · exact h.fc
    · exact h.calFc h1
  obtain ⟨k, hk1, hkn, hk⟩ : ∃ k : Nat, 1 ≤ k ∧ k ≤ n ∧ s.p.forcingResH = k * dt := by
    obtain ⟨k, hk1, hkn, hk⟩ := h.count
    rcases hdt2 with rfl | rfl
    · exact ⟨k, hk1, hkn, hk⟩
    · exact ⟨1, le_rfl, hk1.trans hkn, by simp⟩
  have hcount : CMath.toInt (s.p.forcingResH / dt + 1.0e-8) ≤ (k : Int) := by
    have : s.p.forcingResH / dt = k := by rw [hk]; field_simp
    rw [this]
    exact (toInt_count (K := ℝ) (Nat.cast_nonneg k) le_rfl).2
  have hgeo : s2.geo = { s.geo with frozen := fs } := by rw [← hs2]; rfl
  have hg2 : Ground s2.geo := by rw [hgeo]; exact hst.ground.frozen hfok
  have hr2 : Rest s2.geo psi s2.head := by rw [hgeo, ← hs2]; exact hst.rest.frost fs
  have hall2 : PhysGeo s2.geo := by rw [hgeo]; exact h.phys
  have hsl2 : ColumnStack s2.geo sl := by rw [hgeo]; exact h.stack.frost fs
  have hmass := hr2.massBal_stack hg2 h.head hsl2
  have hQ : Dries (stepCfg 0 sa s2) sl psi (subInit s2 (stackWater sl psi)) := by
    refine ⟨hr2, h.head, rfl, ?_, ?_, ?_⟩
    · show s2.precipMm = 0; rw [← hs2]
    · show 0 ≤ s2.petMm; rw [← hs2]; exact he
    · show s2.mb.volonT = 0; rw [← hs2]; exact hst.volon
  have hcdt : (stepCfg 0 sa s2).dt = dt := by show s2.p.timestepH = dt; rw [← hs2]
  have hcnt : s2.p.forcingInterval.toNat ≤ k := by rw [← hs2]; show (CMath.toInt (s.p.forcingResH / dt + 1.0e-8)).toNat ≤ k; omega
  have hpet2 : (subInit s2 (stackWater sl psi)).petMm = e := by show s2.petMm = e; rw [← hs2]
  have hed : 0 ≤ e * 0.1 * dt := mul_nonneg (mul_nonneg he (by norm_num)) hdt0.le
  have hle : ∀ i : Nat, i ≤ k → i * (e * 0.1 * dt) ≤ e * 0.1 * s.p.forcingResH := by
    intro i hi
    rw [hk]
    have : (i : ℝ) ≤ k := by exact_mod_cast hi
    have := mul_le_mul_of_nonneg_right this hed
    linarith
  obtain ⟨w, x, A, j, M, hw, hsp, hj⟩ := subLoop_dry (c := stepCfg 0 sa s2) hg2 hall2 (by show 0 ≤ s2.p.pondMax; rw [← hs2]; exact hpm)
    (by show 0 < s2.p.wpPsi; rw [← hs2]; exact h.wp) (by show 0 ≤ s2.p.fcPsi; rw [← hs2]; exact hfc0) (by rw [hcdt]; exact hdt0.le) hsl2 hm
    (k := s2.p.forcingInterval.toNat) hQ hr (hcnt.trans (hkn.trans hnm)) (by
      rw [hcdt, hpet2]
      exact (hle _ hcnt).trans hP)
  have hrun : w.runoffT = 0 := hsp.runoffT
  obtain ⟨q, hgi, hql, hq0⟩ := giuh_zero hst.routes hst.queue
  have hupd : ∀ s', updatePost s2 0 w = .ok s' → ∀ fuel, M ≤ fuel → update fuel sa s1 = .ok s' := by
    intro s' hs' fuel hf
    unfold LGAR.update
    rw [show s1.p.invalidSoil = false from hst.valid]
    simp only [Bool.false_eq_true, if_false]
    have hm2 : massBal s2.p.cum s2.head = .ok (stackWater sl psi) := hmass
    rw [hpre, ok_bind]
    simp only
    rw [hm2, ok_bind, show stepCfg fuel sa s2 = { stepCfg 0 sa s2 with fuel := fuel } from rfl, hw fuel hf, ok_bind]
    exact hs'
  have hgi2 : giuhConv w.runoffT s2.numGiuh s2.giuhOrd s2.giuhQueue = .ok (0, q) := by
    rw [hrun, ← hs2]; exact hgi
  obtain ⟨s', hs'⟩ : ∃ s', updatePost s2 0 w = .ok s' := by
    unfold updatePost
    rw [hgi2, ok_bind]
    exact ⟨_, rfl⟩
  refine ⟨s', x, A, j, M, hupd s' hs', ?_⟩
  unfold updatePost at hs'
  rw [hgi2, ok_bind] at hs'
  simp only [pure_eq_ok, Except.ok.injEq] at hs'
  have hgeo' : s'.geo = s2.geo := by rw [← hs']; rfl
  have hz : ∀ x : ℝ, x + 0 = x := add_zero
  have hpt : w.petT = j * (e * 0.1 * dt) := by
    rw [hsp.petT, hpet2, hcdt]; exact zero_add _
  have hpv : s'.mb.volPET - s.mb.volPET = j * (e * 0.1 * dt) := by
    rw [← hs', ← hs2]; show s.mb.volPET + w.petT - _ = _; rw [hpt]; ring
  have haP : A ≤ j * (e * 0.1 * dt) := by have := hsp.aetP; rwa [hpet2, hcdt] at this
  refine ⟨⟨⟨by rw [hgeo']; exact hg2, by rw [hgeo', ← hs']; exact hsp.dries.rest, ?_, ?_, ?_, ?_, ?_, ?_, ?_, ?_⟩, hsp.dries.head,
    by rw [hgeo']; exact hall2, by rw [hgeo']; exact hsl2, ?_, ?_, ?_, ?_⟩, ⟨?_, ?_, ?_, ?_, ?_, ?_, ?_, ?_, ?_, ?_, ?_, ?_, ?_, ?_, ?_, ?_,
    ?_, ?_, hsp.aet0, by rw [hpv]; exact haP⟩, by rw [hpv]; exact hle j (hj.trans hcnt), hsp.close, hj.trans (hcnt.trans hkn)⟩
  · rw [← hs', ← hs2]; exact hst.valid
  · rw [← hs', ← hs2]; exact hdt0
  · rw [← hs', ← hs2]; exact hst.res
  · rw [← hs']; exact hsp.dries.volon
  · rw [← hs', ← hs2]; exact hpm
  · intro hh; rw [← hs', ← hs2] at hh; simp at hh
  · have r := hst.routes
    constructor
    · rw [← hs', ← hs2]; exact r.num
    · rw [← hs', ← hs2]; exact r.pos
    · rw [← hs', ← hs2]; exact hql.trans r.len
  · rw [← hs']; exact hq0
  · rw [← hs', ← hs2]; exact h.wp
  · rw [← hs', ← hs2]; exact hfc0
  · intro hh; rw [← hs', ← hs2] at hh; simp at hh
  · rw [← hs', ← hs2]; exact ⟨k, hk1, hkn, hk⟩
  · rw [← hs', ← hs2]
  · rw [← hs', ← hs2]
  · rw [← hs', ← hs2]
  · rw [← hs', ← hs2]
  · rw [← hs', ← hs2]; exact hfirst
  · rw [← hs', ← hs2]
  · rw [← hs', ← hs2]
  · rw [← hs', ← hs2]
  · rw [← hs', ← hs2]
  · rw [← hs', ← hs2]; show s.mb.volprecip + w.precipT = _; rw [hsp.precipT]; exact hz _
  · rw [← hs', ← hs2]; show s.mb.volin + w.volinT = _; rw [hsp.volinT]; exact hz _
  · rw [← hs', ← hs2]; show s.mb.volrunoff + w.runoffT = _; rw [hsp.runoffT]; exact hz _
  · rw [← hs', ← hs2]; show s.mb.volrech + w.rechT = _; rw [hsp.rechT]; exact hz _
  · rw [← hs', ← hs2]; exact hz _
  · rw [← hs', ← hs2]; exact hz _
  · rw [← hs', ← hs2]; exact hz _
  · rw [← hs']; exact hsp.dries.volon
  · rw [← hs', ← hs2]; show s.mb.volAET + w.aetT = _; rw [hsp.aetT]; show s.mb.volAET + (0 + A) = _; rw [zero_add]

theorem spellPet_nonneg {res : ℝ} (hres : 0 ≤ res) {xs : List (ℝ × List ℝ)} (h : ∀ x ∈ xs, 0 ≤ x.1) : 0 ≤ spellPet res xs := by
  unfold spellPet
  refine List.sum_nonneg fun y hy => ?_
  obtain ⟨x, hx, rfl⟩ := List.mem_map.mp hy
  exact mul_nonneg (mul_nonneg (h x hx) (by norm_num)) hres

/-- A dry spell. -/
theorem drySpell_dry {sa : Bool} (hm : Mild sl lo hi N) : ∀ {xs : List (ℝ × List ℝ)} {s : State ℝ} {psi : ℝ}, xs ≠ [] → (∀ x ∈ xs, 0 ≤ x.1) →
    Drought sl n psi s → Room sl lo hi psi (spellPet s.p.forcingResH xs) (xs.length * n) →
    (s.p.sftCoupled = true → ∀ x ∈ xs, ∃ fs, frozenFactor s.p.cum (s.p.soilTempZ.zip x.2) s.p.frozen = .ok fs) →
    ∃ (s' : State ℝ) (x A : ℝ) (j M : Nat), (∀ fuel, M ≤ fuel → drySpell fuel sa xs s = .ok s') ∧ Drought sl n x s' ∧ Dried s s' A ∧
      s'.mb.volPET - s.mb.volPET ≤ spellPet s.p.forcingResH xs ∧ |stackWater sl x - (stackWater sl psi - A)| ≤ j * 1e-12 ∧ j ≤ xs.length * n
  | [], _, _, hne, _, _, _, _ => absurd rfl hne
  | y :: ys, s, psi, _, hpet, h, hr, hf => by
    have hys : 0 ≤ spellPet s.p.forcingResH ys := spellPet_nonneg h.still.res.le (fun x hx => hpet x (by simp [hx]))
    have hcons : spellPet s.p.forcingResH (y :: ys) = y.1 * 0.1 * s.p.forcingResH + spellPet s.p.forcingResH ys := by simp [spellPet]
    have hlen : (y :: ys).length * n = ys.length * n + n := by rw [List.length_cons]; ring
    obtain ⟨s1, x, A, j, M, e1, h1, d1, p1, w1, j1⟩ := update_dry (sa := sa) (t := y.2) (hpet y (by simp)) h hm hr
      (by rw [hlen]; omega) (by rw [hcons]; linarith) (fun hs => hf hs y (by simp))
    cases hc : ys with
    | nil =>
      subst hc
      refine ⟨s1, x, A, j, M, fun fuel hfu => ?_, h1, d1, by rw [hcons]; linarith, w1, by simpa using j1⟩
      unfold drySpell
      rw [e1 fuel hfu, ok_bind]; rfl
    | cons z zs =>
      rw [← hc]
      have hr' : Room sl lo hi x (spellPet s1.p.forcingResH ys) (ys.length * n) := by
        obtain ⟨b1, b2⟩ := abs_le.mp w1
        have hd := hr.dry
        have hw := hr.wet
        have hj : (j : ℝ) ≤ n := by exact_mod_cast j1
        have a0 := d1.aetPet
        have a1 := d1.aet0
        rw [hlen] at hd hw
        rw [hcons] at hd
        push_cast at hd hw
        have : (j : ℝ) * 1e-12 ≤ n * 1e-12 := mul_le_mul_of_nonneg_right hj (by norm_num)
        rw [d1.res]
        constructor <;> push_cast <;> linarith
      obtain ⟨s', v, B, i, M', e', h', d', p', w', i'⟩ := drySpell_dry (sa := sa) hm (xs := ys) (by rw [hc]; simp)
        (fun x hx => hpet x (by simp [hx])) h1 hr' (fun hs t' ht' => by
          rw [d1.sft] at hs
          obtain ⟨fs, hfs⟩ := hf hs t' (by simp [ht'])
          unfold frozenFactor at hfs ⊢
          simp only [bind_ok_iff] at hfs
          obtain ⟨r, hr, _⟩ := hfs
          rw [d1.cum, d1.tempZ, hr, ok_bind]
          exact ⟨_, rfl⟩)
      refine ⟨s', v, A + B, j + i, max M M', fun fuel hfu => ?_, h', d1.trans d', ?_, ?_, ?_⟩
      · unfold drySpell
        rw [e1 fuel (le_trans (le_max_left _ _) hfu), ok_bind]
        exact e' fuel (le_trans (le_max_right _ _) hfu)
      · rw [d1.res] at p'
        rw [hcons]; linarith
      · obtain ⟨b1, b2⟩ := abs_le.mp w1
        obtain ⟨c1, c2⟩ := abs_le.mp w'
        push_cast
        rw [abs_le]
        constructor <;> linarith
      · rw [hlen]; omega

end
end LGAR
