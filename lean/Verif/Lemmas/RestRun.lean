import Verif.Lemmas.Rest
import Verif.Lemmas.Cut
import Verif.Lemmas.Giuh
import Verif.Props.Frozen
/-
Whole Updates of a column at rest.
-/
namespace LGAR

variable {psi : ℝ}

/-- The calibration variables hold the values of the soils in use. -/
structure Defaults (s : State ℝ) : Prop where
  count : s.p.numWf.toNat = s.head.length
  pond : 0 ≤ s.calib.pondMax
  soil : ∀ k, 1 ≤ k → k ≤ s.p.numLayers → ∃ so, s.geo.soil k = .ok so ∧ s.calib.thetaE[k - 1]? = some so.thetaE ∧
    s.calib.thetaR[k - 1]? = some so.thetaR ∧ s.calib.vgN[k - 1]? = some so.vgN ∧ s.calib.vgAlpha[k - 1]? = some so.vgAlpha ∧
    s.calib.Ksat[k - 1]? = some so.Ksat

/-- A state between Updates in which nothing moves. -/
structure Still (psi : ℝ) (s : State ℝ) : Prop where
  ground : Ground s.geo
  rest : Rest s.geo psi s.head
  valid : s.p.invalidSoil = false
  dt : 0 < s.p.timestepH
  res : 0 < s.p.forcingResH
  volon : s.mb.volonT = 0
  pond : 0 ≤ s.p.pondMax
  cal : s.p.calibFlag = true → Defaults s
  routes : Routes s
  queue : ∀ q ∈ s.giuhQueue, q = 0

/-- What Updates without rain and demand leave as it was. -/
structure Kept (s s' : State ℝ) : Prop where
  fronts : SameFronts s.head s'.head
  soils : s'.soils = s.soils
  cum : s'.p.cum = s.p.cum
  tempZ : s'.p.soilTempZ = s.p.soilTempZ
  sft : s'.p.sftCoupled = s.p.sftCoupled
  first : s'.p.frozen.take 1 = s.p.frozen.take 1
  start : s'.mb.volstart = s.mb.volstart
  precip : s'.mb.volprecip = s.mb.volprecip
  infil : s'.mb.volin = s.mb.volin
  runoff : s'.mb.volrunoff = s.mb.volrunoff
  aet : s'.mb.volAET = s.mb.volAET
  pet : s'.mb.volPET = s.mb.volPET
  rech : s'.mb.volrech = s.mb.volrech
  giuh : s'.mb.volgiuh = s.mb.volgiuh
  Q : s'.mb.volQ = s.mb.volQ
  calib : s'.mb.volcalib = s.mb.volcalib
  volon : s'.mb.volonT = 0

theorem Kept.trans {a b c : State ℝ} (h1 : Kept a b) (h2 : Kept b c) : Kept a c :=
  ⟨h1.fronts.trans h2.fronts, h2.soils.trans h1.soils, h2.cum.trans h1.cum, h2.tempZ.trans h1.tempZ, h2.sft.trans h1.sft,
    h2.first.trans h1.first, h2.start.trans h1.start, h2.precip.trans h1.precip, h2.infil.trans h1.infil, h2.runoff.trans h1.runoff,
    h2.aet.trans h1.aet, h2.pet.trans h1.pet, h2.rech.trans h1.rech, h2.giuh.trans h1.giuh, h2.Q.trans h1.Q,
    h2.calib.trans h1.calib, h2.volon⟩

theorem Rest.frost {g : Geo ℝ} {l : List (Front ℝ)} (h : Rest g psi l) (fs : List ℝ) : Rest { g with frozen := fs } psi l :=
  ⟨h.len, fun i f hi => by
    have := h.front i f hi
    exact ⟨this.layer, this.number, this.bottom, this.speed, this.head, this.cond, this.depth, this.theta⟩⟩

theorem Ground.frozen {g : Geo ℝ} (h : Ground g) {fs : List ℝ}
    (hf : ∀ k, 1 ≤ k → k ≤ g.numLayers → ∃ ff, fs[k]? = some ff ∧ 0 ≤ ff) : Ground { g with frozen := fs } :=
  ⟨h.pos, h.soil, hf, h.top, h.cum⟩

/-- Calibration with the values in use changes nothing. -/
theorem calibLoop_rest {g : Geo ℝ} {cal : Calib ℝ}
    (hcal : ∀ k, 1 ≤ k → k ≤ g.numLayers → ∃ so, g.soil k = .ok so ∧ cal.thetaE[k - 1]? = some so.thetaE ∧
      cal.thetaR[k - 1]? = some so.thetaR ∧ cal.vgN[k - 1]? = some so.vgN ∧ cal.vgAlpha[k - 1]? = some so.vgAlpha ∧
      cal.Ksat[k - 1]? = some so.Ksat) :
    ∀ {l : List (Front ℝ)} {k : Nat}, k + l.length ≤ g.numLayers → (∀ i f, l[i]? = some f → RestFront g psi (k + i + 1) f) →
    calibLoop g.soilType cal l.length g.soils l = .ok (g.soils, l)
  | [], _, _, _ => rfl
  | f :: t, k, hk, hf => by
    have h0 : RestFront g psi (k + 1) f := hf 0 f rfl
    simp only [List.length_cons] at hk
    obtain ⟨so, hso, c1, c2, c3, c4, c5⟩ := hcal (k + 1) (by omega) (by omega)
    obtain ⟨so', hso', hp, hth⟩ := h0.theta
    rw [hso, Except.ok.injEq] at hso'
    subst hso'
    have ih := calibLoop_rest hcal (l := t) (k := k + 1) (by omega)
      (fun i f hi => by have := hf (i + 1) f hi; rwa [show k + (i + 1) + 1 = k + 1 + i + 1 by omega] at this)
    unfold Geo.soil at hso
    simp only [bind_ok_iff, idx_ok_iff, idxI_ok_iff] at hso
    obtain ⟨st, hst, hst0, hget⟩ := hso
    have hq : cdiv 1 so.vgN = .ok (1 / so.vgN) := cdiv_ne (ne_of_gt hp.n_pos)
    have hso2 : ({ so with vgM := 1 - 1 / so.vgN } : SoilProps ℝ) = so := by rw [← hp.m]
    have hone : calibFront g.soilType cal g.soils f = .ok (g.soils, f) := by
      unfold calibFront
      rw [h0.layer, idx_ok_iff.2 hst, ok_bind, idxI_ok_iff.2 ⟨hst0, hget⟩, ok_bind, idxPred_get (by omega) c1, ok_bind,
        idxPred_get (by omega) c2, ok_bind, idxPred_get (by omega) c3, ok_bind, hq, ok_bind, idxPred_get (by omega) c4, ok_bind,
        idxPred_get (by omega) c5, ok_bind]
      have hth' : calcThetaFromH psi so.vgAlpha (1 - 1 / so.vgN) so.vgN so.thetaE so.thetaR = .ok f.theta := by rw [← hp.m]; exact hth
      simp only [hso2, h0.head, hth', ok_bind, set_get_self hget]
      have : ({ f with theta := f.theta, psi := psi, layer := k + 1 } : Front ℝ) = f := by rw [← h0.head, ← h0.layer]
      rw [this]; rfl
    rw [List.length_cons, calibLoop, hone, ok_bind]
    simp only [ih, ok_bind]
    rfl

theorem zeros_eq {l : List ℝ} (h : ∀ q ∈ l, q = 0) : l = List.replicate l.length 0 := List.eq_replicate_of_mem h

theorem giuh_zero {s : State ℝ} (hr : Routes s) (hq : ∀ q ∈ s.giuhQueue, q = 0) :
    ∃ q, giuhConv 0 s.numGiuh s.giuhOrd s.giuhQueue = .ok (0, q) ∧ q.length = s.giuhQueue.length ∧ ∀ x ∈ q, x = 0 := by
  obtain ⟨o, os, ho⟩ : ∃ o os, s.giuhOrd = o :: os := by
    cases h : s.giuhOrd with
    | nil => exact absurd h hr.pos
    | cons o os => exact ⟨o, os, rfl⟩
  have hz := zeros_eq hq
  rw [hr.len, ho] at hz
  have e : s.giuhQueue = 0 :: List.replicate os.length 0 ++ [0] := by
    rw [hz, List.length_cons, List.replicate_succ, List.replicate_succ']
    rfl
  have := giuhConv_eq (0 : ℝ) 0 0 o (List.replicate os.length 0) os (by simp)
  rw [List.length_replicate] at this
  refine ⟨giuhMix 0 (List.replicate os.length 0) os ++ [0, 0], ?_, ?_, ?_⟩
  · rw [e, hr.num, ho, List.length_cons, this]
    simp
  · rw [e]; simp [giuhMix]
  · intro x hx
    rw [List.mem_append] at hx
    rcases hx with hx | hx
    · simp only [giuhMix, mul_zero, add_zero] at hx
      obtain ⟨i, hi, rfl⟩ := List.getElem_of_mem hx
      simp
    · simpa using hx

/-- What Update does before its loop over sub-timesteps when there is no rain: the frost factors, calibration by the values in use, the
time step. -/
theorem Still.pre {s : State ℝ} {t : List ℝ} {e : ℝ} (he : 0 ≤ e) (hpsi : 0 ≤ psi) (h : Still psi s)
    (hfr : s.p.sftCoupled = true → ∃ fs, frozenFactor s.p.cum (s.p.soilTempZ.zip t) s.p.frozen = .ok fs) :
    ∃ fs fc pm dt, updatePre { s with precipMm := 0, petMm := e, p := { s.p with soilTemp := t } } = .ok
        ({ s with precipMm := 0, petMm := e, p := { s.p with
          soilTemp := t, frozen := fs, calibFlag := false, fcPsi := fc, pondMax := pm, timestepH := dt,
          forcingInterval := CMath.toInt (s.p.forcingResH / dt + 1.0e-8) } }, 0) ∧
      (∀ k, 1 ≤ k → k ≤ s.p.numLayers → ∃ ff, fs[k]? = some ff ∧ 0 ≤ ff) ∧ fs.take 1 = s.p.frozen.take 1 ∧ 0 ≤ pm ∧
      (fc = s.p.fcPsi ∨ s.p.calibFlag = true ∧ fc = s.calib.fcPsi) ∧ 0 < dt ∧ (dt = s.p.timestepH ∨ dt = s.p.forcingResH) := by
  have hfz : s.p.frozen ≠ [] := by
    obtain ⟨ff, hff, _⟩ := h.ground.frost 1 le_rfl h.ground.pos
    intro he
    have : s.geo.frozen = [] := he
    rw [this] at hff; simp at hff
  have hcumlen : s.p.numLayers < s.p.cum.length := by
    obtain ⟨a, b, _, hb, _⟩ := h.ground.cum (s.p.numLayers - 1) (by have := h.ground.pos; exact Nat.sub_lt this one_pos)
    have := (List.getElem?_eq_some_iff.mp hb).1
    have hp : 0 < s.p.numLayers := h.ground.pos
    have e : s.geo.cum = s.p.cum := rfl
    rw [e] at this; omega
  -- frost factors
  obtain ⟨fs, hf, hfok, hfirst⟩ : ∃ fs, (s.p.sftCoupled = true ∧ frozenFactor s.p.cum (s.p.soilTempZ.zip t) s.p.frozen = .ok fs ∨
      s.p.sftCoupled = false ∧ fs = s.p.frozen) ∧ (∀ k, 1 ≤ k → k ≤ s.p.numLayers → ∃ ff, fs[k]? = some ff ∧ 0 ≤ ff) ∧
      fs.take 1 = s.p.frozen.take 1 := by
    cases hs : s.p.sftCoupled with
    | false => exact ⟨s.p.frozen, .inr ⟨rfl, rfl⟩, h.ground.frost, rfl⟩
    | true =>
      obtain ⟨fs, hfs⟩ := hfr hs
      obtain ⟨h1, h2, h3⟩ := C27_bounds _ _ _ _ hfz hfs
      refine ⟨fs, .inl ⟨rfl, hfs⟩, fun k hk hkN => ?_, ?_⟩
      · have hlt : k < fs.length := by omega
        refine ⟨fs[k], List.getElem?_eq_getElem hlt, ?_⟩
        have : fs[k] ∈ fs.drop 1 := by
          rw [List.mem_drop_iff_getElem]
          exact ⟨k - 1, by omega, by congr 1; omega⟩
        have h5 := (h3 _ this).1
        have : (0 : ℝ) ≤ 0.05 := by norm_num
        exact this.trans h5
      · have hfs0 : fs ≠ [] := by intro he; rw [he] at h1; simp at h1
        cases fs with
        | nil => exact absurd rfl hfs0
        | cons a as =>
          cases hz : s.p.frozen with
          | nil => exact absurd hz hfz
          | cons b bs =>
            rw [hz] at h2
            simp only [List.head?_cons, Option.some.injEq] at h2
            simp [h2]
  -- calibration
  obtain ⟨fc, pm, hc, hpm, hfc⟩ : ∃ fc pm, (s.p.calibFlag = true ∧ fc = s.calib.fcPsi ∧ pm = s.calib.pondMax ∧
        calibLoop s.p.layerSoilType s.calib s.p.numWf.toNat s.soils s.head = .ok (s.soils, s.head) ∧
        (∃ m0 m1, massBal s.p.cum s.head = .ok m0 ∧ massBal s.p.cum s.head = .ok m1 ∧ (0 : ℝ) = m1 - m0) ∨
      s.p.calibFlag = false ∧ fc = s.p.fcPsi ∧ pm = s.p.pondMax ∧ s.head = s.head ∧ s.soils = s.soils ∧ (0 : ℝ) = 0) ∧ 0 ≤ pm ∧
      (fc = s.p.fcPsi ∨ s.p.calibFlag = true ∧ fc = s.calib.fcPsi) := by
    cases hs : s.p.calibFlag with
    | false => exact ⟨_, _, .inr ⟨rfl, rfl, rfl, rfl, rfl, rfl⟩, h.pond, .inl rfl⟩
    | true =>
      have hd := h.cal hs
      obtain ⟨m, hm, _⟩ := h.rest.massBal h.ground hpsi
      have hm' : massBal s.p.cum s.head = .ok m := hm
      refine ⟨_, _, .inl ⟨rfl, rfl, rfl, ?_, m, m, hm', hm', (sub_self m).symm⟩, hd.pond, .inr ⟨rfl, rfl⟩⟩
      have := calibLoop_rest (psi := psi) (g := s.geo) hd.soil (l := s.head) (k := 0) (by rw [h.rest.len]; omega)
        (fun i f hi => by rw [Nat.zero_add]; exact h.rest.front i f hi)
      rw [hd.count]; exact this
  -- the time step
  obtain ⟨dt, hdt, hdt0, hdt2⟩ : ∃ dt, chooseTimestep s.p 0 s.mb.volonT = dt ∧ 0 < dt ∧ (dt = s.p.timestepH ∨ dt = s.p.forcingResH) := by
    refine ⟨_, rfl, ?_⟩
    unfold chooseTimestep
    rw [h.volon]
    have h10 : ¬ ((10.0 : ℝ) < 0 ∨ (0 : ℝ) < 0) := by norm_num
    simp only [if_neg h10, if_neg (lt_irrefl (0 : ℝ))]
    split_ifs
    · show 0 < min s.p.forcingResH s.p.forcingResH ∧ (_ ∨ min s.p.forcingResH s.p.forcingResH = _)
      rw [min_self]; exact ⟨h.res, .inr rfl⟩
    · exact ⟨h.dt, .inl rfl⟩
  have hq : cdiv s.p.forcingResH dt = .ok (s.p.forcingResH / dt) := cdiv_ne (ne_of_gt hdt0)
  let s1 : State ℝ := { s with precipMm := 0, petMm := e, p := { s.p with soilTemp := t } }
  have hpre := updatePre_mk (s := s1) (d := 0) (q := s.p.forcingResH / dt) (fc := fc) (pm := pm) (fs := fs) (soils := s.soils)
    (l := s.head) le_rfl he (by rw [← hdt] at hq; rw [← hdt]; exact hq) hf hc
  have hdt1 : chooseTimestep s1.p s1.precipMm s1.mb.volonT = dt := hdt
  rw [hdt1] at hpre
  exact ⟨fs, fc, pm, dt, hpre, hfok, hfirst, hpm, hfc, hdt0, hdt2⟩

/-- One Update without rain and demand. -/
theorem update_rest {fuel : Nat} {sa : Bool} {s : State ℝ} {t : List ℝ} (hpsi : 0 ≤ psi) (h : Still psi s)
    (hfr : s.p.sftCoupled = true → ∃ fs, frozenFactor s.p.cum (s.p.soilTempZ.zip t) s.p.frozen = .ok fs) :
    ∃ s', update fuel sa { s with precipMm := 0, petMm := 0, p := { s.p with soilTemp := t } } = .ok s' ∧ Still psi s' ∧ Kept s s' := by
  obtain ⟨fs, fc, pm, dt, hpre, hfok, hfirst, hpm, _, hdt0, _⟩ := h.pre (e := 0) le_rfl hpsi hfr
  let s1 : State ℝ := { s with precipMm := 0, petMm := 0, p := { s.p with soilTemp := t } }
  generalize hs2 : ({ s with precipMm := 0, petMm := 0, p := { s.p with
        soilTemp := t, frozen := fs, calibFlag := false, fcPsi := fc, pondMax := pm, timestepH := dt,
        forcingInterval := CMath.toInt (s.p.forcingResH / dt + 1.0e-8) } } : State ℝ) = s2 at hpre
  have hgeo : s2.geo = { s.geo with frozen := fs } := by rw [← hs2]; rfl
  have hg2 : Ground s2.geo := by rw [hgeo]; exact h.ground.frozen hfok
  have hr2 : Rest s2.geo psi s2.head := by rw [hgeo, ← hs2]; exact h.rest.frost fs
  obtain ⟨m, hm, _⟩ := hr2.massBal hg2 hpsi
  have hQ : Quiet (stepCfg fuel sa s2) psi (subInit s2 m) (subInit s2 m) := by
    refine ⟨hr2, rfl, rfl, hm, ?_, ?_, ?_, rfl, rfl, rfl, rfl, rfl, rfl, rfl⟩
    · show s2.precipMm = 0; rw [← hs2]
    · show s2.petMm = 0; rw [← hs2]
    · show s2.mb.volonT = 0; rw [← hs2]; exact h.volon
  obtain ⟨w, hw, hq', _⟩ := subLoop_rest (c := stepCfg fuel sa s2) hg2 hpsi (by show 0 ≤ s2.p.pondMax; rw [← hs2]; exact hpm)
    (n := s2.p.forcingInterval.toNat) hQ
  have hrun : w.runoffT = 0 := hq'.runoffT
  obtain ⟨q, hgi, hql, hq0⟩ := giuh_zero h.routes h.queue
  have hupd : ∀ s', updatePost s2 0 w = .ok s' → update fuel sa s1 = .ok s' := by
    intro s' hs'
    unfold LGAR.update
    rw [show s1.p.invalidSoil = false from h.valid]
    simp only [Bool.false_eq_true, if_false]
    have hm2 : massBal s2.p.cum s2.head = .ok m := hm
    rw [hpre, ok_bind]
    simp only
    rw [hm2, ok_bind, hw, ok_bind]
    exact hs'
  have hpost : ∃ s', updatePost s2 0 w = .ok s' := by
    unfold updatePost
    have : giuhConv w.runoffT s2.numGiuh s2.giuhOrd s2.giuhQueue = .ok (0, q) := by
      rw [hrun, ← hs2]; exact hgi
    rw [this, ok_bind]
    exact ⟨_, rfl⟩
  obtain ⟨s', hs'⟩ := hpost
  refine ⟨s', hupd s' hs', ?_⟩
  unfold updatePost at hs'
  have hgi2 : giuhConv w.runoffT s2.numGiuh s2.giuhOrd s2.giuhQueue = .ok (0, q) := by
    rw [hrun, ← hs2]; exact hgi
  rw [hgi2, ok_bind] at hs'
  simp only [pure_eq_ok, Except.ok.injEq] at hs'
  have hgeo' : s'.geo = s2.geo := by rw [← hs']; rfl
  constructor
  · refine ⟨by rw [hgeo']; exact hg2, by rw [hgeo', ← hs']; exact hq'.rest, ?_, ?_, ?_, ?_, ?_, ?_, ?_, ?_⟩
    · rw [← hs', ← hs2]; exact h.valid
    · rw [← hs', ← hs2]; exact hdt0
    · rw [← hs', ← hs2]; exact h.res
    · rw [← hs']; exact hq'.volon
    · rw [← hs', ← hs2]; exact hpm
    · intro hh; rw [← hs', ← hs2] at hh; simp at hh
    · have r := h.routes
      constructor
      · rw [← hs', ← hs2]; exact r.num
      · rw [← hs', ← hs2]; exact r.pos
      · rw [← hs', ← hs2]; exact hql.trans r.len
    · rw [← hs']; exact hq0
  · have hz : ∀ x : ℝ, x + 0 = x := add_zero
    refine ⟨?_, ?_, ?_, ?_, ?_, ?_, ?_, ?_, ?_, ?_, ?_, ?_, ?_, ?_, ?_, ?_, ?_⟩
    · have := hq'.same
      rw [← hs']
      have e : (subInit s2 m).head = s.head := by show s2.head = _; rw [← hs2]
      rw [e] at this; exact this
    · rw [← hs', ← hs2]
    · rw [← hs', ← hs2]
    · rw [← hs', ← hs2]
    · rw [← hs', ← hs2]
    · rw [← hs', ← hs2]; exact hfirst
    · rw [← hs', ← hs2]
    · rw [← hs', ← hs2]; show s.mb.volprecip + w.precipT = _; rw [hq'.precipT]; exact hz _
    · rw [← hs', ← hs2]; show s.mb.volin + w.volinT = _; rw [hq'.volinT]; exact hz _
    · rw [← hs', ← hs2]; show s.mb.volrunoff + w.runoffT = _; rw [hq'.runoffT]; exact hz _
    · rw [← hs', ← hs2]; show s.mb.volAET + w.aetT = _; rw [hq'.aetT]; exact hz _
    · rw [← hs', ← hs2]; show s.mb.volPET + w.petT = _; rw [hq'.petT]; exact hz _
    · rw [← hs', ← hs2]; show s.mb.volrech + w.rechT = _; rw [hq'.rechT]; exact hz _
    · rw [← hs', ← hs2]; exact hz _
    · rw [← hs', ← hs2]; exact hz _
    · rw [← hs', ← hs2]; exact hz _
    · rw [← hs']; exact hq'.volon

end LGAR
