import Verif.Lemmas.Move
import Verif.Lemmas.Infil
import Verif.Spec.Run
/-
Lemmas about Update: inversion of its parts, and the invariants that hold in any arithmetic.
-/
set_option linter.unusedSectionVars false
namespace LGAR

section Free
variable {α : Type} [Add α] [Sub α] [Mul α] [Div α] [Neg α] [Zero α] [One α] [OfScientific α]
  [LT α] [LE α] [DecidableLT α] [DecidableLE α] [BEq α] [CMath α]

theorem listCopy_eq' (l : List (Front α)) : listCopy l = l := by
  induction l with
  | nil => rfl
  | cons f t ih => simp [listCopy, ih]

/-- createSurficial in any arithmetic: the list. -/
theorem createFront_inv {g : Geo α} {ponded dry theta1 : α} {l : List (Front α)} {r : α × α × List (Front α)}
    (h : createFront g ponded dry theta1 l = .ok r) :
    ∃ s thn Se psi Kc ff, g.soil 1 = .ok s ∧ g.frozen[1]? = some ff ∧
      surficialSplit ponded dry theta1 s.thetaE = .ok (r.2.1, r.1, thn) ∧
      calcSeFromTheta thn s.thetaE s.thetaR = .ok Se ∧ calcHFromSe Se s.vgAlpha s.vgM s.vgN = .ok psi ∧
      calcKFromSe Se (s.Ksat * ff) s.vgM = .ok Kc ∧
      r.2.2 = (⟨dry, thn, psi, Kc * ff, 1, 1, false, 0⟩ : Front α) :: incFronts l := by
  unfold createFront at h
  simp only [bind_ok_iff, Prod.exists, deref_ok_iff, idx_ok_iff] at h
  obtain ⟨s, hs, volin, pd, thn, hsp, ff, hff, Se, hSe, psi, hpsi, K, hK, c, hc, h⟩ := h
  have hc' : c = ⟨dry, thn, 0, 0, 1, 1, false, 0⟩ := by
    simp only [listInsertFirst, List.getElem?_cons_zero, Option.some.injEq] at hc
    exact hc.symm
  subst hc'
  simp only [pure_eq_ok, Except.ok.injEq] at h
  subst h
  exact ⟨s, thn, Se, psi, K, ff, hs, hff, hsp, hSe, hpsi, hK, rfl⟩

/-- The clean-up after the insertion of the new front. -/
theorem createSurficial_steps {g : Geo α} {ponded dry theta1 : α} {l : List (Front α)} {r : α × α × List (Front α)}
    (h : createSurficial g ponded dry theta1 l = .ok r) :
    ∃ l1, createFront g ponded dry theta1 l = .ok (r.1, r.2.1, l1) ∧
      ((∀ n ∈ l.head?, ¬ n.depth < dry) ∧ r.2.2 = l1 ∨
        (∃ n ∈ l.head?, n.depth < dry) ∧ ∃ l2, mergeFronts g l1 = .ok l2 ∧ crossLayer g l2 = .ok r.2.2) := by
  unfold createSurficial at h
  simp only [bind_ok_iff, Prod.exists] at h
  obtain ⟨p, v, l1, h1, h⟩ := h
  cases l with
  | nil =>
    simp only [pure_eq_ok, Except.ok.injEq] at h
    subst h
    exact ⟨l1, h1, .inl ⟨by simp, rfl⟩⟩
  | cons n t =>
    simp only at h
    split at h
    · rename_i hlt
      simp only [bind_ok_iff, pure_eq_ok, Except.ok.injEq] at h
      obtain ⟨l2, h2, l3, h3, rfl⟩ := h
      exact ⟨l1, h1, .inr ⟨⟨n, by simp, hlt⟩, l2, h2, h3⟩⟩
    · rename_i hlt
      simp only [pure_eq_ok, Except.ok.injEq] at h
      subst h
      exact ⟨l1, h1, .inl ⟨by simpa using hlt, rfl⟩⟩

theorem createSurficial_list {g : Geo α} {ponded dry theta1 : α} {l : List (Front α)} {r : α × α × List (Front α)}
    (h : createSurficial g ponded dry theta1 l = .ok r) :
    ∃ thn psi Kc l1, l1 = (⟨dry, thn, psi, Kc, 1, 1, false, 0⟩ : Front α) :: incFronts l ∧
      (r.2.2 = l1 ∨ ∃ l2, mergeFronts g l1 = .ok l2 ∧ crossLayer g l2 = .ok r.2.2) := by
  obtain ⟨l1, h1, h2⟩ := createSurficial_steps h
  obtain ⟨s, thn, Se, psi, Kc, ff, _, _, _, _, _, _, he⟩ := createFront_inv h1
  exact ⟨thn, psi, _, l1, he, h2.imp (fun h => h.2) (fun h => h.2)⟩

theorem Sound.push {N : Nat} {l : List (Front α)} {f : Front α} (hs : Sound N l) (hf : f.front = 1) :
    Sound N (f :: incFronts l) := by
  refine ⟨⟨hf, hs.num.inc⟩, ?_⟩
  refine lastOk_congr hs.last fun x hx => ?_
  have hne : incFronts l ≠ [] := by
    cases l with
    | nil => simp at hx
    | cons _ _ => simp [incFronts]
  rw [show f :: incFronts l = [f] ++ incFronts l from rfl, List.getLast?_append_of_ne_nil _ hne]
  refine ⟨{ x with front := x.front + 1 }, ?_, rfl, rfl, rfl⟩
  simp [incFronts, List.getLast?_map, hx]

theorem Sound.create {g : Geo α} {N : Nat} {ponded dry theta1 : α} {l : List (Front α)} {r : α × α × List (Front α)}
    (hs : Sound N l) (h : createSurficial g ponded dry theta1 l = .ok r) : Sound N r.2.2 := by
  obtain ⟨thn, psi, Kc, l1, rfl, h1⟩ := createSurficial_list h
  have hp := hs.push (f := ⟨dry, thn, psi, Kc, 1, 1, false, 0⟩) rfl
  rcases h1 with h1 | ⟨l2, h2, h3⟩
  · rw [h1]; exact hp
  · exact (hp.merge h2).cross h3

theorem Sound.speed {fuel : Nat} {closed : Bool} {nint : Int} {hp : α} {g : Geo α} {N : Nat} {l l' : List (Front α)}
    (hs : Sound N l) (h : dzdtCalc fuel closed nint hp g l = .ok l') : Sound N l' := by
  constructor
  · have e := congrArg (List.map (fun x : α × α × α × α × Nat × Int × Bool => x.2.2.2.2.2.1)) (dzdtCalc_frame h)
    rw [List.map_map, List.map_map] at e
    have e' : l'.map (fun f => f.front) = l.map (fun f => f.front) := e
    have hn := hs.num
    rw [numFrom_iff] at hn ⊢
    intro i hi
    have hlen : l'.length = l.length := by simpa using congrArg List.length e'
    have := congrArg (fun x => x[i]?) e'
    simp only [List.getElem?_map] at this
    rw [List.getElem?_eq_getElem hi, List.getElem?_eq_getElem (by omega)] at this
    simp only [Option.map_some, Option.some.injEq] at this
    rw [this]; exact hn i (by omega)
  · refine lastOk_congr hs.last fun f hf => ⟨f, ?_, rfl, rfl, rfl⟩
    obtain ⟨_, hg⟩ := dzdtCalc_go h
    obtain ⟨hlen, hall⟩ := dzdtGo_get hg
    rw [List.getLast?_eq_getElem?] at hf ⊢
    obtain ⟨_, h1, _⟩ := hall _ f hf
    rw [hlen]
    refine h1 ?_
    rw [List.getElem?_eq_none_iff]
    have := (List.getElem?_eq_some_iff.mp hf).1
    omega

/-- The water-movement part with a new front. -/
theorem flowCreate_inv {c : StepCfg α} {s : SubSt α} {prev : List (Front α)} {nFd : Nat} {ponded aet : α}
    {f : SubFlow α} (h : flowCreate c s prev nFd ponded aet = .ok f) :
    ∃ l flux dry d h0 pd, moveFronts c.fuel c.geo c.dt 0 nFd s.volend aet prev s.head = .ok (l, f.aet, flux) ∧
      calcDryDepth c.fuel c.closed c.nint c.geo c.dt l = .ok (dry, d) ∧ l[0]? = some h0 ∧
      createSurficial c.geo ponded dry h0.theta l = .ok (pd, f.volin, f.head) ∧ f.prev = f.head ∧
      f.volinT = s.volinT + f.volin ∧
      ((flux == 0) = true ∧ f.rech = 0 ∧ f.rechT = s.rechT ∨
        (flux == 0) = false ∧ f.rech = flux ∧ f.rechT = s.rechT + flux) ∧
      f.runoffT = s.runoffT + f.runoff ∧
      (pd < c.pondMax ∧ f.runoff = 0 ∧ f.volon = pd ∧ f.hp = 0 ∨
        ¬ pd < c.pondMax ∧ f.runoff = pd - c.pondMax ∧ f.volon = c.pondMax ∧ f.hp = c.pondMax) := by
  unfold flowCreate at h
  simp only [bind_ok_iff, Prod.exists, deref_ok_iff] at h
  obtain ⟨l, aet', flux, hm, dry, d, hd, h0, hh0, pd, v, l', hc, h⟩ := h
  refine ⟨l, flux, dry, d, h0, pd, ?_⟩
  split at h
  · rename_i hlt
    simp only [pure_eq_ok, Except.ok.injEq] at h
    subst h
    refine ⟨hm, hd, hh0, hc, listCopy_eq' _, rfl, ?_, rfl, .inl ⟨hlt, rfl, rfl, rfl⟩⟩
    cases hz : flux == 0 <;> simp
  · rename_i hlt
    simp only [pure_eq_ok, Except.ok.injEq] at h
    subst h
    refine ⟨hm, hd, hh0, hc, listCopy_eq' _, rfl, ?_, rfl, .inr ⟨hlt, rfl, rfl, rfl⟩⟩
    cases hz : flux == 0 <;> simp

/-- The water-movement part without a new front. -/
theorem flowMove_inv {c : StepCfg α} {s : SubSt α} {prev : List (Front α)} {nFd : Nat} {rate ponded aet : α}
    {f : SubFlow α} (h : flowMove c s prev nFd rate ponded aet = .ok f) :
    surfaceFlow c s nFd rate ponded aet = .ok (f.runoff, f.volin, f.volon, f.hp) ∧
      moveFronts c.fuel c.geo c.dt f.volin nFd s.volend aet prev s.head = .ok (f.head, f.aet, f.rech) ∧
      f.prev = prev ∧ f.volinT = (if 0 < ponded then s.volinT + f.volin else s.volinT) ∧
      f.runoffT = s.runoffT + f.runoff ∧ f.rechT = s.rechT + f.rech := by
  unfold flowMove at h
  simp only [bind_ok_iff, Prod.exists, pure_eq_ok, Except.ok.injEq] at h
  obtain ⟨ro, v, vo, hp, hs, l, aet', flux, hm, rfl⟩ := h
  exact ⟨hs, hm, rfl, rfl, rfl, rfl⟩

theorem subStep_inv {c : StepCfg α} {s s' : SubSt α} (h : subStep c s = .ok s') :
    ∃ aet volstart h0 hs f l volend h1,
      aetDemand c (CMath.fmax s.petMm 0 * 0.1) s.head = .ok aet ∧ massBal c.geo.cum s.head = .ok volstart ∧
      s.head[0]? = some h0 ∧ c.geo.soil h0.layer = .ok hs ∧
      subFlow c s (wantsFront s.precipPrev (CMath.fmax s.precipMm 0 * 0.1 * c.dt) h0.theta hs.thetaE (volonClean s.volon))
        s.head (wettingFrontFreeDrainage s.head) (CMath.fmax s.precipMm 0 * 0.1)
        (CMath.fmax s.precipMm 0 * 0.1 * c.dt + s.volon) aet = .ok f ∧
      dzdtCalc c.fuel c.closed c.nint f.hp c.geo f.head = .ok l ∧ massBal c.geo.cum l = .ok volend ∧
      ¬ 1.0e-4 < CMath.fabs (volstart + CMath.fmax s.precipMm 0 * 0.1 * c.dt + volonClean s.volon - f.runoff - f.aet -
        f.volon - f.rech - volend) ∧
      l[0]? = some h1 ∧ 0 < h1.depth ∧
      s' = { head := l, prev := f.prev, precipMm := CMath.fmax s.precipMm 0, petMm := CMath.fmax s.petMm 0,
             timeS := s.timeS + c.dt * 3600.0, timesteps := s.timesteps + 1,
             precipPrev := CMath.fmax s.precipMm 0 * 0.1 * c.dt, volend := volend, volon := f.volon,
             precipT := s.precipT + CMath.fmax s.precipMm 0 * 0.1 * c.dt,
             petT := s.petT + CMath.fmax (CMath.fmax s.petMm 0 * 0.1 * c.dt) 0, aetT := s.aetT + f.aet,
             volinT := f.volinT, runoffT := f.runoffT, rechT := f.rechT, surfT := s.surfT + f.runoff,
             qgwT := s.qgwT + 0,
             localMb := volstart + CMath.fmax s.precipMm 0 * 0.1 * c.dt + volonClean s.volon - f.runoff - f.aet -
               f.volon - f.rech - volend } := by
  unfold subStep at h
  simp only [bind_ok_iff, deref_ok_iff, listCopy_eq'] at h
  obtain ⟨aet, ha, vs, hvs, h0, hh0, hs, hhs, f, hf, l, hl, ve, hve, h⟩ := h
  split at h
  · exact absurd h (by simp)
  · rename_i hmb
    simp only [bind_ok_iff, deref_ok_iff, cassert_ok_iff, pure_eq_ok, Except.ok.injEq] at h
    obtain ⟨h1, hh1, _, hd, rfl⟩ := h
    exact ⟨aet, vs, h0, hs, f, l, ve, h1, ha, hvs, hh0, hhs, hf, hl, hve, hmb, hh1, hd, rfl⟩

theorem Sound.subFlow {c : StepCfg α} {s : SubSt α} {b : Bool} {nFd N : Nat} {rate ponded aet : α}
    {prev : List (Front α)} {f : SubFlow α} (hs : Sound N s.head)
    (h : subFlow c s b prev nFd rate ponded aet = .ok f) : Sound N f.head := by
  unfold LGAR.subFlow at h
  split at h
  · obtain ⟨l, flux, dry, d, h0, pd, hm, _, _, hc, _⟩ := flowCreate_inv h
    exact (hs.moveFronts hm).create hc
  · obtain ⟨_, hm, _⟩ := flowMove_inv h
    exact hs.moveFronts hm

theorem Sound.subStep {c : StepCfg α} {s s' : SubSt α} {N : Nat} (hs : Sound N s.head) (h : subStep c s = .ok s') :
    Sound N s'.head := by
  obtain ⟨aet, vs, h0, hsoil, f, l, ve, h1, _, _, _, _, hf, hl, _, _, _, _, rfl⟩ := subStep_inv h
  exact (hs.subFlow hf).speed hl

theorem subLoop_ind {c : StepCfg α} {P : SubSt α → Prop} (hP : ∀ s s', P s → subStep c s = .ok s' → P s') :
    ∀ {n : Nat} {s s' : SubSt α}, P s → subLoop c n s = .ok s' → P s'
  | 0, s, s', hp, h => by simp [subLoop] at h; subst h; exact hp
  | n + 1, s, s', hp, h => by
    unfold subLoop at h
    simp only [bind_ok_iff] at h
    obtain ⟨s1, h1, h⟩ := h
    split at h
    · simp only [pure_eq_ok, Except.ok.injEq] at h
      subst h; exact hP _ _ hp h1
    · exact subLoop_ind hP (hP _ _ hp h1) h

theorem calibFront_inv {st : List Int} {cal : Calib α} {soils : List (SoilProps α)} {f : Front α}
    {r : List (SoilProps α) × Front α} (h : calibFront st cal soils f = .ok r) :
    ∃ t s' th, st[f.layer]? = some t ∧ 0 ≤ t ∧ t.toNat < soils.length ∧ r = (soils.set t.toNat s', { f with theta := th }) ∧
      cal.thetaE[f.layer - 1]? = some s'.thetaE ∧ cal.thetaR[f.layer - 1]? = some s'.thetaR ∧
      cal.vgN[f.layer - 1]? = some s'.vgN ∧ cal.vgAlpha[f.layer - 1]? = some s'.vgAlpha ∧
      cal.Ksat[f.layer - 1]? = some s'.Ksat ∧
      calcThetaFromH f.psi s'.vgAlpha s'.vgM s'.vgN s'.thetaE s'.thetaR = .ok th := by
  unfold calibFront at h
  simp only [bind_ok_iff, idx_ok_iff, idxPred_ok_iff] at h
  obtain ⟨t, ht, s, hs, te, ⟨_, hte⟩, tr, ⟨_, htr⟩, n, ⟨_, hn⟩, q, hq, a, ⟨_, ha⟩, k, ⟨_, hk⟩, th, hth, h⟩ := h
  simp only [pure_eq_ok, Except.ok.injEq] at h
  refine ⟨t, { s with thetaE := te, thetaR := tr, vgN := n, vgM := 1 - q, vgAlpha := a, Ksat := k }, th, ht, ?_, ?_, h.symm,
    hte, htr, hn, ha, hk, hth⟩
  · unfold idxI at hs
    split at hs
    · exact absurd hs (by simp)
    · omega
  · unfold idxI at hs
    split at hs
    · exact absurd hs (by simp)
    · rw [idx_ok_iff] at hs
      exact (List.getElem?_eq_some_iff.mp hs).1

/-- Calibration changes only the moisture of fronts. -/
theorem calibLoop_frame {st : List Int} {cal : Calib α} : ∀ {n : Nat} {soils : List (SoilProps α)} {l : List (Front α)}
    {r : List (SoilProps α) × List (Front α)}, calibLoop st cal n soils l = .ok r →
      r.2.map (fun f => (f.depth, f.psi, f.K, f.layer, f.front, f.toBottom, f.dzdt)) =
        l.map (fun f => (f.depth, f.psi, f.K, f.layer, f.front, f.toBottom, f.dzdt)) ∧ r.1.length = soils.length
  | 0, soils, l, r, h => by simp [calibLoop] at h; subst h; exact ⟨rfl, rfl⟩
  | n + 1, soils, [], r, h => by simp [calibLoop] at h
  | n + 1, soils, f :: t, r, h => by
    unfold calibLoop at h
    simp only [bind_ok_iff, Prod.exists, pure_eq_ok, Except.ok.injEq] at h
    obtain ⟨s1, f1, h1, s2, t2, h2, rfl⟩ := h
    obtain ⟨_, _, th, _, _, _, e, _⟩ := calibFront_inv h1
    simp only [Prod.mk.injEq] at e
    obtain ⟨rfl, rfl⟩ := e
    obtain ⟨ih1, ih2⟩ := calibLoop_frame h2
    exact ⟨by simp only at ih1; simp [ih1], by simp only at ih2; simp [ih2]⟩

/-- The part of the state that nothing before the subcycling loop changes. -/
theorem updatePre_inv {s s' : State α} {d : α} (h : updatePre s = .ok (s', d)) :
    0 ≤ s.precipMm ∧ 0 ≤ s.petMm ∧
    ∃ fs soils l fc pm q, cdiv s.p.forcingResH (chooseTimestep s.p s.precipMm s.mb.volonT) = .ok q ∧
      s' = { s with head := l, soils := soils, p := { s.p with
        frozen := fs, calibFlag := false, fcPsi := fc, pondMax := pm,
        timestepH := chooseTimestep s.p s.precipMm s.mb.volonT, forcingInterval := CMath.toInt (q + 1.0e-8) } } ∧
      (s.p.sftCoupled = true ∧ frozenFactor s.p.cum (s.p.soilTempZ.zip s.p.soilTemp) s.p.frozen = .ok fs ∨
        s.p.sftCoupled = false ∧ fs = s.p.frozen) ∧
      (s.p.calibFlag = true ∧ fc = s.calib.fcPsi ∧ pm = s.calib.pondMax ∧
          calibLoop s.p.layerSoilType s.calib s.p.numWf.toNat s.soils s.head = .ok (soils, l) ∧
          (∃ m0 m1, massBal s.p.cum s.head = .ok m0 ∧ massBal s.p.cum l = .ok m1 ∧ d = m1 - m0) ∨
        s.p.calibFlag = false ∧ fc = s.p.fcPsi ∧ pm = s.p.pondMax ∧ l = s.head ∧ soils = s.soils ∧ d = 0) := by
  unfold updatePre at h
  simp only [bind_ok_iff, Prod.exists, cassert_ok_iff] at h
  obtain ⟨s1, h1, s2, d2, h2, _, hp, _, hpet, q, hq, h⟩ := h
  simp only [pure_eq_ok, Except.ok.injEq, Prod.mk.injEq] at h
  obtain ⟨rfl, rfl⟩ := h
  have h1' : ∃ fs, s1 = { s with p := { s.p with frozen := fs } } ∧
      (s.p.sftCoupled = true ∧ frozenFactor s.p.cum (s.p.soilTempZ.zip s.p.soilTemp) s.p.frozen = .ok fs ∨
        s.p.sftCoupled = false ∧ fs = s.p.frozen) := by
    unfold applyFrozen at h1
    split at h1
    · rename_i hc
      simp only [bind_ok_iff, Except.ok.injEq] at h1
      obtain ⟨fs, hfs, rfl⟩ := h1
      exact ⟨fs, rfl, .inl ⟨hc, hfs⟩⟩
    · rename_i hc
      simp only [Except.ok.injEq] at h1
      subst h1
      exact ⟨s.p.frozen, rfl, .inr ⟨by simpa using hc, rfl⟩⟩
  obtain ⟨fs, rfl, hfs⟩ := h1'
  unfold applyCalib at h2
  split at h2
  · rename_i hc
    unfold updateCalib at h2
    simp only [bind_ok_iff, Prod.exists, pure_eq_ok, Except.ok.injEq, Prod.mk.injEq] at h2
    obtain ⟨s3, d3, ⟨m0, hm0, soils, l, hl, m1, hm1, rfl, rfl⟩, rfl, rfl⟩ := h2
    exact ⟨hp, hpet, fs, soils, l, _, _, q, hq, rfl, hfs, .inl ⟨hc, rfl, rfl, hl, m0, m1, hm0, hm1, rfl⟩⟩
  · rename_i hc
    simp only [Except.ok.injEq, Prod.mk.injEq] at h2
    obtain ⟨rfl, rfl⟩ := h2
    have hc' : s.p.calibFlag = false := by simpa using hc
    refine ⟨hp, hpet, fs, s.soils, s.head, s.p.fcPsi, s.p.pondMax, q, hq, ?_, hfs, .inr ⟨hc', rfl, rfl, rfl, rfl, rfl⟩⟩
    clear hq hfs h1
    cases s with
    | mk head prev soils p mb pr pet cal conv ng go gq =>
      cases p
      simp only at hc'
      subst hc'
      rfl

theorem updatePost_inv {s s' : State α} {d : α} {u : SubSt α} (h : updatePost s d u = .ok s') :
    ∃ giuh queue, giuhConv u.runoffT s.numGiuh s.giuhOrd s.giuhQueue = .ok (giuh, queue) ∧
      s'.head = u.head ∧ s'.prev = u.prev ∧ s'.soils = s.soils ∧ s'.precipMm = u.precipMm ∧ s'.petMm = u.petMm ∧
      s'.giuhQueue = queue ∧ s'.calib = s.calib ∧ s'.numGiuh = s.numGiuh ∧ s'.giuhOrd = s.giuhOrd ∧
      s'.p = { s.p with
        timeS := u.timeS, timesteps := u.timesteps, precipPrev := u.precipPrev, numWf := (u.head.length : Int),
        moistureWf := u.head.map (fun f => f.theta), depthWf := u.head.map (fun f => f.depth * 0.01) } ∧
      s'.mb = { s.mb with
        volprecipT := u.precipT, volinT := u.volinT, volonT := u.volon, volendT := u.volend, volAETT := u.aetT,
        volrechT := u.rechT, volrunoffT := u.runoffT, volQT := giuh, volQgwT := u.qgwT, volPETT := u.petT,
        volgiuhT := giuh,
        volprecip := s.mb.volprecip + u.precipT, volin := s.mb.volin + u.volinT, volon := u.volon, volend := u.volend,
        volAET := s.mb.volAET + u.aetT, volrech := s.mb.volrech + u.rechT, volrunoff := s.mb.volrunoff + u.runoffT,
        volQ := s.mb.volQ + giuh, volQgw := s.mb.volQgw + u.qgwT, volPET := s.mb.volPET + u.petT,
        volgiuh := s.mb.volgiuh + giuh, volcalib := s.mb.volcalib + d, localMb := u.localMb } ∧
      s'.conv = {
        massBalance := u.localMb * 0.01, precip := u.precipT * 0.01, infil := u.volinT * 0.01,
        storage := u.volend * 0.01, aet := u.aetT * 0.01, rech := u.rechT * 0.01, runoff := u.runoffT * 0.01,
        Q := giuh * 0.01, Qgw := u.qgwT * 0.01, pet := u.petT * 0.01, giuh := giuh * 0.01 } := by
  unfold updatePost at h
  simp only [bind_ok_iff, Prod.exists, pure_eq_ok, Except.ok.injEq] at h
  obtain ⟨giuh, queue, hg, rfl⟩ := h
  exact ⟨giuh, queue, hg, rfl, rfl, rfl, rfl, rfl, rfl, rfl, rfl, rfl, rfl, rfl, rfl⟩

theorem update_inv {fuel : Nat} {sa : Bool} {s s' : State α} (h : update fuel sa s = .ok s') :
    (s.p.invalidSoil = true ∧ s' = updateInvalid s) ∨
    (s.p.invalidSoil = false ∧ ∃ s1 d v u, updatePre s = .ok (s1, d) ∧ massBal s1.p.cum s1.head = .ok v ∧
      subLoop (stepCfg fuel sa s1) s1.p.forcingInterval.toNat (subInit s1 v) = .ok u ∧
      updatePost s1 d u = .ok s') := by
  unfold update at h
  split at h
  · rename_i hi
    simp only [Except.ok.injEq] at h
    exact .inl ⟨hi, h.symm⟩
  · rename_i hi
    simp only [bind_ok_iff, Prod.exists] at h
    obtain ⟨s1, d, h1, v, hv, u, hu, h⟩ := h
    exact .inr ⟨by simpa using hi, s1, d, v, u, h1, hv, hu, h⟩

theorem updatePre_skel {s s' : State α} {d : α} (h : updatePre s = .ok (s', d)) :
    s'.head.map Front.skel = s.head.map Front.skel := by
  obtain ⟨_, _, fs, soils, l, fc, pm, q, _, rfl, _, ⟨_, _, _, hl, _⟩ | ⟨_, _, _, rfl, _⟩⟩ := updatePre_inv h
  · have e := congrArg (List.map (fun x : α × α × α × Nat × Int × Bool × α =>
      (x.2.2.2.1, x.2.2.2.2.1, x.2.2.2.2.2.1, x.2.2.2.2.2.2))) (calibLoop_frame hl).1
    rw [List.map_map, List.map_map] at e
    exact e
  · rfl

/-- What Inputs leaves alone. -/
theorem Inputs.frame {s s' : State α} (h : Inputs s s') :
    s'.head = s.head ∧ s'.prev = s.prev ∧ s'.mb = s.mb ∧ s'.conv = s.conv ∧ s'.soils = s.soils ∧ s'.geo = s.geo ∧
      s'.giuhQueue = s.giuhQueue ∧ s'.giuhOrd = s.giuhOrd ∧ s'.numGiuh = s.numGiuh ∧
      s'.p = { s.p with soilTemp := s'.p.soilTemp } := by
  obtain ⟨pr, pet, temp, cal, rfl⟩ := h
  exact ⟨rfl, rfl, rfl, rfl, rfl, rfl, rfl, rfl, rfl, rfl⟩

/-- What an Update leaves alone. -/
theorem update_fixed {fuel : Nat} {sa : Bool} {s s' : State α} (h : update fuel sa s = .ok s') :
    s'.p.numLayers = s.p.numLayers ∧ s'.p.cum = s.p.cum ∧ s'.p.layerSoilType = s.p.layerSoilType ∧
      s'.p.invalidSoil = s.p.invalidSoil ∧ s'.p.forcingResH = s.p.forcingResH ∧ s'.p.minTimestepH = s.p.minTimestepH ∧
      s'.p.endtimeS = s.p.endtimeS ∧ s'.p.sftCoupled = s.p.sftCoupled ∧ s'.p.adaptive = s.p.adaptive ∧
      s'.mb.volstart = s.mb.volstart ∧ s'.calib = s.calib ∧ s'.numGiuh = s.numGiuh ∧ s'.giuhOrd = s.giuhOrd ∧
      s'.p.soilTemp = s.p.soilTemp ∧ s'.p.soilTempZ = s.p.soilTempZ ∧ s'.p.nint = s.p.nint ∧ s'.p.closedG = s.p.closedG ∧
      s'.p.wpPsi = s.p.wpPsi ∧ s'.p.soilDepth = s.p.soilDepth := by
  rcases update_inv h with ⟨_, rfl⟩ | ⟨_, s1, d, v, u, h1, _, _, h2⟩
  · exact ⟨rfl, rfl, rfl, rfl, rfl, rfl, rfl, rfl, rfl, rfl, rfl, rfl, rfl, rfl, rfl, rfl, rfl, rfl, rfl⟩
  · obtain ⟨_, _, _, _, _, _, _, _, _, hc, hn, ho, hp, hm, _⟩ := updatePost_inv h2
    obtain ⟨_, _, fs, soils, l, fc, pm, q, _, rfl, _⟩ := updatePre_inv h1
    rw [hp, hm, hc, hn, ho]
    exact ⟨rfl, rfl, rfl, rfl, rfl, rfl, rfl, rfl, rfl, rfl, rfl, rfl, rfl, rfl, rfl, rfl, rfl, rfl, rfl⟩

/-- One Update keeps numbering and the deepest front; the reported number of fronts is right afterwards. -/
theorem Sound.update {fuel : Nat} {sa : Bool} {s s' : State α} {N : Nat} (hs : Sound N s.head)
    (h : update fuel sa s = .ok s') :
    Sound N s'.head ∧ (s.p.numWf = (s.head.length : Int) → s'.p.numWf = (s'.head.length : Int)) := by
  rcases update_inv h with ⟨_, rfl⟩ | ⟨_, s1, d, v, u, h1, _, hu, h2⟩
  · exact ⟨hs, fun h => h⟩
  · obtain ⟨_, _, _, hh, _, _, _, _, _, _, _, _, hp, _⟩ := updatePost_inv h2
    have := subLoop_ind (P := fun s => Sound N s.head) (fun _ _ h h' => h.subStep h') (hs.skel (updatePre_skel h1)) hu
    refine ⟨by rw [hh]; exact this, fun _ => by rw [hp, hh]⟩

end Free
end LGAR
