import Verif.Spec.Cut
import Verif.Lemmas.Giuh
import Verif.Lemmas.Update
import Mathlib.Tactic.Ring
/-
Cutting the sub-timesteps of one Update into several Updates.
-/
set_option linter.unusedSectionVars false
namespace LGAR

section Free
variable {α : Type} [Add α] [Sub α] [Mul α] [Div α] [Neg α] [Zero α] [One α] [OfScientific α]
  [LT α] [LE α] [DecidableLT α] [DecidableLE α] [BEq α] [CMath α]

/-- Equal up to the sums over the Update. -/
structure SubSame (u v : SubSt α) : Prop where
  head : u.head = v.head
  prev : u.prev = v.prev
  precip : CMath.fmax u.precipMm 0 = CMath.fmax v.precipMm 0
  pet : CMath.fmax u.petMm 0 = CMath.fmax v.petMm 0
  time : u.timeS = v.timeS
  steps : u.timesteps = v.timesteps
  precipPrev : u.precipPrev = v.precipPrev
  volend : u.volend = v.volend
  volon : u.volon = v.volon

theorem SubSame.symm {u v : SubSt α} (h : SubSame u v) : SubSame v u :=
  ⟨h.head.symm, h.prev.symm, h.precip.symm, h.pet.symm, h.time.symm, h.steps.symm, h.precipPrev.symm, h.volend.symm, h.volon.symm⟩

/-- Two sums grow by the same amount. -/
def Gain (x x' y y' : α) : Prop := (∃ d, x' = x + d ∧ y' = y + d) ∨ (x' = x ∧ y' = y)

structure Gains (u u' v v' : SubSt α) : Prop where
  precip : Gain u.precipT u'.precipT v.precipT v'.precipT
  pet : Gain u.petT u'.petT v.petT v'.petT
  aet : Gain u.aetT u'.aetT v.aetT v'.aetT
  infil : Gain u.volinT u'.volinT v.volinT v'.volinT
  runoff : Gain u.runoffT u'.runoffT v.runoffT v'.runoffT
  rech : Gain u.rechT u'.rechT v.rechT v'.rechT

theorem flow_same {c : StepCfg α} {u v : SubSt α} {create : Bool} {prev : List (Front α)} {nFd : Nat} {rate ponded aet : α}
    {f : SubFlow α} (h : SubSame u v) (hf : subFlow c u create prev nFd rate ponded aet = .ok f) :
    ∃ g, subFlow c v create prev nFd rate ponded aet = .ok g ∧ f.head = g.head ∧ f.prev = g.prev ∧ f.aet = g.aet ∧
      f.runoff = g.runoff ∧ f.rech = g.rech ∧ f.volon = g.volon ∧ f.hp = g.hp ∧
      Gain u.volinT f.volinT v.volinT g.volinT ∧ Gain u.runoffT f.runoffT v.runoffT g.runoffT ∧
      Gain u.rechT f.rechT v.rechT g.rechT := by
  unfold subFlow at hf ⊢
  cases create with
  | true =>
    simp only [if_true] at hf ⊢
    unfold flowCreate at hf ⊢
    rw [← h.volend, ← h.head]
    simp only [bind_ok_iff, Prod.exists] at hf
    obtain ⟨l, ae, flux, hm, dry, d, hd, h0, hh0, pd, vi, l', hc, hf⟩ := hf
    rw [hm, ok_bind]
    simp only
    rw [hd, ok_bind]
    simp only
    rw [hh0, ok_bind, hc, ok_bind]
    simp only
    have hr : ∀ (x : α × α) (y : α × α), x = (if (flux == 0) = true then (0, u.rechT) else (flux, u.rechT + flux)) →
        y = (if (flux == 0) = true then (0, v.rechT) else (flux, v.rechT + flux)) →
        x.1 = y.1 ∧ Gain u.rechT x.2 v.rechT y.2 := by
      rintro x y rfl rfl
      split
      · exact ⟨rfl, .inr ⟨rfl, rfl⟩⟩
      · exact ⟨rfl, .inl ⟨_, rfl, rfl⟩⟩
    split at hf
    · rename_i hp
      rw [if_pos hp]
      simp only [pure_eq_ok, Except.ok.injEq] at hf
      subst hf
      refine ⟨_, rfl, rfl, rfl, rfl, rfl, ?_, rfl, rfl, .inl ⟨_, rfl, rfl⟩, .inl ⟨_, rfl, rfl⟩, ?_⟩
      · exact (hr _ _ rfl rfl).1
      · exact (hr _ _ rfl rfl).2
    · rename_i hp
      rw [if_neg hp]
      simp only [pure_eq_ok, Except.ok.injEq] at hf
      subst hf
      refine ⟨_, rfl, rfl, rfl, rfl, rfl, ?_, rfl, rfl, .inl ⟨_, rfl, rfl⟩, .inl ⟨_, rfl, rfl⟩, ?_⟩
      · exact (hr _ _ rfl rfl).1
      · exact (hr _ _ rfl rfl).2
  | false =>
    simp only [Bool.false_eq_true, if_false] at hf ⊢
    unfold flowMove at hf ⊢
    have hs : surfaceFlow c v nFd rate ponded aet = surfaceFlow c u nFd rate ponded aet := by
      unfold surfaceFlow; rw [h.head]
    rw [hs, ← h.volend, ← h.head]
    simp only [bind_ok_iff, Prod.exists] at hf
    obtain ⟨ro, vi, vo, hp, hsf, l, ae, flux, hm, hf⟩ := hf
    rw [hsf, ok_bind]
    simp only
    rw [hm, ok_bind]
    simp only [pure_eq_ok, Except.ok.injEq] at hf ⊢
    subst hf
    refine ⟨_, rfl, rfl, rfl, rfl, rfl, rfl, rfl, rfl, ?_, .inl ⟨_, rfl, rfl⟩, .inl ⟨_, rfl, rfl⟩⟩
    simp only
    split
    · exact .inl ⟨_, rfl, rfl⟩
    · exact .inr ⟨rfl, rfl⟩

theorem subStep_same {c : StepCfg α} {u v u' : SubSt α} (h : SubSame u v) (hu : subStep c u = .ok u') :
    ∃ v', subStep c v = .ok v' ∧ SubSame u' v' ∧ u'.precipMm = CMath.fmax u.precipMm 0 ∧
      u'.petMm = CMath.fmax u.petMm 0 ∧ Gains u u' v v' := by
  obtain ⟨aet, vs, h0, hs, f, l, ve, h1, ha, hvs, hh0, hhs, hf, hl, hve, hmb, hh1, hd, rfl⟩ := subStep_inv hu
  obtain ⟨g, hg, e1, e2, e3, e4, e5, e6, e7, g1, g2, g3⟩ := flow_same h hf
  have hv : subStep c v = .ok
           { head := l, prev := g.prev, precipMm := CMath.fmax v.precipMm 0, petMm := CMath.fmax v.petMm 0,
             timeS := v.timeS + c.dt * 3600.0, timesteps := v.timesteps + 1,
             precipPrev := CMath.fmax v.precipMm 0 * 0.1 * c.dt, volend := ve, volon := g.volon,
             precipT := v.precipT + CMath.fmax v.precipMm 0 * 0.1 * c.dt,
             petT := v.petT + CMath.fmax (CMath.fmax v.petMm 0 * 0.1 * c.dt) 0, aetT := v.aetT + g.aet,
             volinT := g.volinT, runoffT := g.runoffT, rechT := g.rechT, surfT := v.surfT + g.runoff,
             qgwT := v.qgwT + 0,
             localMb := vs + CMath.fmax v.precipMm 0 * 0.1 * c.dt + volonClean v.volon - g.runoff - g.aet -
               g.volon - g.rech - ve } := by
    unfold subStep
    simp only [listCopy_eq']
    rw [← h.head, ← h.pet, ha, ok_bind, hvs, ok_bind, (deref_ok_iff).2 hh0, ok_bind, hhs, ok_bind, ← h.precip, ← h.volon,
      ← h.precipPrev, hg, ok_bind, ← e7, ← e1, hl, ok_bind, hve, ok_bind, ← e3, ← e4, ← e5, ← e6, if_neg hmb,
      (deref_ok_iff).2 hh1, ok_bind, (show cassert _ _ = .ok () from cassert_ok_iff.2 hd), ok_bind]
    rfl
  refine ⟨_, hv, ⟨rfl, e2, ?_, ?_, ?_, ?_, ?_, rfl, e6⟩, rfl, rfl, ⟨.inl ⟨_, rfl, ?_⟩, .inl ⟨_, rfl, ?_⟩, .inl ⟨_, rfl, ?_⟩, g1, g2, g3⟩⟩
  · simp only [h.precip]
  · simp only [h.pet]
  · simp only [h.time]
  · simp only [h.steps]
  · simp only [h.precip]
  · simp only [h.precip]
  · simp only [h.pet]
  · simp only [e3]

/-- Two sums grow by the same amounts. -/
inductive Grow (x y : α) : α → α → Prop
  | refl : Grow x y x y
  | add {x' y' : α} (d : α) : Grow x y x' y' → Grow x y (x' + d) (y' + d)

theorem Grow.gain {x y x' y' x2 y2 : α} (h : Grow x y x' y') (g : Gain x' x2 y' y2) : Grow x y x2 y2 := by
  rcases g with ⟨d, rfl, rfl⟩ | ⟨rfl, rfl⟩
  · exact .add d h
  · exact h

structure Grows (u v u' v' : SubSt α) : Prop where
  precip : Grow u.precipT v.precipT u'.precipT v'.precipT
  pet : Grow u.petT v.petT u'.petT v'.petT
  aet : Grow u.aetT v.aetT u'.aetT v'.aetT
  infil : Grow u.volinT v.volinT u'.volinT v'.volinT
  runoff : Grow u.runoffT v.runoffT u'.runoffT v'.runoffT
  rech : Grow u.rechT v.rechT u'.rechT v'.rechT

theorem Grows.refl (u v : SubSt α) : Grows u v u v := ⟨.refl, .refl, .refl, .refl, .refl, .refl⟩

theorem Grows.gains {u v u' v' u2 v2 : SubSt α} (h : Grows u v u' v') (g : Gains u' u2 v' v2) : Grows u v u2 v2 :=
  ⟨h.precip.gain g.precip, h.pet.gain g.pet, h.aet.gain g.aet, h.infil.gain g.infil, h.runoff.gain g.runoff, h.rech.gain g.rech⟩

/-- The loop stops after this sub-timestep: the end time is reached. -/
def Past (c : StepCfg α) (u : SubSt α) : Prop := c.endtimeS ≤ u.timeS ∧ c.standalone = true

theorem subLoop_same {c : StepCfg α} {u0 v0 : SubSt α} : ∀ {n : Nat} {u v u' : SubSt α}, SubSame u v → Grows u0 v0 u v →
    subLoop c n u = .ok u' → ∃ v', subLoop c n v = .ok v' ∧ SubSame u' v' ∧ Grows u0 v0 u' v'
  | 0, u, v, u', h, g, hu => by
    simp only [subLoop, Except.ok.injEq] at hu
    subst hu
    exact ⟨v, rfl, h, g⟩
  | n + 1, u, v, u', h, g, hu => by
    unfold subLoop at hu
    simp only [bind_ok_iff] at hu
    obtain ⟨u1, h1, hu⟩ := hu
    obtain ⟨v1, hv1, hs, _, _, hg⟩ := subStep_same h h1
    have g1 := g.gains hg
    have e : subLoop c (n + 1) v = (if c.endtimeS ≤ v1.timeS ∧ c.standalone = true then .ok v1 else subLoop c n v1) := by
      conv_lhs => unfold subLoop
      rw [hv1, ok_bind]
      rfl
    rw [e, ← hs.time]
    split at hu
    · rename_i hp
      rw [if_pos hp]
      simp only [pure_eq_ok, Except.ok.injEq] at hu
      subst hu
      exact ⟨v1, rfl, hs, g1⟩
    · rename_i hp
      rw [if_neg hp]
      exact subLoop_same hs g1 hu

theorem subLoop_split {c : StepCfg α} {m : Nat} : ∀ {n : Nat} {u w : SubSt α}, subLoop c (n + m) u = .ok w → ¬ Past c w →
    ∃ x, subLoop c n u = .ok x ∧ subLoop c m x = .ok w ∧ (n = 0 ∧ x = u ∨ ¬ Past c x)
  | 0, u, w, h, _ => ⟨u, rfl, by simpa using h, .inl ⟨rfl, rfl⟩⟩
  | n + 1, u, w, h, hw => by
    rw [show n + 1 + m = (n + m) + 1 by omega] at h
    unfold subLoop at h
    simp only [bind_ok_iff] at h
    obtain ⟨u1, h1, h⟩ := h
    split at h
    · rename_i hp
      simp only [pure_eq_ok, Except.ok.injEq] at h
      subst h
      exact absurd hp hw
    · rename_i hp
      obtain ⟨x, hx, hm, hx'⟩ := subLoop_split h hw
      refine ⟨x, ?_, hm, .inr ?_⟩
      · unfold subLoop
        rw [h1, ok_bind, if_neg hp]
        exact hx
      · rcases hx' with ⟨_, rfl⟩ | hx'
        · exact hp
        · exact hx'

theorem subLoop_join {c : StepCfg α} {m : Nat} : ∀ {n : Nat} {u x w : SubSt α}, subLoop c n u = .ok x → ¬ Past c x →
    subLoop c m x = .ok w → subLoop c (n + m) u = .ok w
  | 0, u, x, w, h, _, hm => by
    simp only [subLoop, Except.ok.injEq] at h
    subst h
    simpa using hm
  | n + 1, u, x, w, h, hx, hm => by
    rw [show n + 1 + m = (n + m) + 1 by omega]
    unfold subLoop at h ⊢
    simp only [bind_ok_iff] at h
    obtain ⟨u1, h1, h⟩ := h
    rw [h1, ok_bind]
    split at h
    · rename_i hp
      simp only [pure_eq_ok, Except.ok.injEq] at h
      subst h
      exact absurd hp hx
    · rename_i hp
      rw [if_neg hp]
      exact subLoop_join h hx hm

theorem routes_conv {s : State α} (h : Routes s) (r : α) :
    ∃ x q, giuhConv r s.numGiuh s.giuhOrd s.giuhQueue = .ok (x, q) ∧ q.length = s.giuhQueue.length := by
  obtain ⟨hn, hp, hl⟩ := h
  rw [hn]
  obtain ⟨o, os, ho⟩ := List.exists_cons_of_ne_nil hp
  rw [ho] at hl ⊢
  have hne : s.giuhQueue ≠ [] := by intro e; rw [e] at hl; simp at hl
  rcases List.eq_nil_or_concat s.giuhQueue with e | ⟨q, x, e⟩
  · exact absurd e hne
  rw [List.concat_eq_append] at e
  rw [e] at hl ⊢
  cases q with
  | nil => simp at hl
  | cons a q =>
    have hq : q.length = os.length := by simpa using hl
    have := giuhConv_eq r x a o q os hq
    rw [show (o :: os).length = q.length + 1 by simp [hq]]
    refine ⟨_, _, this, ?_⟩
    simp only [List.length_append, List.length_cons, List.length_nil]
    have : (giuhMix r q os).length = q.length := by
      simp only [giuhMix, List.length_zipWith]; omega
    omega

theorem frozenFactor_again {cum : List α} {cells : List (α × α)} {old fs : List α} (hold : old ≠ [])
    (h : frozenFactor cum cells old = .ok fs) : frozenFactor cum cells fs = .ok fs ∧ fs ≠ [] := by
  unfold frozenFactor at h ⊢
  simp only [bind_ok_iff, pure_eq_ok, Except.ok.injEq] at h ⊢
  obtain ⟨r, hr, rfl⟩ := h
  cases old with
  | nil => exact absurd rfl hold
  | cons o os => exact ⟨⟨r, hr, by simp⟩, by simp⟩

/-- The state after an Update as a function of the state before its loop and of the result of the loop. -/
structure After (b2 : State α) (w : SubSt α) (b' : State α) : Prop where
  head : b'.head = w.head
  prev : b'.prev = w.prev
  soils : b'.soils = b2.soils
  pond : b'.mb.volonT = w.volon
  params : b'.p = { b2.p with
        timeS := w.timeS, timesteps := w.timesteps, precipPrev := w.precipPrev, numWf := (w.head.length : Int),
        moistureWf := w.head.map (fun f => f.theta), depthWf := w.head.map (fun f => f.depth * 0.01) }

theorem updatePost_after {b2 b' : State α} {d : α} {w : SubSt α} (h : updatePost b2 d w = .ok b') : After b2 w b' := by
  obtain ⟨_, _, _, h1, h2, h3, _, _, _, _, _, _, h4, h5, _⟩ := updatePost_inv h
  exact ⟨h1, h2, h3, by rw [h5], h4⟩

theorem After.same {b2 b' : State α} {u v : SubSt α} (h : After b2 v b') (s : SubSame u v) : After b2 u b' := by
  obtain ⟨h1, h2, h3, h4, h5⟩ := h
  refine ⟨h1.trans s.head.symm, h2.trans s.prev.symm, h3, h4.trans s.volon.symm, ?_⟩
  rw [h5, s.time, s.steps, s.precipPrev, s.head]

/-- After an Update the next one with the same inputs changes nothing before its loop. -/
theorem updatePre_again {x : Drive α} {b b2 b' : State α} {d d' : α} {u : SubSt α} (ha : b.p.adaptive = false)
    (hz : b.p.frozen ≠ []) (h : updatePre (x.set b) = .ok (b2, d)) (hp : updatePost b2 d' u = .ok b') :
    updatePre (x.set b') = .ok (x.set b', 0) ∧ b'.p.adaptive = false ∧ b'.p.frozen ≠ [] ∧ b2.calib = x.cal ∧
      b2.p.soilTemp = x.temp := by
  obtain ⟨h1, h2, fs, soils, l, fc, pm, q, hq, rfl, hf, hc⟩ := updatePre_inv h
  obtain ⟨_, _, _, _, _, _, _, _, _, _, _, _, e, _, _⟩ := updatePost_inv hp
  have hdt : ∀ (p : Params α) (y z : α), p.adaptive = false → chooseTimestep p y z = p.timestepH := by
    intro p y z hp; unfold chooseTimestep; rw [hp]; rfl
  have ha' : (x.set b).p.adaptive = false := ha
  rw [hdt _ _ _ ha'] at hq e
  have hff : b'.p.frozen = fs := by rw [e]
  have hfz : fs ≠ [] := by
    rcases hf with ⟨_, hf⟩ | ⟨_, rfl⟩
    · exact (frozenFactor_again hz hf).2
    · exact hz
  refine ⟨?_, by rw [e]; exact ha, by rw [hff]; exact hfz, rfl, rfl⟩
  have e1 : applyFrozen (x.set b') = .ok (x.set b') := by
    unfold applyFrozen
    have es : (x.set b').p.sftCoupled = b.p.sftCoupled := by
      show b'.p.sftCoupled = _; rw [e]; rfl
    rcases hf with ⟨hs, hf⟩ | ⟨hs, _⟩
    · rw [es, show b.p.sftCoupled = true from hs]
      simp only [if_true]
      have : frozenFactor (x.set b').p.cum ((x.set b').p.soilTempZ.zip (x.set b').p.soilTemp) (x.set b').p.frozen = .ok fs := by
        have := (frozenFactor_again hz hf).1
        show frozenFactor b'.p.cum (b'.p.soilTempZ.zip x.temp) b'.p.frozen = .ok fs
        rw [e]
        exact this
      rw [this, ok_bind]
      have : { x.set b' with p := { (x.set b').p with frozen := fs } } = x.set b' := by
        rw [← hff]; rfl
      rw [this]
    · rw [es, show b.p.sftCoupled = false from hs]
      rfl
  have e2 : applyCalib (x.set b') = .ok (x.set b', 0) := by
    unfold applyCalib
    have : (x.set b').p.calibFlag = false := by show b'.p.calibFlag = _; rw [e]
    rw [this]; rfl
  unfold updatePre
  rw [e1, ok_bind, e2, ok_bind]
  simp only
  rw [(show cassert (0 ≤ (x.set b').precipMm) _ = .ok () from cassert_ok_iff.2 h1), ok_bind,
    (show cassert (0 ≤ (x.set b').petMm) _ = .ok () from cassert_ok_iff.2 h2), ok_bind]
  have ha2 : (x.set b').p.adaptive = false := by show b'.p.adaptive = _; rw [e]; exact ha
  rw [hdt _ _ _ ha2]
  have hq' : cdiv (x.set b').p.forcingResH (x.set b').p.timestepH = .ok q := by
    show cdiv b'.p.forcingResH b'.p.timestepH = .ok q
    rw [e]; exact hq
  rw [hq', ok_bind]
  have : CMath.toInt (q + 1.0e-8) = b'.p.forcingInterval := by rw [e]
  rw [this]
  rfl

/-- An Update seen from its loop: `b2` is the state before the loop, `v` the storage then. -/
structure Cuttable (fuel : Nat) (sa : Bool) (x : Drive α) (c : StepCfg α) (n : Nat) (b b2 : State α) (d v : α) : Prop where
  pre : updatePre (x.set b) = .ok (b2, d)
  cfg : stepCfg fuel sa b2 = c
  cnt : b2.p.forcingInterval.toNat = n
  mass : massBal b2.p.cum b2.head = .ok v
  valid : b.p.invalidSoil = false
  fixed : b.p.adaptive = false
  frozen : b.p.frozen ≠ []
  routes : Routes b

theorem updatePre_keeps {s s' : State α} {d : α} (h : updatePre s = .ok (s', d)) :
    s'.mb = s.mb ∧ s'.precipMm = s.precipMm ∧ s'.petMm = s.petMm ∧ s'.prev = s.prev ∧ s'.numGiuh = s.numGiuh ∧
      s'.giuhOrd = s.giuhOrd ∧ s'.giuhQueue = s.giuhQueue ∧ s'.p.timeS = s.p.timeS ∧ s'.p.timesteps = s.p.timesteps ∧
      s'.p.precipPrev = s.p.precipPrev ∧ s'.p.cum = s.p.cum ∧ s'.p.endtimeS = s.p.endtimeS ∧
      s'.p.invalidSoil = s.p.invalidSoil := by
  obtain ⟨_, _, fs, soils, l, fc, pm, q, _, rfl, _⟩ := updatePre_inv h
  exact ⟨rfl, rfl, rfl, rfl, rfl, rfl, rfl, rfl, rfl, rfl, rfl, rfl, rfl⟩

/-- What one Update adds to the totals. -/
def Booked (d : α) (u w : SubSt α) (b b' : State α) : Prop :=
  ∃ b2 v w', b2.mb = b.mb ∧ updatePost b2 d w' = .ok b' ∧ Grows u (subInit b2 v) w w'

theorem massBal_loop {c : StepCfg α} : ∀ {n : Nat} {u w : SubSt α}, massBal c.geo.cum u.head = .ok u.volend →
    subLoop c n u = .ok w → massBal c.geo.cum w.head = .ok w.volend := by
  intro n u w h0 h
  refine subLoop_ind (P := fun s => massBal c.geo.cum s.head = .ok s.volend) ?_ h0 h
  intro s s' _ hs
  obtain ⟨aet, vs, h0, hs, f, l, ve, h1, ha, hvs, hh0, hhs, hf, hl, hve, hmb, hh1, hd, rfl⟩ := subStep_inv hs
  exact hve

theorem precip_loop {c : StepCfg α} {p q : α} (hmax : ∀ y : α, CMath.fmax (CMath.fmax y 0) 0 = CMath.fmax y 0)
    {n : Nat} {u w : SubSt α} (hp : CMath.fmax u.precipMm 0 = CMath.fmax p 0) (hq : CMath.fmax u.petMm 0 = CMath.fmax q 0)
    (h : subLoop c n u = .ok w) : CMath.fmax w.precipMm 0 = CMath.fmax p 0 ∧ CMath.fmax w.petMm 0 = CMath.fmax q 0 := by
  refine subLoop_ind (P := fun s => CMath.fmax s.precipMm 0 = CMath.fmax p 0 ∧ CMath.fmax s.petMm 0 = CMath.fmax q 0)
    ?_ ⟨hp, hq⟩ h
  rintro s s' ⟨h1, h2⟩ hs
  obtain ⟨aet, vs, h0, hs, f, l, ve, h1, ha, hvs, hh0, hhs, hf, hl, hve, hmb, hh1, hd, rfl⟩ := subStep_inv hs
  exact ⟨by rw [hmax]; assumption, by rw [hmax]; assumption⟩

variable {fuel n : Nat} {sa : Bool} {x : Drive α} {c : StepCfg α}

/-- The loop of an Update gives the Update. -/
theorem Cuttable.run {b b2 : State α} {d v : α} {u w : SubSt α} (hr : Cuttable fuel sa x c n b b2 d v)
    (hs : SubSame u (subInit b2 v)) (hl : subLoop c n u = .ok w) :
    ∃ b', update fuel sa (x.set b) = .ok b' ∧ After b2 w b' ∧ Booked d u w b b' := by
  obtain ⟨w', hw', hs', hg⟩ := subLoop_same hs (Grows.refl _ _) hl
  have hR : Routes b2 := by
    obtain ⟨_, _, _, _, e1, e2, e3, _⟩ := updatePre_keeps hr.pre
    obtain ⟨r1, r2, r3⟩ := hr.routes
    exact ⟨by rw [e1, e2]; exact r1, by rw [e2]; exact r2, by rw [e2, e3]; exact r3⟩
  obtain ⟨gi, qu, hgi, _⟩ := routes_conv hR w'.runoffT
  have hp : ∃ b', updatePost b2 d w' = .ok b' := by
    unfold updatePost
    rw [hgi, ok_bind]
    exact ⟨_, rfl⟩
  obtain ⟨b', hb'⟩ := hp
  refine ⟨b', ?_, (updatePost_after hb').same hs', b2, v, w', (updatePre_keeps hr.pre).1, hb', hg⟩
  unfold update
  rw [show (x.set b).p.invalidSoil = false from hr.valid]
  simp only [Bool.false_eq_true, if_false]
  rw [hr.pre, ok_bind]
  simp only
  rw [hr.mass, ok_bind, hr.cfg, hr.cnt, hw', ok_bind]
  exact hb'

/-- An Update gives its loop. -/
theorem Cuttable.loop {b b2 b' : State α} {d v : α} {u : SubSt α} (hr : Cuttable fuel sa x c n b b2 d v)
    (hs : SubSame u (subInit b2 v)) (hu : update fuel sa (x.set b) = .ok b') :
    ∃ w, subLoop c n u = .ok w ∧ After b2 w b' ∧ Booked d u w b b' := by
  rcases update_inv hu with ⟨hi, _⟩ | ⟨_, s1, d', v', w', h1, hv', hl, hp⟩
  · exact absurd hi (by rw [show (x.set b).p.invalidSoil = false from hr.valid]; simp)
  · rw [hr.pre] at h1
    simp only [Except.ok.injEq, Prod.mk.injEq] at h1
    obtain ⟨rfl, rfl⟩ := h1
    rw [hr.mass] at hv'
    simp only [Except.ok.injEq] at hv'
    subst hv'
    rw [hr.cfg, hr.cnt] at hl
    obtain ⟨w, hw, hsw, _⟩ := subLoop_same hs.symm (Grows.refl _ _) hl
    obtain ⟨w2, hw2, _, hg⟩ := subLoop_same hs (Grows.refl _ _) hw
    rw [hl] at hw2
    simp only [Except.ok.injEq] at hw2
    subst hw2
    exact ⟨w, hw, (updatePost_after hp).same hsw.symm, b2, v, w', (updatePre_keeps hr.pre).1, hp, hg⟩

/-- Cuttable for the next Update with the same inputs. -/
theorem Cuttable.next (hmax : ∀ y : α, CMath.fmax (CMath.fmax y 0) 0 = CMath.fmax y 0) {b b2 b' : State α} {d v : α} {u w : SubSt α}
    (hr : Cuttable fuel sa x c n b b2 d v) (hs : SubSame u (subInit b2 v)) (hl : subLoop c n u = .ok w)
    (hu : update fuel sa (x.set b) = .ok b') (ha : After b2 w b') :
    Cuttable fuel sa x c n b' (x.set b') 0 w.volend ∧ SubSame w (subInit (x.set b') w.volend) ∧
      (∀ (w2 : SubSt α) (b'' : State α), After (x.set b') w2 b'' → After b2 w2 b'') := by
  rcases update_inv hu with ⟨hi, _⟩ | ⟨_, s1, d', v', w', h1, hv', hl', hp⟩
  · exact absurd hi (by rw [show (x.set b).p.invalidSoil = false from hr.valid]; simp)
  rw [hr.pre] at h1
  simp only [Except.ok.injEq, Prod.mk.injEq] at h1
  obtain ⟨rfl, rfl⟩ := h1
  obtain ⟨h1, h2, h3, hcal, htemp⟩ := updatePre_again hr.fixed hr.frozen hr.pre hp
  obtain ⟨gi, qu, hgi, _, _, _, _, _, hq, hcal', hnum, hord, _⟩ := updatePost_inv hp
  have ep := ha.params
  have hset : (x.set b').p = b'.p := by
    show { b'.p with soilTemp := x.temp } = b'.p
    rw [ep, ← htemp]
  have hgeo : stepCfg fuel sa (x.set b') = c := by
    rw [← hr.cfg]
    unfold stepCfg
    have : (x.set b').geo = b2.geo := by
      unfold State.geo
      rw [hset, ep, show (x.set b').soils = b2.soils from ha.soils]
    rw [this, hset, ep]
  have hcum : c.geo.cum = b2.p.cum := by rw [← hr.cfg]; rfl
  have hm0 : massBal c.geo.cum u.head = .ok u.volend := by
    rw [hcum, hs.head, hs.volend]; exact hr.mass
  have hm := massBal_loop hm0 hl
  obtain ⟨k1, k2, k3, k4, k5, k6, k7, k8, k9, k10, k11, k12, k13⟩ := updatePre_keeps hr.pre
  obtain ⟨p1, p2⟩ := precip_loop hmax (p := x.precip) (q := x.pet) (by rw [hs.precip]; show CMath.fmax b2.precipMm 0 = _; rw [k2]; rfl)
    (by rw [hs.pet]; show CMath.fmax b2.petMm 0 = _; rw [k3]; rfl) hl
  refine ⟨⟨h1, hgeo, ?_, ?_, ?_, h2, h3, ?_⟩, ⟨ha.head.symm, ha.prev.symm, p1, p2, ?_, ?_, ?_, rfl, ha.pond.symm⟩, ?_⟩
  · rw [hset, ep]; exact hr.cnt
  · rw [hset, ep, show (x.set b').head = w.head from ha.head]
    rw [hcum] at hm; exact hm
  · rw [ep]
    show b2.p.invalidSoil = false
    rw [k13]; exact hr.valid
  · obtain ⟨r1, r2, r3⟩ := hr.routes
    have hR : Routes b2 := ⟨by rw [k5, k6]; exact r1, by rw [k6]; exact r2, by rw [k6, k7]; exact r3⟩
    obtain ⟨gi2, qu2, hgi2, hlen⟩ := routes_conv hR w'.runoffT
    rw [hgi] at hgi2
    simp only [Except.ok.injEq, Prod.mk.injEq] at hgi2
    obtain ⟨_, rfl⟩ := hgi2
    exact ⟨by rw [hnum, hord]; exact hR.num, by rw [hord]; exact hR.pos, by rw [hq, hord, hlen]; exact hR.len⟩
  · show w.timeS = (x.set b').p.timeS
    rw [hset, ep]
  · show w.timesteps = (x.set b').p.timesteps
    rw [hset, ep]
  · show w.precipPrev = (x.set b').p.precipPrev
    rw [hset, ep]
  · intro w2 b'' h
    obtain ⟨g1, g2, g3, g4, g5⟩ := h
    refine ⟨g1, g2, g3.trans ha.soils, g4, ?_⟩
    rw [g5, hset, ep]

/-- `m` Updates with the same inputs, given the loop. -/
theorem chain_run (hmax : ∀ y : α, CMath.fmax (CMath.fmax y 0) 0 = CMath.fmax y 0)
    {T : α → SubSt α → SubSt α → State α → State α → Prop} (h1 : ∀ d u w b b', Booked d u w b b' → T d u w b b')
    (h2 : ∀ d u w w2 b b' b'', T d u w b b' → T 0 w w2 b' b'' → T d u w2 b b'') :
    ∀ (m : Nat) {b b2 : State α} {d v : α} {u w : SubSt α}, Cuttable fuel sa x c n b b2 d v → SubSame u (subInit b2 v) →
      subLoop c ((m + 1) * n) u = .ok w → ¬ Past c w →
      ∃ b', Driven fuel sa b (List.replicate (m + 1) x) b' ∧ After b2 w b' ∧ T d u w b b'
  | 0, b, b2, d, v, u, w, hr, hs, hl, hw => by
    rw [Nat.zero_add, Nat.one_mul] at hl
    obtain ⟨b', hu, ha, hb⟩ := hr.run hs hl
    refine ⟨b', .cons hu ?_ .nil, ha, h1 _ _ _ _ _ hb⟩
    intro hsa hle
    refine hw ⟨?_, by rw [← hr.cfg]; exact hsa⟩
    rw [← hr.cfg]
    rw [ha.params] at hle
    exact hle
  | m + 1, b, b2, d, v, u, w, hr, hs, hl, hw => by
    rw [show (m + 1 + 1) * n = n + (m + 1) * n by ring] at hl
    obtain ⟨w1, hl1, hl2, hw1⟩ := subLoop_split hl hw
    have hw1' : ¬ Past c w1 := by
      rcases hw1 with ⟨hn, rfl⟩ | h
      · rw [hn, Nat.mul_zero] at hl2
        simp only [subLoop, Except.ok.injEq] at hl2
        rw [hl2]; exact hw
      · exact h
    obtain ⟨b', hu, ha, hb⟩ := hr.run hs hl1
    obtain ⟨hr', hs', hA⟩ := hr.next hmax hs hl1 hu ha
    obtain ⟨b'', hd, ha', hb'⟩ := chain_run hmax h1 h2 m hr' hs' hl2 hw
    refine ⟨b'', ?_, hA _ _ ha', h2 _ _ _ _ _ _ _ (h1 _ _ _ _ _ hb) hb'⟩
    rw [List.replicate_succ]
    refine .cons hu ?_ hd
    intro hsa hle
    refine hw1' ⟨?_, by rw [← hr.cfg]; exact hsa⟩
    rw [← hr.cfg]
    rw [ha.params] at hle
    exact hle

/-- The loop, given `m` Updates with the same inputs. -/
theorem chain_loop (hmax : ∀ y : α, CMath.fmax (CMath.fmax y 0) 0 = CMath.fmax y 0) :
    ∀ (m : Nat) {b b2 b' : State α} {d v : α} {u : SubSt α}, Cuttable fuel sa x c n b b2 d v → SubSame u (subInit b2 v) →
      Driven fuel sa b (List.replicate (m + 1) x) b' →
      ∃ w, subLoop c ((m + 1) * n) u = .ok w ∧ ¬ Past c w ∧ After b2 w b'
  | 0, b, b2, b', d, v, u, hr, hs, hd => by
    rw [Nat.zero_add, Nat.one_mul]
    cases hd with
    | cons hu hp h' =>
      cases h' with
      | nil =>
        obtain ⟨w, hl, ha, _⟩ := hr.loop hs hu
        refine ⟨w, hl, ?_, ha⟩
        rintro ⟨h1, h2⟩
        refine hp (by rw [← hr.cfg] at h2; exact h2) ?_
        rw [ha.params]
        rw [← hr.cfg] at h1
        exact h1
  | m + 1, b, b2, b', d, v, u, hr, hs, hd => by
    rw [List.replicate_succ] at hd
    cases hd with
    | cons hu hp h' =>
      obtain ⟨w, hl, ha, _⟩ := hr.loop hs hu
      obtain ⟨hr', hs', hA⟩ := hr.next hmax hs hl hu ha
      obtain ⟨w2, hl2, hw2, ha2⟩ := chain_loop hmax m hr' hs' h'
      have hw : ¬ Past c w := by
        rintro ⟨h1, h2⟩
        refine hp (by rw [← hr.cfg] at h2; exact h2) ?_
        rw [ha.params]
        rw [← hr.cfg] at h1
        exact h1
      refine ⟨w2, ?_, hw2, hA _ _ ha2⟩
      rw [show (m + 1 + 1) * n = n + (m + 1) * n by ring]
      exact subLoop_join hl hw hl2

/-- Converse of `updatePre_inv`. -/
theorem updatePre_mk {s : State α} {d q fc pm : α} {fs : List α} {soils : List (SoilProps α)} {l : List (Front α)}
    (h1 : 0 ≤ s.precipMm) (h2 : 0 ≤ s.petMm)
    (hq : cdiv s.p.forcingResH (chooseTimestep s.p s.precipMm s.mb.volonT) = .ok q)
    (hf : s.p.sftCoupled = true ∧ frozenFactor s.p.cum (s.p.soilTempZ.zip s.p.soilTemp) s.p.frozen = .ok fs ∨
        s.p.sftCoupled = false ∧ fs = s.p.frozen)
    (hc : s.p.calibFlag = true ∧ fc = s.calib.fcPsi ∧ pm = s.calib.pondMax ∧
          calibLoop s.p.layerSoilType s.calib s.p.numWf.toNat s.soils s.head = .ok (soils, l) ∧
          (∃ m0 m1, massBal s.p.cum s.head = .ok m0 ∧ massBal s.p.cum l = .ok m1 ∧ d = m1 - m0) ∨
        s.p.calibFlag = false ∧ fc = s.p.fcPsi ∧ pm = s.p.pondMax ∧ l = s.head ∧ soils = s.soils ∧ d = 0) :
    updatePre s = .ok ({ s with head := l, soils := soils, p := { s.p with
        frozen := fs, calibFlag := false, fcPsi := fc, pondMax := pm,
        timestepH := chooseTimestep s.p s.precipMm s.mb.volonT, forcingInterval := CMath.toInt (q + 1.0e-8) } }, d) := by
  have e1 : applyFrozen s = .ok { s with p := { s.p with frozen := fs } } := by
    unfold applyFrozen
    rcases hf with ⟨hs, hf⟩ | ⟨hs, rfl⟩
    · rw [hs, if_pos rfl, hf, ok_bind]
    · rw [hs]; rfl
  have e2 : applyCalib { s with p := { s.p with frozen := fs } } = .ok ({ s with head := l, soils := soils, p := { s.p with
        frozen := fs, calibFlag := false, fcPsi := fc, pondMax := pm } }, d) := by
    unfold applyCalib
    rcases hc with ⟨hs, rfl, rfl, hl, m0, m1, hm0, hm1, rfl⟩ | ⟨hs, rfl, rfl, rfl, rfl, rfl⟩
    · simp only
      rw [hs, if_pos rfl]
      unfold updateCalib
      simp only
      rw [hm0, ok_bind, hl, ok_bind]
      simp only
      rw [hm1, ok_bind]
      rfl
    · simp only
      rw [hs]
      simp only [Bool.false_eq_true, if_false]
  unfold updatePre
  rw [e1, ok_bind, e2, ok_bind]
  simp only
  rw [(show cassert (0 ≤ s.precipMm) _ = .ok () from cassert_ok_iff.2 h1), ok_bind,
    (show cassert (0 ≤ s.petMm) _ = .ok () from cassert_ok_iff.2 h2), ok_bind]
  have hct : ∀ z, chooseTimestep { s.p with frozen := fs, calibFlag := false, fcPsi := fc, pondMax := pm } s.precipMm z
      = chooseTimestep s.p s.precipMm z := fun _ => rfl
  rw [hct, hq, ok_bind]
  rfl

theorem pre_same {a b a2 : State α} {d : α} {x : Drive α} (h : SamePhysics a b) (ha : a.p.adaptive = false) (hn : SubSteps b n)
    (hp : updatePre (x.set a) = .ok (a2, d)) :
    ∃ b2, updatePre (x.set b) = .ok (b2, d) ∧ b2.p.forcingInterval.toNat = n ∧ SamePhysics a2 b2 ∧
      b2.precipMm = x.precip ∧ b2.petMm = x.pet ∧ a2.precipMm = x.precip ∧ a2.petMm = x.pet := by
  obtain ⟨g1, g2, g3, g4, g5⟩ := h
  obtain ⟨h1, h2, fs, soils, l, fc, pm, q, hq, rfl, hf, hc⟩ := updatePre_inv hp
  have hdt : ∀ (p : Params α) (y z : α), p.adaptive = false → chooseTimestep p y z = p.timestepH := by
    intro p y z hp; unfold chooseTimestep; rw [hp]; rfl
  have ha1 : (x.set a).p.adaptive = false := ha
  have ha2 : (x.set b).p.adaptive = false := by show b.p.adaptive = _; rw [g5]; exact ha
  obtain ⟨q', hq', hcnt⟩ := hn
  have e : updatePre (x.set b) = .ok ({ x.set b with head := l, soils := soils, p := { (x.set b).p with
        frozen := fs, calibFlag := false, fcPsi := fc, pondMax := pm,
        timestepH := chooseTimestep (x.set b).p (x.set b).precipMm (x.set b).mb.volonT,
        forcingInterval := CMath.toInt (q' + 1.0e-8) } }, d) := by
    refine updatePre_mk h1 h2 ?_ ?_ ?_
    · rw [hdt _ _ _ ha2]; exact hq'
    · show b.p.sftCoupled = true ∧ frozenFactor b.p.cum (b.p.soilTempZ.zip x.temp) b.p.frozen = .ok fs ∨
        b.p.sftCoupled = false ∧ fs = b.p.frozen
      rw [g5]; exact hf
    · show b.p.calibFlag = true ∧ fc = x.cal.fcPsi ∧ pm = x.cal.pondMax ∧
          calibLoop b.p.layerSoilType x.cal b.p.numWf.toNat b.soils b.head = .ok (soils, l) ∧
          (∃ m0 m1, massBal b.p.cum b.head = .ok m0 ∧ massBal b.p.cum l = .ok m1 ∧ d = m1 - m0) ∨
        b.p.calibFlag = false ∧ fc = b.p.fcPsi ∧ pm = b.p.pondMax ∧ l = b.head ∧ soils = b.soils ∧ d = 0
      rw [g5, ← g1, ← g3]; exact hc
  refine ⟨_, e, hcnt, ⟨rfl, g2, rfl, g4, ?_⟩, rfl, rfl, rfl, rfl⟩
  rw [hdt _ _ _ ha1, hdt _ _ _ ha2]
  have : (x.set b).p = { (x.set a).p with forcingResH := b.p.forcingResH, forcingInterval := b.p.forcingInterval } := by
    show { b.p with soilTemp := x.temp } = _
    rw [g5]; rfl
  rw [this]

theorem SamePhysics.symm {a b : State α} (h : SamePhysics a b) : SamePhysics b a := by
  obtain ⟨g1, g2, g3, g4, g5⟩ := h
  refine ⟨g1.symm, g2.symm, g3.symm, g4.symm, ?_⟩
  rw [g5]

theorem subSteps_congr {s s' : State α} {m : Nat} (h1 : s'.p.forcingResH = s.p.forcingResH) (h2 : s'.p.timestepH = s.p.timestepH)
    (h : SubSteps s m) : SubSteps s' m := by
  obtain ⟨q, hq, e⟩ := h
  exact ⟨q, by rw [h1, h2]; exact hq, e⟩

theorem subSteps_count {s s2 : State α} {d : α} {m : Nat} (ha : s.p.adaptive = false) (h : SubSteps s m)
    (hp : updatePre (x.set s) = .ok (s2, d)) : s2.p.forcingInterval.toNat = m := by
  obtain ⟨_, _, fs, soils, l, fc, pm, q, hq, rfl, _, _⟩ := updatePre_inv hp
  have hdt : chooseTimestep (x.set s).p (x.set s).precipMm (x.set s).mb.volonT = s.p.timestepH := by
    unfold chooseTimestep
    rw [show (x.set s).p.adaptive = false from ha]; rfl
  obtain ⟨q', hq', e⟩ := h
  rw [hdt] at hq
  have : q = q' := by
    have h1 : cdiv s.p.forcingResH s.p.timestepH = .ok q := hq
    rw [hq'] at h1
    simpa using h1.symm
  rw [this]; exact e

/-- What holds in one Update carries over to the next. -/
theorem update_keeps {s s' : State α} {m : Nat} (ha : s.p.adaptive = false) (hi : s.p.invalidSoil = false) (hz : s.p.frozen ≠ [])
    (hm : SubSteps s m) (hR : Routes s) (h : update fuel sa (x.set s) = .ok s') :
    s'.p.adaptive = false ∧ s'.p.invalidSoil = false ∧ s'.p.frozen ≠ [] ∧ SubSteps s' m ∧ Routes s' := by
  rcases update_inv h with ⟨hi', _⟩ | ⟨_, s1, d', v', w', h1, hv', hl', hp⟩
  · exact absurd hi' (by rw [show (x.set s).p.invalidSoil = false from hi]; simp)
  obtain ⟨_, k1, k2, _, _⟩ := updatePre_again ha hz h1 hp
  obtain ⟨f1, f2, f3, f4, f5, _⟩ := update_fixed h
  obtain ⟨gi, qu, hgi, _, _, _, _, _, hq, hcal', hnum, hord, hpp, _⟩ := updatePost_inv hp
  obtain ⟨e1, e2, e3, e4, e5, e6, e7, _⟩ := updatePre_keeps h1
  refine ⟨k1, f4.trans hi, k2, subSteps_congr f5 ?_ hm, ?_⟩
  · rw [hpp]
    obtain ⟨_, _, fs, soils, l, fc, pm, q, hq, rfl, _, _⟩ := updatePre_inv h1
    show chooseTimestep (x.set s).p (x.set s).precipMm (x.set s).mb.volonT = s.p.timestepH
    unfold chooseTimestep
    rw [show (x.set s).p.adaptive = false from ha]; rfl
  · obtain ⟨r1, r2, r3⟩ := hR
    have hR : Routes s1 := ⟨by rw [e5, e6]; exact r1, by rw [e6]; exact r2, by rw [e6, e7]; exact r3⟩
    obtain ⟨gi2, qu2, hgi2, hlen⟩ := routes_conv hR w'.runoffT
    rw [hgi] at hgi2
    simp only [Except.ok.injEq, Prod.mk.injEq] at hgi2
    obtain ⟨_, rfl⟩ := hgi2
    exact ⟨by rw [hnum, hord]; exact hR.num, by rw [hord]; exact hR.pos, by rw [hq, hord, hlen]; exact hR.len⟩

theorem driven_keeps {s s' : State α} {m : Nat} {xs : List (Drive α)} (h : Driven fuel sa s xs s') (ha : s.p.adaptive = false)
    (hi : s.p.invalidSoil = false) (hz : s.p.frozen ≠ []) (hm : SubSteps s m) (hR : Routes s) :
    s'.p.adaptive = false ∧ s'.p.invalidSoil = false ∧ s'.p.frozen ≠ [] ∧ SubSteps s' m ∧ Routes s' := by
  induction h with
  | nil => exact ⟨ha, hi, hz, hm, hR⟩
  | cons hu _ _ ih =>
    obtain ⟨k1, k2, k3, k4, k5⟩ := update_keeps ha hi hz hm hR hu
    exact ih k1 k2 k3 k4 k5

theorem after_same {a2 b2 a' b' : State α} {w : SubSt α} (h : SamePhysics a2 b2) (ha : After a2 w a') (hb : After b2 w b') :
    SamePhysics a' b' := by
  obtain ⟨a1, a3, a4, a5, a6⟩ := ha
  obtain ⟨b1, b3, b4, b5, b6⟩ := hb
  obtain ⟨g1, g2, g3, g4, g5⟩ := h
  refine ⟨a1.trans b1.symm, a3.trans b3.symm, a4.trans (g3.trans b4.symm), a5.trans b5.symm, ?_⟩
  rw [b6, a6, g5]

/-- Both runs are ready, and their loops start from the same values. -/
theorem Comparable.ready {a b a2 : State α} {d v : α} {k na nb : Nat} (hc : Comparable a b k na nb)
    (hp : updatePre (x.set a) = .ok (a2, d)) (hv : massBal a2.p.cum a2.head = .ok v) :
    ∃ b2, Cuttable fuel sa x (stepCfg fuel sa a2) (k * nb) a a2 d v ∧ Cuttable fuel sa x (stepCfg fuel sa a2) nb b b2 d v ∧
      SubSame (subInit a2 v) (subInit b2 v) ∧ SamePhysics a2 b2 := by
  obtain ⟨g1, g2, g3, g4, g5⟩ := hc.same
  obtain ⟨b2, hb2, hcnt, hs, p1, p2, p3, p4⟩ := pre_same hc.same hc.fixed hc.stepsB hp
  have hcfg : stepCfg fuel sa b2 = stepCfg fuel sa a2 := by
    unfold stepCfg
    have : b2.geo = a2.geo := by
      unfold State.geo
      rw [hs.params, hs.soils]
    rw [this, hs.params]
  refine ⟨b2, ⟨hp, rfl, ?_, hv, hc.valid, hc.fixed, hc.frozen, hc.routesA⟩,
    ⟨hb2, hcfg, hcnt, ?_, by rw [g5]; exact hc.valid, by rw [g5]; exact hc.fixed, by rw [g5]; exact hc.frozen, hc.routesB⟩,
    ⟨hs.head, hs.prev, ?_, ?_, ?_, ?_, ?_, rfl, hs.pond⟩, hs⟩
  · rw [subSteps_count hc.fixed hc.stepsA hp, hc.cut]
  · rw [hs.params, ← hs.head]; exact hv
  · show CMath.fmax a2.precipMm 0 = CMath.fmax b2.precipMm 0
    rw [p1, p3]
  · show CMath.fmax a2.petMm 0 = CMath.fmax b2.petMm 0
    rw [p2, p4]
  · show a2.p.timeS = b2.p.timeS
    rw [hs.params]
  · show a2.p.timesteps = b2.p.timesteps
    rw [hs.params]
  · show a2.p.precipPrev = b2.p.precipPrev
    rw [hs.params]

theorem Cuttable.unfinished {b b2 b' : State α} {d v : α} {w : SubSt α} (hr : Cuttable fuel sa x c n b b2 d v) (ha : After b2 w b')
    (h : sa = true → ¬ b'.p.endtimeS ≤ b'.p.timeS) : ¬ Past c w := by
  rintro ⟨h1, h2⟩
  refine h (by rw [← hr.cfg] at h2; exact h2) ?_
  rw [ha.params]
  rw [← hr.cfg] at h1
  exact h1

theorem Cuttable.unfinished' {b b2 b' : State α} {d v : α} {w : SubSt α} (hr : Cuttable fuel sa x c n b b2 d v) (ha : After b2 w b')
    (h : ¬ Past c w) : sa = true → ¬ b'.p.endtimeS ≤ b'.p.timeS := by
  intro hsa hle
  refine h ⟨?_, by rw [← hr.cfg]; exact hsa⟩
  rw [← hr.cfg]
  rw [ha.params] at hle
  exact hle

/-- One Update and `k` Updates. -/
theorem one_to_many (hmax : ∀ y : α, CMath.fmax (CMath.fmax y 0) 0 = CMath.fmax y 0)
    {T : α → SubSt α → SubSt α → State α → State α → Prop} (h1 : ∀ d u w b b', Booked d u w b b' → T d u w b b')
    (h2 : ∀ d u w w2 b b' b'', T d u w b b' → T 0 w w2 b' b'' → T d u w2 b b'')
    {a b a' : State α} {k na nb : Nat} (hk : 0 < k) (hc : Comparable a b k na nb) (hu : update fuel sa (x.set a) = .ok a')
    (hend : sa = true → ¬ a'.p.endtimeS ≤ a'.p.timeS) :
    ∃ b', Driven fuel sa b (List.replicate k x) b' ∧ SamePhysics a' b' ∧
      ∃ d u w, Booked d u w a a' ∧ T d u w b b' := by
  rcases update_inv hu with ⟨hi, _⟩ | ⟨_, a2, d, v, w', hp, hv, hl, hpost⟩
  · exact absurd hi (by rw [show (x.set a).p.invalidSoil = false from hc.valid]; simp)
  obtain ⟨b2, hra, hrb, hss, hsp⟩ := hc.ready (fuel := fuel) (sa := sa) hp hv
  obtain ⟨w, hw, ha, hb⟩ := hra.loop (u := subInit a2 v) ⟨rfl, rfl, rfl, rfl, rfl, rfl, rfl, rfl, rfl⟩ hu
  obtain ⟨m, rfl⟩ : ∃ m, k = m + 1 := ⟨k - 1, by omega⟩
  obtain ⟨b', hd, hab, hT⟩ := chain_run hmax h1 h2 m hrb hss hw (hra.unfinished ha hend)
  exact ⟨b', hd, after_same hsp ha hab, d, _, w, hb, hT⟩

/-- `k` Updates and one Update. -/
theorem many_to_one (hmax : ∀ y : α, CMath.fmax (CMath.fmax y 0) 0 = CMath.fmax y 0)
    {a b b' : State α} {k na nb : Nat} (hk : 0 < k) (hc : Comparable a b k na nb)
    (hd : Driven fuel sa b (List.replicate k x) b') :
    ∃ a', update fuel sa (x.set a) = .ok a' ∧ (sa = true → ¬ a'.p.endtimeS ≤ a'.p.timeS) ∧ SamePhysics a' b' := by
  obtain ⟨m, rfl⟩ : ∃ m, k = m + 1 := ⟨k - 1, by omega⟩
  have hpre : ∃ b2 d v, updatePre (x.set b) = .ok (b2, d) ∧ massBal b2.p.cum b2.head = .ok v := by
    rw [List.replicate_succ] at hd
    cases hd with
    | cons hu _ _ =>
      rcases update_inv hu with ⟨hi, _⟩ | ⟨_, b2, d, v, w', hp, hv, hl, hpost⟩
      · have e : (x.set b).p.invalidSoil = a.p.invalidSoil := by
          show b.p.invalidSoil = _
          rw [hc.same.params]
        exact absurd hi (by rw [e, hc.valid]; simp)
      · exact ⟨b2, d, v, hp, hv⟩
  obtain ⟨b2, d, v, hp, hv⟩ := hpre
  obtain ⟨a2, hp', _, hs, _⟩ := pre_same hc.same.symm (by rw [hc.same.params]; exact hc.fixed) hc.stepsA hp
  have hv' : massBal a2.p.cum a2.head = .ok v := by
    rw [hs.params, ← hs.head]; exact hv
  obtain ⟨b3, hra, hrb, hss, hsp⟩ := hc.ready (fuel := fuel) (sa := sa) hp' hv'
  obtain ⟨w, hw, hpast, hab⟩ := chain_loop hmax m hrb hss hd
  obtain ⟨a', hu, haa, _⟩ := hra.run (u := subInit a2 v) ⟨rfl, rfl, rfl, rfl, rfl, rfl, rfl, rfl, rfl⟩ hw
  exact ⟨a', hu, hra.unfinished' haa hpast, after_same hsp haa hab⟩

theorem Driven.append {s s' s'' : State α} {xs ys : List (Drive α)} (h : Driven fuel sa s xs s') (h' : Driven fuel sa s' ys s'') :
    Driven fuel sa s (xs ++ ys) s'' := by
  induction h with
  | nil => exact h'
  | cons hu hp _ ih => exact .cons hu hp (ih h')

theorem Driven.split {s s'' : State α} : ∀ {xs ys : List (Drive α)}, Driven fuel sa s (xs ++ ys) s'' →
    ∃ s', Driven fuel sa s xs s' ∧ Driven fuel sa s' ys s''
  | [], _, h => ⟨s, .nil, h⟩
  | x :: xs, ys, h => by
    cases h with
    | cons hu hp h =>
      obtain ⟨s', h1, h2⟩ := Driven.split h
      exact ⟨s', .cons hu hp h1, h2⟩

theorem Comparable.next {a b a' b' : State α} {k na nb : Nat} {xs ys : List (Drive α)} (hc : Comparable a b k na nb)
    (ha : Driven fuel sa a xs a') (hb : Driven fuel sa b ys b') (hs : SamePhysics a' b') : Comparable a' b' k na nb := by
  obtain ⟨k1, k2, k3, k4, k5⟩ := driven_keeps ha hc.fixed hc.valid hc.frozen hc.stepsA hc.routesA
  have g5 := hc.same.params
  obtain ⟨l1, l2, l3, l4, l5⟩ := driven_keeps hb (by rw [g5]; exact hc.fixed) (by rw [g5]; exact hc.valid)
    (by rw [g5]; exact hc.frozen) hc.stepsB hc.routesB
  exact ⟨hs, k1, k2, k3, k4, l4, hc.cut, k5, l5⟩

end Free
end LGAR
