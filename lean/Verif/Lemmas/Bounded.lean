import Verif.Lemmas.ColumnRun
import Verif.Spec.Bounds
import Verif.Lemmas.CalibSoil
/-
Moisture stays between residual and saturated moisture: every step of a subcycle, over every ordered field with the laws of `LawfulPow`.
-/
set_option linter.unusedSectionVars false
namespace LGAR

variable {K : Type} [Field K] [LinearOrder K] [IsStrictOrderedRing K] [CMath K] [LawfulNum K] [LawfulPow K]

theorem calcTheta_range {s : SoilProps K} (hs : s.Physical) {h t : K} (hh : 0 ≤ h)
    (he : calcThetaFromH h s.vgAlpha s.vgM s.vgN s.thetaE s.thetaR = .ok t) : s.thetaR ≤ t ∧ t ≤ s.thetaE := by
  unfold calcThetaFromH at he
  simp only [bind_ok_iff, cpow_ok_iff, cdiv_ok, pure_eq_ok, Except.ok.injEq] at he
  obtain ⟨p, ⟨hpo, rfl⟩, q, ⟨_, rfl⟩, r, ⟨hq, rfl⟩, rfl⟩ := he
  have hp := LawfulPow.pow_nonneg _ _ (mul_nonneg hs.alpha.le hh) hpo
  have h1 := LawfulPow.one_le_pow (1 + CMath.pow (s.vgAlpha * h) s.vgN) s.vgM (by linarith) hs.m_pos.le
  have h2 : 1 / CMath.pow (1 + CMath.pow (s.vgAlpha * h) s.vgN) s.vgM ≤ 1 := by
    rw [div_le_one (by linarith)]; exact h1
  have h3 : 0 ≤ 1 / CMath.pow (1 + CMath.pow (s.vgAlpha * h) s.vgN) s.vgM := div_nonneg zero_le_one (by linarith)
  have := hs.gap
  generalize 1 / CMath.pow (1 + CMath.pow (s.vgAlpha * h) s.vgN) s.vgM = r at *
  constructor <;> nlinarith

theorem psi_nonneg {s : SoilProps K} (hs : s.Physical) {t Se psi : K} (h1 : s.thetaR ≤ t) (h2 : t ≤ s.thetaE)
    (he : calcSeFromTheta t s.thetaE s.thetaR = .ok Se) (hp : calcHFromSe Se s.vgAlpha s.vgM s.vgN = .ok psi) : 0 ≤ psi := by
  have := hs.gap
  unfold calcSeFromTheta at he
  rw [cdiv_ok] at he
  have h0 : 0 ≤ Se := by rw [he.2]; exact div_nonneg (by linarith) (by linarith)
  have h1 : Se ≤ 1 := by rw [he.2, div_le_one (by linarith)]; linarith
  unfold calcHFromSe at hp
  simp only [bind_ok_iff, cpow_ok_iff, cdiv_ok, pure_eq_ok, Except.ok.injEq] at hp
  obtain ⟨a, ⟨_, rfl⟩, e, ⟨_, rfl⟩, p, ⟨hpo, rfl⟩, e2, ⟨_, rfl⟩, q, ⟨hqo, rfl⟩, rfl⟩ := hp
  have hneg : (-1 : K) / s.vgM < 0 := div_neg_of_neg_of_pos (by norm_num) hs.m_pos
  rcases h0.lt_or_eq with h0 | h0
  · have := LawfulPow.one_le_pow_neg Se (-1 / s.vgM) h0 h1 hneg.le
    refine mul_nonneg (div_nonneg (by norm_num) hs.alpha.le) (LawfulPow.pow_nonneg _ _ ?_ hqo)
    norm_num at this ⊢
    linarith
  · rw [← h0] at hpo
    norm_num at hpo
    rw [LawfulPow.powOk_zero] at hpo
    exact absurd hpo (not_le.mpr (by norm_num at hneg; exact hneg))

theorem psiOf_nonneg {s : SoilProps K} (hs : s.Physical) {t psi : K} (h1 : s.thetaR ≤ t) (h2 : t ≤ s.thetaE)
    (h : psiOf s t = .ok psi) : 0 ≤ psi := by
  unfold psiOf at h
  simp only [bind_ok_iff] at h
  obtain ⟨Se, he, h⟩ := h
  exact psi_nonneg hs h1 h2 he h

/-- A front of the given layer, moisture and head is within bounds. -/
theorem Bounded.congr {g : Geo K} {f f' : Front K} (h : Bounded g f) (h1 : f'.layer = f.layer) (h2 : f'.theta = f.theta)
    (h3 : f'.psi = f.psi) : Bounded g f' := by
  obtain ⟨s, a, b, c, d⟩ := h
  exact ⟨s, by rw [h1]; exact a, by rw [h2]; exact b, by rw [h2]; exact c, by rw [h3]; exact d⟩

theorem Bounded.data {g : Geo K} {l l' : List (Front K)} (h : ∀ f ∈ l, Bounded g f)
    (e : l'.map (fun f => (f.layer, f.theta, f.psi)) = l.map (fun f => (f.layer, f.theta, f.psi))) :
    ∀ f ∈ l', Bounded g f := by
  intro f hf
  have : (f.layer, f.theta, f.psi) ∈ l'.map (fun f => (f.layer, f.theta, f.psi)) := List.mem_map.mpr ⟨f, hf, rfl⟩
  rw [e, List.mem_map] at this
  obtain ⟨f0, h0, e0⟩ := this
  simp only [Prod.mk.injEq] at e0
  exact (h f0 h0).congr e0.1.symm e0.2.1.symm e0.2.2.symm

theorem Bounded.dec {g : Geo K} {l : List (Front K)} (h : ∀ f ∈ l, Bounded g f) : ∀ f ∈ decFronts l, Bounded g f :=
  Bounded.data h (by
    have := congrArg (List.map fun d : FrontData K => (d.layer, d.theta, d.psi)) (decFronts_data l)
    rw [List.map_map, List.map_map] at this
    exact this)

theorem Bounded.inc {g : Geo K} {l : List (Front K)} (h : ∀ f ∈ l, Bounded g f) : ∀ f ∈ incFronts l, Bounded g f :=
  Bounded.data h (by unfold incFronts; rw [List.map_map]; rfl)

theorem psiKOf_nonneg {g : Geo K} {k : Nat} {t psi Kc : K} {s : SoilProps K} (hg : PhysGeo g) (hk : 1 ≤ k)
    (hs : g.soil k = .ok s) (h1 : s.thetaR ≤ t) (h2 : t ≤ s.thetaE) (h : psiKOf g k t = .ok (psi, Kc)) : 0 ≤ psi := by
  unfold psiKOf at h
  rw [hs, ok_bind] at h
  simp only [bind_ok_iff] at h
  obtain ⟨ff, _, Se, hSe, psi', hpsi, K', _, h⟩ := h
  simp only [pure_eq_ok, Except.ok.injEq, Prod.mk.injEq] at h
  rw [← h.1]
  exact psi_nonneg (hg k s hk hs) h1 h2 hSe hpsi

/-- Structure and moisture bounds. -/
structure Fine (g : Geo K) (l : List (Front K)) : Prop where
  good : Good g l
  bd : ∀ f ∈ l, Bounded g f

theorem bounded_merge {g : Geo K} {l l' : List (Front K)} {k : Int} (hg : PhysGeo g) (hn : NumFrom k l)
    (hb : ∀ f ∈ l, 1 ≤ f.layer ∧ Bounded g f) (h : mergeFronts g l = .ok l') : ∀ f ∈ l', 1 ≤ f.layer ∧ Bounded g f := by
  refine (mergeLoop_ind (P := fun l => ∀ f ∈ l, 1 ≤ f.layer ∧ Bounded g f) ?_ hn hb h).2
  intro cur l r hn hp hs
  rcases mergeStep_inv hn hs with rfl | ⟨a, c, n, nn, b, d, psi, Kc, rfl, _, _, _, _, _, _, hpsi, rfl⟩
  · exact hp
  · intro f hf
    simp only [List.mem_append, List.mem_cons] at hf
    rcases hf with hf | rfl | hf
    · exact hp f (by simp [hf])
    · obtain ⟨h1, s, e, b1, b2, _⟩ := hp c (by simp)
      exact ⟨h1, s, e, b1, b2, psiKOf_nonneg hg h1 e b1 b2 hpsi⟩
    · have hb1 : ∀ f ∈ nn :: b, Bounded g f := fun f hf => (hp f (by simp at hf ⊢; tauto)).2
      refine ⟨?_, Bounded.dec hb1 f hf⟩
      unfold decFronts at hf
      obtain ⟨f0, hf0, rfl⟩ := List.mem_map.mp hf
      exact (hp f0 (by simp at hf0 ⊢; tauto)).1

theorem Fine.layer {g : Geo K} {l : List (Front K)} (hf : Fine g l) : ∀ f ∈ l, 1 ≤ f.layer ∧ Bounded g f :=
  fun f h => ⟨(hf.good.col.range f h).1, hf.bd f h⟩

theorem Fine.merge {g : Geo K} {l l' : List (Front K)} (hp : PhysGeo g) (hf : Fine g l) (h : mergeFronts g l = .ok l') :
    Fine g l' :=
  ⟨hf.good.merge h, fun f m => (bounded_merge hp hf.good.sound.num hf.layer h f m).2⟩

theorem bounded_cross {g : Geo K} {l l' : List (Front K)} (hg : PhysGeo g)
    (hb : ∀ f ∈ l, 1 ≤ f.layer ∧ Bounded g f) (h : crossLayer g l = .ok l') : ∀ f ∈ l', 1 ≤ f.layer ∧ Bounded g f := by
  refine crossLoop_ind (P := fun l => ∀ f ∈ l, 1 ≤ f.layer ∧ Bounded g f) ?_ hb h
  intro cur l l' hp hx
  rcases crossStep_inv hx with rfl | hx
  · exact hp
  · obtain ⟨a, c, n, nn, b, s, ff, s2, bot, psi, Kc, thetaNew, Se, z, rfl, _, hs, _, _, _, _, _, hs2, hSe, hpsi, _, hth, _,
      rfl⟩ := hx
    obtain ⟨h1, s', e, b1, b2, _⟩ := hp c (by simp)
    rw [hs, Except.ok.injEq] at e
    subst e
    have p0 := psi_nonneg (hg _ _ h1 hs) b1 b2 hSe hpsi
    intro f hf
    simp only [List.mem_append, List.mem_cons] at hf
    rcases hf with hf | rfl | rfl | hf | hf
    · exact hp f (by simp [hf])
    · exact ⟨h1, s, hs, b1, b2, p0⟩
    · obtain ⟨t1, t2⟩ := calcTheta_range (hg _ _ (by omega) hs2) p0 hth
      exact ⟨by show 1 ≤ c.layer + 1; omega, s2, hs2, t1, t2, p0⟩
    · exact hp f (by simp [hf])
    · exact hp f (by simp [hf])

theorem Fine.cross {g : Geo K} {l l' : List (Front K)} (hp : PhysGeo g) (hf : Fine g l)
    (ht : g.numLayers = 1 ∨ NoStrayAtBottom g.numLayers g.cum l) (h : crossLayer g l = .ok l') : Fine g l' :=
  ⟨hf.good.cross ht h, fun f m => (bounded_cross hp hf.layer h f m).2⟩

theorem bounded_updAbove {g : Geo K} {psi : K} {k : Nat} (hg : PhysGeo g) (hpsi : 0 ≤ psi) :
    ∀ {l l' : List (Front K)}, (∀ f ∈ l, 1 ≤ f.layer ∧ Bounded g f) → updAbove g psi k l = .ok l' →
      ∀ f ∈ l', 1 ≤ f.layer ∧ Bounded g f
  | [], _, _, h => by simp [updAbove] at h
  | f :: t, l', hb, h => by
    unfold updAbove at h
    split at h
    · simp only [bind_ok_iff, pure_eq_ok, Except.ok.injEq] at h
      obtain ⟨s, hs, th, hth, r, hr, rfl⟩ := h
      have h1 := (hb f (by simp)).1
      intro x hx
      rcases List.mem_cons.mp hx with rfl | hx
      · obtain ⟨t1, t2⟩ := calcTheta_range (hg _ _ h1 hs) hpsi hth
        exact ⟨h1, s, hs, t1, t2, hpsi⟩
      · exact bounded_updAbove hg hpsi (fun f hf => hb f (by simp [hf])) hr x hx
    · simp only [pure_eq_ok, Except.ok.injEq] at h
      subst h; exact hb

theorem bounded_dec1 {g : Geo K} {l : List (Front K)} (h : ∀ f ∈ l, 1 ≤ f.layer ∧ Bounded g f) :
    ∀ f ∈ decFronts l, 1 ≤ f.layer ∧ Bounded g f := by
  intro f hf
  refine ⟨?_, Bounded.dec (fun x hx => (h x hx).2) f hf⟩
  unfold decFronts at hf
  obtain ⟨f0, hf0, rfl⟩ := List.mem_map.mp hf
  exact (h f0 hf0).1

theorem bounded_fixDry {g : Geo K} {mc : K} {l : List (Front K)} {r : List (Front K) × K} {k : Int} (hg : PhysGeo g)
    (hn : NumFrom k l) (hb : ∀ f ∈ l, 1 ≤ f.layer ∧ Bounded g f) (h : fixDry g mc l = .ok r) :
    ∀ f ∈ r.1, 1 ≤ f.layer ∧ Bounded g f := by
  unfold fixDry at h
  simp only [bind_ok_iff] at h
  obtain ⟨_, _, h⟩ := h
  refine (fixDryLoop_ind (P := fun l _ => ∀ f ∈ l, 1 ≤ f.layer ∧ Bounded g f) ?_ hn hb h).2
  intro a b c n mc r hn hp _ _ hr
  have ha : ∀ f ∈ a, 1 ≤ f.layer ∧ Bounded g f := fun f hf => hp f (by simp [hf])
  have hnb : ∀ f ∈ n :: b, 1 ≤ f.layer ∧ Bounded g f := fun f hf => hp f (by simp at hf ⊢; tauto)
  obtain ⟨m0, m1, l2, _, _, rfl, hl2 | ⟨_, d, b', sl, Se, psi, e, hs, hSe, hpsi, hu⟩⟩ := fixDryRepair_inv hn hr
  · rw [hl2.2]
    intro f hf
    rcases List.mem_append.mp hf with hf | hf
    · exact ha f hf
    · exact bounded_dec1 hnb f hf
  · obtain ⟨rfl, rfl⟩ := List.cons.inj e
    obtain ⟨h1, s', e', b1, b2, _⟩ := hnb n (by simp)
    rw [hs, Except.ok.injEq] at e'
    subst e'
    have p0 := psi_nonneg (hg _ _ h1 hs) b1 b2 hSe hpsi
    refine bounded_updAbove hg p0 ?_ hu
    intro f hf
    simp only [List.mem_append, List.mem_cons] at hf
    rcases hf with hf | rfl | hf
    · exact ha f hf
    · exact ⟨h1, sl, hs, b1, b2, p0⟩
    · exact bounded_dec1 (fun x hx => hnb x (by simp [hx])) f hf

theorem Fine.checkFix {g : Geo K} {mc : K} {l : List (Front K)} {r : List (Front K) × K} (hp : PhysGeo g) (hf : Fine g l)
    (h : checkFix g mc l = .ok r) : Fine g r.1 := by
  refine ⟨hf.good.checkFix h, ?_⟩
  rcases checkFix_inv h with rfl | h
  · exact hf.bd
  · exact fun f m => (bounded_fixDry hp hf.good.sound.num hf.layer h f m).2

theorem Fine.domain {g : Geo K} {dom : K} {l : List (Front K)} {r : K × List (Front K)} (hp : PhysGeo g) (hf : Fine g l)
    (hinc : g.cum.Pairwise (· < ·)) (hdom : g.cum[g.numLayers]? = some dom)
    (h : crossDomain g dom l = .ok r) : Fine g r.2 := by
  refine ⟨hf.good.domain hinc hdom h, ?_⟩
  rcases domainLoop_inv hf.good.sound.num h with rfl | ⟨a, c, n, psi, Kc, rfl, hd, hpsi, rfl⟩
  · exact hf.bd
  · have hl : c.layer = n.layer := by
      have h1 := hf.good.col.suffix (a := a) (x := c) (u := [n])
      rw [col_cons_iff] at h1
      have h2 := h1.2.2.2.2
      rw [col_single_iff] at h2
      by_contra hne
      have hcb := h1.2.2.1.mpr hne
      have e1 := h1.2.2.2.1 hcb
      have hr := hf.good.col.range c (by simp)
      rw [List.getElem?_eq_some_iff] at e1 hdom
      obtain ⟨i1, e1⟩ := e1
      obtain ⟨i2, e2⟩ := hdom
      have := List.pairwise_iff_getElem.mp hinc c.layer g.numLayers i1 i2 (by omega)
      rw [e1, e2] at this
      exact absurd hd (not_le.mpr this)
    obtain ⟨h1, s, e, b1, b2, _⟩ := hf.layer c (by simp)
    have p0 := psiKOf_nonneg hp h1 e b1 b2 hpsi
    intro f hm
    rcases List.mem_append.mp hm with hm | hm
    · exact hf.bd f (by simp [hm])
    · simp only [decFronts, List.map_cons, List.map_nil, List.mem_singleton] at hm
      subst hm
      exact ⟨s, by show g.soil n.layer = _; rw [← hl]; exact e, b1, b2, p0⟩

theorem clamp_range {s : SoilProps K} (hs : s.Physical) (o : Option K) :
    s.thetaR ≤ clampTheta s o ∧ clampTheta s o ≤ s.thetaE := by
  have := hs.gap.le
  cases o with
  | none => simp only [clampTheta, fmax_eq]; exact ⟨le_max_left _ _, max_le this le_rfl⟩
  | some t =>
    simp only [clampTheta, fmax_eq, fmin_eq]
    exact ⟨le_max_left _ _, max_le this (min_le_right _ _)⟩

theorem moved_bounded {fuel : Nat} {g : Geo K} {dt precip : K} {nFd n wf : Nat} {olds l : List (Front K)} {aet aet' : K}
    {c c' : Front K} (hg : PhysGeo g) (hb : ∀ f ∈ l, 1 ≤ f.layer ∧ Bounded g f) (hc : c ∈ l)
    (h : Moved fuel g dt precip nFd n wf olds l aet c c' aet') : 1 ≤ c'.layer ∧ Bounded g c' := by
  have ht := (Front.tag_eq h.tag_eq).1
  have h1 := (hb c hc).1
  refine ⟨by rw [ht]; exact h1, ?_⟩
  obtain ⟨s0, e0, a1, a2, a3⟩ := (hb c hc).2
  have hP := hg _ _ h1 e0
  cases h with
  | boundary s nx th hs hwf hnx hl hth =>
    rw [e0, Except.ok.injEq] at hs; subst hs
    obtain ⟨_, _, _, _, hq⟩ := (hb nx (List.mem_of_getElem? hnx)).2
    obtain ⟨t1, t2⟩ := calcTheta_range hP hq hth
    exact ⟨s0, e0, t1, t2, hq⟩
  | top s nx old oldNext c1 column psi hs hwf hnx hl h1 hcol hold holdn hm hpsi =>
    rw [e0, Except.ok.injEq] at hs; subst hs
    obtain ⟨_, _, _, hth⟩ := moveTopLayer_tag hm
    have hr : s0.thetaR ≤ c1.theta ∧ c1.theta ≤ s0.thetaE := by
      rcases hth with ⟨h, _⟩ | ⟨t, h⟩
      · rw [h]; exact ⟨a1, a2⟩
      · rw [h]; simp only [fmax_eq, fmin_eq]
        exact ⟨le_max_left _ _, max_le hP.gap.le (min_le_left _ _)⟩
    refine ⟨s0, ?_, hr.1, hr.2, psiOf_nonneg hP hr.1 hr.2 hpsi⟩
    show g.soil c1.layer = _
    rw [(Front.tag_eq (moveTopLayer_tag hm).1).1]; exact e0
  | inner s nx old oldNext oldSucc c1 psi aet' hs hwf hnx hl h1 hold holdn holds hm hpsi =>
    rw [e0, Except.ok.injEq] at hs; subst hs
    obtain ⟨_, _, t, hth⟩ := moveInner_tag hm
    have hr := clamp_range hP t
    rw [← hth] at hr
    refine ⟨s0, ?_, hr.1, hr.2, psiOf_nonneg hP hr.1 hr.2 hpsi⟩
    show g.soil c1.layer = _
    rw [(Front.tag_eq (moveInner_tag hm).1).1]; exact e0
  | deepest s old c1 aet' hs hwf hn hold hm =>
    rw [e0, Except.ok.injEq] at hs; subst hs
    unfold moveDeepest at hm
    simp only [bind_ok_iff, Prod.exists, pure_eq_ok, Except.ok.injEq, Prod.mk.injEq] at hm
    obtain ⟨base, _, a, _, th, aet', _, psi, hpsi, rfl, _⟩ := hm
    have hr := clamp_range hP th
    exact ⟨s0, e0, hr.1, hr.2, psiOf_nonneg hP hr.1 hr.2 hpsi⟩
  | same => exact ⟨s0, e0, a1, a2, a3⟩

theorem bounded_moveOnes {fuel : Nat} {g : Geo K} {dt precip : K} {nFd n : Nat} {prev : List (Front K)} (hg : PhysGeo g) :
    ∀ {wf : Nat} {l : List (Front K)} {aet : K} {r : List (Front K) × K}, NumFrom 1 l → n = l.length → wf ≤ n →
      (∀ f ∈ l, 1 ≤ f.layer ∧ Bounded g f) →
      moveOnes fuel g dt precip nFd n prev wf l aet = .ok r → ∀ f ∈ r.1, 1 ≤ f.layer ∧ Bounded g f
  | 0, l, aet, r, _, _, _, hb, h => by simp [moveOnes] at h; subst h; exact hb
  | wf + 1, l, aet, r, hn, hl, hw, hb, h => by
    unfold moveOnes at h
    simp only [bind_ok_iff, Prod.exists] at h
    obtain ⟨l1, aet1, h1, h⟩ := h
    obtain ⟨c, c', hc, hl1, hm⟩ := moveOne_cases hn hl (by omega) hw h1
    simp only at hl1
    have ht : l1.map Front.tag = l.map Front.tag := by rw [hl1]; exact set_tags hc hm.tag_eq
    refine bounded_moveOnes hg (tags_num ht hn) (by rw [hl, hl1]; simp) (by omega) ?_ h
    intro f hf
    rw [hl1] at hf
    rcases List.mem_or_eq_of_mem_set hf with hf | rfl
    · exact hb f hf
    · exact moved_bounded hg hb (List.mem_of_getElem? hc) hm

theorem Fine.moveTop {g : Geo K} {oldMass precip aet : K} {l : List (Front K)} {r : List (Front K) × K × K}
    (hp : PhysGeo g) (hf : Fine g l) (ht : g.numLayers = 1 ∨ NoStrayAtBottom g.numLayers g.cum l)
    (h : moveTop g oldMass precip l aet = .ok r) : Fine g r.1 := by
  refine ⟨hf.good.moveTop ht h, ?_⟩
  obtain ⟨l1, column, h1, hcol, h2⟩ := moveTop_inv h
  have hf1 := hf.cross hp ht h1
  rcases h2 with h2 | ⟨p, w, d, _, hw, h2, _⟩
  · rw [h2]; exact hf1.bd
  · rw [h2]
    intro f hm
    rcases List.mem_or_eq_of_mem_set hm with hm | rfl
    · exact hf1.bd f hm
    · exact (hf1.bd w (List.mem_of_getElem? hw)).congr rfl rfl rfl

theorem bounded_refresh {g : Geo K} (hg : PhysGeo g) : ∀ {l l' : List (Front K)}, (∀ f ∈ l, 1 ≤ f.layer ∧ Bounded g f) →
    refresh g l = .ok l' → ∀ f ∈ l', Bounded g f
  | [], l', _, h => by simp [refresh] at h
  | [f], l', hb, h => by simp [refresh] at h; subst h; exact fun f hf => (hb f hf).2
  | f :: n :: t, l', hb, h => by
    unfold refresh at h
    simp only [bind_ok_iff, pure_eq_ok, Except.ok.injEq] at h
    obtain ⟨f', hf', r, hr, rfl⟩ := h
    intro x hx
    rcases List.mem_cons.mp hx with rfl | hx
    · unfold refreshOne at hf'
      obtain ⟨h1, s, e, b1, b2, b3⟩ := hb f (by simp)
      split at hf'
      · simp only [bind_ok_iff, Prod.exists, Except.ok.injEq] at hf'
        obtain ⟨psi, Kc, hpsi, rfl⟩ := hf'
        exact ⟨s, e, b1, b2, psiKOf_nonneg hg h1 e b1 b2 hpsi⟩
      · simp only [Except.ok.injEq] at hf'
        subst hf'; exact ⟨s, e, b1, b2, b3⟩
    · exact bounded_refresh hg (fun f hf => hb f (by simp at hf ⊢; tauto)) hr x hx

theorem Fine.movePost {g : Geo K} {l : List (Front K)} {aet flux : K} {r : List (Front K) × K × K} (hp : PhysGeo g)
    (hf : Fine g l) (hinc : g.cum.Pairwise (· < ·))
    (ht : g.numLayers = 1 ∨ Res.Holds (LGAR.checkFix g 0 l) fun (l3, _) => Res.Holds (mergeFronts g l3) fun l4 =>
      NoStrayAtBottom g.numLayers g.cum l4)
    (h : movePost g l aet flux = .ok r) : Fine g r.1 := by
  refine ⟨hf.good.movePost hinc ht h, ?_⟩
  obtain ⟨l1, mc1, l2, l3, l4, mc4, l5, column, fl, l6, l7, mc7, l8, h1, h2, h3, h4, h5, hcol, h6, h7, h8, h9, _, _⟩ :=
    movePost_inv h
  have g2 : Fine g l2 := (hf.checkFix hp h1).merge hp h2
  have g3 : Fine g l3 := g2.cross hp (ht.imp_right fun t => (t.of_ok h1).of_ok h2) h3
  have g5 : Fine g l5 := (g3.checkFix hp h4).merge hp h5
  have g7 : Fine g l7 := (g5.domain hp hinc hcol h6).checkFix hp h7
  have c8 := bounded_refresh hp g7.layer h8
  rcases fixSingle_inv h9 with e | ⟨f, c1, e, hc1, hne, e'⟩
  · rw [e]; exact c8
  · rw [e']
    intro x hx
    simp only [List.mem_singleton] at hx
    subst hx
    exact (c8 f (by rw [e]; simp)).congr rfl rfl rfl

theorem Fine.moveFronts {fuel : Nat} {g : Geo K} {dt oldMass precip : K} {nFd : Nat} {prev l : List (Front K)}
    {aet : K} {r : List (Front K) × K × K} (hp : PhysGeo g) (hf : Fine g l) (hinc : g.cum.Pairwise (· < ·))
    (ht : g.numLayers = 1 ∨ MoveTieFree fuel g dt precip nFd oldMass aet prev l)
    (h : moveFronts fuel g dt precip nFd oldMass aet prev l = .ok r) : Fine g r.1 := by
  unfold LGAR.moveFronts at h
  simp only [bind_ok_iff, Prod.exists] at h
  obtain ⟨l1, aet1, fl, h1, h⟩ := h
  unfold moveMain at h1
  rw [if_neg (by simpa using hf.good.col.ne_nil)] at h1
  simp only [bind_ok_iff, Prod.exists] at h1
  obtain ⟨l0, aet0, h0, h1⟩ := h1
  have g0 : Fine g l0 := ⟨moveOnes_good hf.good rfl le_rfl h0,
    fun f m => (bounded_moveOnes hp hf.good.sound.num rfl le_rfl hf.layer h0 f m).2⟩
  exact (g0.moveTop hp (ht.imp_right fun t => (t.of_ok h0).1) h1).movePost hp hinc
    (ht.imp_right fun t => (t.of_ok h0).2.of_ok h1) h

theorem surficialSplit_le {ponded dry theta1 e a b t : K} (h : surficialSplit ponded dry theta1 e = .ok (a, b, t)) : t ≤ e := by
  unfold surficialSplit at h
  split at h
  · simp only [bind_ok_iff, pure_eq_ok, Except.ok.injEq, Prod.mk.injEq] at h
    obtain ⟨q, _, _, _, rfl⟩ := h
    rw [fmin_eq]; exact min_le_right _ _
  · simp only [pure_eq_ok, Except.ok.injEq, Prod.mk.injEq] at h
    exact h.2.2.symm.le

theorem Fine.create {g : Geo K} {ponded dry theta1 : K} {l : List (Front K)} {r : K × K × List (Front K)} (hp : PhysGeo g)
    (hf : Fine g l) (ht : g.numLayers = 1 ∨ CreateTieFree g ponded dry theta1 l)
    (h : createSurficial g ponded dry theta1 l = .ok r) : Fine g r.2.2 := by
  obtain ⟨l1, h1, h2⟩ := createSurficial_steps h
  obtain ⟨s, thn, Se, psi, Kc, ff, hs, _, hsp, hSe, hpsi, hK, he⟩ := createFront_inv h1
  simp only at he hsp
  have hP := hp 1 s le_rfl hs
  have t2 := surficialSplit_le hsp
  have t1 : s.thetaR ≤ thn := by
    unfold calcKFromSe at hK
    simp only [bind_ok_iff] at hK
    obtain ⟨_, hq, _⟩ := hK
    rw [csqrt_ok_iff] at hq
    have h0 := hq.1
    rw [LawfulPow.sqrtOk_iff] at h0
    unfold calcSeFromTheta at hSe
    rw [cdiv_ok] at hSe
    rw [hSe.2] at h0
    have := hP.gap
    by_contra hc
    have : (thn - s.thetaR) / (s.thetaE - s.thetaR) < 0 := div_neg_of_neg_of_pos (by linarith) (by linarith)
    linarith
  have p0 := psi_nonneg hP t1 t2 hSe hpsi
  have g1 : Fine g l1 := by
    rw [he]
    refine ⟨⟨hf.good.sound.push rfl, col_push hf.good.col rfl rfl⟩, ?_⟩
    intro f hm
    rcases List.mem_cons.mp hm with rfl | hm
    · exact ⟨s, hs, t1, t2, p0⟩
    · exact Bounded.inc hf.bd f hm
  rcases h2 with ⟨_, h2⟩ | ⟨_, l2, h2, h3⟩
  · rw [h2]; exact g1
  · exact (g1.merge hp h2).cross hp (ht.imp_right fun t => (t.of_ok h1).of_ok h2) h3

theorem Fine.speed {fuel : Nat} {closed : Bool} {nint : Int} {hp : K} {g : Geo K} {l l' : List (Front K)}
    (hf : Fine g l) (h : dzdtCalc fuel closed nint hp g l = .ok l') : Fine g l' := by
  refine ⟨hf.good.speed h, Bounded.data hf.bd ?_⟩
  have e := congrArg (List.map (fun x : K × K × K × K × Nat × Int × Bool => (x.2.2.2.2.1, x.2.1, x.2.2.1)))
    (dzdtCalc_frame h)
  rw [List.map_map, List.map_map] at e
  exact e

theorem Fine.subStep {c : StepCfg K} {s s' : SubSt K} (hp : PhysGeo c.geo) (hf : Fine c.geo s.head)
    (hinc : c.geo.cum.Pairwise (· < ·)) (ht : c.geo.numLayers = 1 ∨ StepTieFree c s) (h : subStep c s = .ok s') :
    Fine c.geo s'.head := by
  obtain ⟨aet, vs, h0, hsoil, f, l, ve, h1, ha, _, hh0, hhs, hsf, hl, _, _, _, _, rfl⟩ := subStep_inv h
  refine Fine.speed (l := f.head) ?_ hl
  replace ht := ht.imp_right fun t => ((t.of_ok ha).of_ok (deref_ok_iff.mpr hh0)).of_ok hhs
  unfold FlowTieFree at ht
  unfold LGAR.subFlow at hsf
  split at hsf
  · rename_i hc
    simp only [if_pos hc] at ht
    obtain ⟨l, flux, dry, d, h0, pd, hm, hd, hh, hcr, _⟩ := flowCreate_inv hsf
    have gm := hf.moveFronts hp hinc (ht.imp_right fun t => t.1) hm
    exact gm.create hp (ht.imp_right fun t => ((t.2.of_ok hm).of_ok hd).of_ok (deref_ok_iff.mpr hh)) hcr
  · rename_i hc
    simp only [if_neg hc] at ht
    obtain ⟨hsf, hm, _⟩ := flowMove_inv hsf
    exact hf.moveFronts hp hinc (ht.imp_right fun t => t.of_ok hsf) hm

theorem Fine.subLoop {c : StepCfg K} (hp : PhysGeo c.geo) (hinc : c.geo.cum.Pairwise (· < ·)) :
    ∀ {n : Nat} {s s' : SubSt K}, Fine c.geo s.head → (c.geo.numLayers = 1 ∨ LoopTieFree c n s) →
      subLoop c n s = .ok s' → Fine c.geo s'.head
  | 0, s, s', hg, _, h => by simp [LGAR.subLoop] at h; subst h; exact hg
  | n + 1, s, s', hg, ht, h => by
    unfold LGAR.subLoop at h
    simp only [bind_ok_iff] at h
    obtain ⟨s1, h1, h⟩ := h
    have g1 := hg.subStep hp hinc (ht.imp_right fun t => t.1) h1
    split at h
    · simp only [pure_eq_ok, Except.ok.injEq] at h
      subst h; exact g1
    · exact Fine.subLoop hp hinc g1 (ht.imp_right fun t => t.2.of_ok h1) h

theorem PhysGeo.congr {g g' : Geo K} (hp : PhysGeo g) (h1 : g'.soilType = g.soilType) (h2 : g'.soils = g.soils) : PhysGeo g' :=
  fun k s hk hs => hp k s hk (by rw [← geo_soil h1 h2]; exact hs)

theorem Fine.geo {g g' : Geo K} {l : List (Front K)} (hf : Fine g l) (h1 : g'.numLayers = g.numLayers) (h2 : g'.cum = g.cum)
    (h3 : g'.soilType = g.soilType) (h4 : g'.soils = g.soils) : Fine g' l := by
  refine ⟨hf.good.geo h1 h2, fun f hm => ?_⟩
  obtain ⟨s, e, b⟩ := hf.bd f hm
  exact ⟨s, by rw [geo_soil h3 h4]; exact e, b⟩

theorem Fine.update {fuel : Nat} {sa : Bool} {s s' : State K} (hp' : PhysGeo s'.geo) (hf : Fine s.geo s.head)
    (hnw : s.p.numWf = (s.head.length : Int))
    (hinc : s.p.cum.Pairwise (· < ·))
    (hcal : s.p.calibFlag = true → DistinctTypes s.p.layerSoilType s.p.numLayers)
    (ht : s.p.numLayers = 1 ∨ UpdateTieFree fuel sa s)
    (h : update fuel sa s = .ok s') : Fine s'.geo s'.head := by
  obtain ⟨f1, f2, f3, _⟩ := update_fixed h
  rcases update_inv h with ⟨_, rfl⟩ | ⟨_, s1, d, v, u, h1, hv, hu, h2⟩
  · exact hf.geo rfl rfl rfl rfl
  · obtain ⟨_, _, _, hh, _, hso, _, _, _, _, _, _, hpp, _⟩ := updatePost_inv h2
    have ht1 := ht.imp_right fun t => (t.of_ok h1).of_ok hv
    have hsk := updatePre_skel h1
    obtain ⟨_, _, fs, soils, l, fc, pm, q, _, e, _, hc⟩ := updatePre_inv h1
    have e1 : s1.p.cum = s.p.cum := by subst e; rfl
    have e2 : s1.p.numLayers = s.p.numLayers := by subst e; rfl
    have e3 : s1.p.layerSoilType = s.p.layerSoilType := by subst e; rfl
    have e7 : s'.soils = s1.soils := hso
    have hp1 : PhysGeo s1.geo := hp'.congr (by show s1.p.layerSoilType = s'.p.layerSoilType; rw [f3, e3]) e7.symm
    have hf1 : Fine s1.geo s1.head := by
      rcases hc with ⟨hc, _, _, hl, _⟩ | ⟨_, _, _, rfl, rfl, _⟩
      · have e5 : s1.head = l := by subst e; rfl
        have e4 : s1.soils = soils := by subst e; rfl
        have hgood : Good s1.geo s1.head := by
          refine Good.geo (g := s.geo) ⟨hf.good.sound.skel hsk, ?_⟩ e2 e1
          rw [e5]
          refine col_congr ?_ hf.good.col
          have e := congrArg (List.map (fun x : K × K × K × Nat × Int × Bool × K => (x.1, x.2.2.2.1, x.2.2.2.2.2.1)))
            (calibLoop_frame hl).1
          rw [List.map_map, List.map_map] at e
          exact e.symm
        refine ⟨hgood, ?_⟩
        rw [e5]
        intro f' hf'
        have hr := fun f hf' => hf.good.col.range f hf'
        obtain ⟨f, hfm, t, p, a1, a2, a3, a4, a5, a6⟩ := calibLoop_soil hl (by rw [hnw]; simp)
          (fun a ha b hb t h1 h2 => hcal hc _ _ t (hr a ha).1 (hr a ha).2 (hr b hb).1 (hr b hb).2 h1 h2) f' hf'
        have hsoil : s1.geo.soil f'.layer = .ok p := by
          unfold Geo.soil
          rw [a4, show s1.geo.soilType = s.p.layerSoilType from e3, idx_ok_iff.mpr a1, ok_bind, idxI_ok_iff]
          exact ⟨a2, by show s1.soils[t.toNat]? = some p; rw [e4]; exact a3⟩
        have p0 : 0 ≤ f.psi := (hf.bd f hfm).choose_spec.2.2.2
        obtain ⟨r1, r2⟩ := calcTheta_range (hp1 _ _ (by rw [a4]; exact (hr f hfm).1) hsoil) p0 a6
        exact ⟨p, hsoil, r1, r2, by rw [a5]; exact p0⟩
      · have e5 : s1.head = s.head := by subst e; rfl
        have e4 : s1.soils = s.soils := by subst e; rfl
        rw [e5]; exact hf.geo e2 e1 e3 e4
    have := Fine.subLoop (c := stepCfg fuel sa s1) hp1 (by show s1.p.cum.Pairwise _; rw [e1]; exact hinc)
      (s := subInit s1 v) (s' := u) hf1 (ht1.imp_left fun e => by show s1.p.numLayers = 1; rw [e2, e]) hu
    rw [hh]
    exact this.geo (by show s'.p.numLayers = s1.p.numLayers; rw [f1, e2]) (by show s'.p.cum = s1.p.cum; rw [f2, e1])
      (by show s'.p.layerSoilType = s1.p.layerSoilType; rw [f3, e3]) e7

end LGAR
