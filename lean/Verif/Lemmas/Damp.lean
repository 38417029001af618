import Verif.Lemmas.Anchor
import Verif.Lemmas.CalibSoil
import Verif.Spec.Bounds
/-
A range of moisture that the soil functions keep is kept by every step of a run, in any arithmetic.
-/
set_option linter.unusedSectionVars false
namespace LGAR

section LawFree
variable {α : Type} [Add α] [Sub α] [Mul α] [Div α] [Neg α] [Zero α] [One α] [OfScientific α]
  [LT α] [LE α] [DecidableLT α] [DecidableLE α] [BEq α] [CMath α]

/-- The soil functions of `s` keep the range `In s` of moisture and the range `Pos` of heads. -/
structure Keeps (In : SoilProps α → α → Prop) (Pos : α → Prop) (s : SoilProps α) : Prop where
  theta : ∀ h t, Pos h → calcThetaFromH h s.vgAlpha s.vgM s.vgN s.thetaE s.thetaR = .ok t → In s t
  head : ∀ t Se psi, In s t → calcSeFromTheta t s.thetaE s.thetaR = .ok Se →
    calcHFromSe Se s.vgAlpha s.vgM s.vgN = .ok psi → Pos psi
  clamp : ∀ o, In s (clampTheta s o)
  clampTop : ∀ t, In s (CMath.fmax s.thetaR (CMath.fmin s.thetaE t))
  fresh : ∀ ponded dry theta1 a b t Se, surficialSplit ponded dry theta1 s.thetaE = .ok (a, b, t) →
    calcSeFromTheta t s.thetaE s.thetaR = .ok Se → CMath.sqrtOk Se = true → In s t

/-- In every layer. -/
def KeepsGeo (In : SoilProps α → α → Prop) (Pos : α → Prop) (g : Geo α) : Prop :=
  ∀ k s, 1 ≤ k → g.soil k = .ok s → Keeps In Pos s

/-- A front within the ranges. -/
def KeptIn (In : SoilProps α → α → Prop) (Pos : α → Prop) (g : Geo α) (f : Front α) : Prop :=
  ∃ s, g.soil f.layer = .ok s ∧ In s f.theta ∧ Pos f.psi

variable {In : SoilProps α → α → Prop} {Pos : α → Prop}

theorem Keeps.psiOf {s : SoilProps α} (hs : Keeps In Pos s) {t psi : α} (h1 : In s t) (h : psiOf s t = .ok psi) : Pos psi := by
  unfold LGAR.psiOf at h
  simp only [bind_ok_iff] at h
  obtain ⟨Se, he, h⟩ := h
  exact hs.head _ _ _ h1 he h

theorem KeptIn.congr {g : Geo α} {f f' : Front α} (h : KeptIn In Pos g f) (h1 : f'.layer = f.layer) (h2 : f'.theta = f.theta)
    (h3 : f'.psi = f.psi) : KeptIn In Pos g f' := by
  obtain ⟨s, a, b, d⟩ := h
  exact ⟨s, by rw [h1]; exact a, by rw [h2]; exact b, by rw [h3]; exact d⟩

theorem Keeps.psiKOf {g : Geo α} {k : Nat} {t psi Kc : α} {s : SoilProps α} (hg : KeepsGeo In Pos g) (hk : 1 ≤ k)
    (hs : g.soil k = .ok s) (h1 : In s t) (h : psiKOf g k t = .ok (psi, Kc)) : Pos psi := by
  unfold LGAR.psiKOf at h
  rw [hs, ok_bind] at h
  simp only [bind_ok_iff] at h
  obtain ⟨ff, _, Se, hSe, psi', hpsi, K', _, h⟩ := h
  simp only [pure_eq_ok, Except.ok.injEq, Prod.mk.injEq] at h
  rw [← h.1]
  exact (hg k s hk hs).head _ _ _ h1 hSe hpsi

theorem KeptIn.data {g : Geo α} {l l' : List (Front α)} (h : ∀ f ∈ l, KeptIn In Pos g f)
    (e : l'.map (fun f => (f.layer, f.theta, f.psi)) = l.map (fun f => (f.layer, f.theta, f.psi))) :
    ∀ f ∈ l', KeptIn In Pos g f := by
  intro f hf
  have : (f.layer, f.theta, f.psi) ∈ l'.map (fun f => (f.layer, f.theta, f.psi)) := List.mem_map.mpr ⟨f, hf, rfl⟩
  rw [e, List.mem_map] at this
  obtain ⟨f0, h0, e0⟩ := this
  simp only [Prod.mk.injEq] at e0
  exact (h f0 h0).congr e0.1.symm e0.2.1.symm e0.2.2.symm

theorem KeptIn.dec {g : Geo α} {l : List (Front α)} (h : ∀ f ∈ l, KeptIn In Pos g f) : ∀ f ∈ decFronts l, KeptIn In Pos g f :=
  KeptIn.data h (by
    have := congrArg (List.map fun d : FrontData α => (d.layer, d.theta, d.psi)) (decFronts_data l)
    rw [List.map_map, List.map_map] at this
    exact this)

theorem KeptIn.inc {g : Geo α} {l : List (Front α)} (h : ∀ f ∈ l, KeptIn In Pos g f) : ∀ f ∈ incFronts l, KeptIn In Pos g f :=
  KeptIn.data h (by unfold incFronts; rw [List.map_map]; rfl)

theorem within_merge {g : Geo α} {l l' : List (Front α)} {k : Int} (hg : KeepsGeo In Pos g) (hn : NumFrom k l)
    (hb : ∀ f ∈ l, 1 ≤ f.layer ∧ KeptIn In Pos g f) (h : mergeFronts g l = .ok l') : ∀ f ∈ l', 1 ≤ f.layer ∧ KeptIn In Pos g f := by
  refine (mergeLoop_ind (P := fun l => ∀ f ∈ l, 1 ≤ f.layer ∧ KeptIn In Pos g f) ?_ hn hb h).2
  intro cur l r hn hp hs
  rcases mergeStep_inv hn hs with rfl | ⟨a, c, n, nn, b, d, psi, Kc, rfl, _, _, _, _, _, _, hpsi, rfl⟩
  · exact hp
  · intro f hf
    simp only [List.mem_append, List.mem_cons] at hf
    rcases hf with hf | rfl | hf
    · exact hp f (by simp [hf])
    · obtain ⟨h1, s, e, b1, _⟩ := hp c (by simp)
      exact ⟨h1, s, e, b1, Keeps.psiKOf hg h1 e b1 hpsi⟩
    · have hb1 : ∀ f ∈ nn :: b, KeptIn In Pos g f := fun f hf => (hp f (by simp at hf ⊢; tauto)).2
      refine ⟨?_, KeptIn.dec hb1 f hf⟩
      unfold decFronts at hf
      obtain ⟨f0, hf0, rfl⟩ := List.mem_map.mp hf
      exact (hp f0 (by simp at hf0 ⊢; tauto)).1

theorem within_cross {g : Geo α} {l l' : List (Front α)} (hg : KeepsGeo In Pos g)
    (hb : ∀ f ∈ l, 1 ≤ f.layer ∧ KeptIn In Pos g f) (h : crossLayer g l = .ok l') : ∀ f ∈ l', 1 ≤ f.layer ∧ KeptIn In Pos g f := by
  refine crossLoop_ind (P := fun l => ∀ f ∈ l, 1 ≤ f.layer ∧ KeptIn In Pos g f) ?_ hb h
  intro cur l l' hp hx
  rcases crossStep_inv hx with rfl | hx
  · exact hp
  · obtain ⟨a, c, n, nn, b, s, ff, s2, bot, psi, Kc, thetaNew, Se, z, rfl, _, hs, _, _, _, _, _, hs2, hSe, hpsi, _, hth, _,
      rfl⟩ := hx
    obtain ⟨h1, s', e, b1, _⟩ := hp c (by simp)
    rw [hs, Except.ok.injEq] at e
    subst e
    have p0 := (hg _ _ h1 hs).head _ _ _ b1 hSe hpsi
    intro f hf
    simp only [List.mem_append, List.mem_cons] at hf
    rcases hf with hf | rfl | rfl | hf | hf
    · exact hp f (by simp [hf])
    · exact ⟨h1, s, hs, b1, p0⟩
    · have t1 := (hg _ _ (by omega) hs2).theta _ _ p0 hth
      exact ⟨by show 1 ≤ c.layer + 1; omega, s2, hs2, t1, p0⟩
    · exact hp f (by simp [hf])
    · exact hp f (by simp [hf])

theorem within_updAbove {g : Geo α} {psi : α} {k : Nat} (hg : KeepsGeo In Pos g) (hpsi : Pos psi) :
    ∀ {l l' : List (Front α)}, (∀ f ∈ l, 1 ≤ f.layer ∧ KeptIn In Pos g f) → updAbove g psi k l = .ok l' →
      ∀ f ∈ l', 1 ≤ f.layer ∧ KeptIn In Pos g f
  | [], _, _, h => by simp [updAbove] at h
  | f :: t, l', hb, h => by
    unfold updAbove at h
    split at h
    · simp only [bind_ok_iff, pure_eq_ok, Except.ok.injEq] at h
      obtain ⟨s, hs, th, hth, r, hr, rfl⟩ := h
      have h1 := (hb f (by simp)).1
      intro x hx
      rcases List.mem_cons.mp hx with rfl | hx
      · have t1 := (hg _ _ h1 hs).theta _ _ hpsi hth
        exact ⟨h1, s, hs, t1, hpsi⟩
      · exact within_updAbove hg hpsi (fun f hf => hb f (by simp [hf])) hr x hx
    · simp only [pure_eq_ok, Except.ok.injEq] at h
      subst h; exact hb

theorem within_dec1 {g : Geo α} {l : List (Front α)} (h : ∀ f ∈ l, 1 ≤ f.layer ∧ KeptIn In Pos g f) :
    ∀ f ∈ decFronts l, 1 ≤ f.layer ∧ KeptIn In Pos g f := by
  intro f hf
  refine ⟨?_, KeptIn.dec (fun x hx => (h x hx).2) f hf⟩
  unfold decFronts at hf
  obtain ⟨f0, hf0, rfl⟩ := List.mem_map.mp hf
  exact (h f0 hf0).1

theorem within_fixDry {g : Geo α} {mc : α} {l : List (Front α)} {r : List (Front α) × α} {k : Int} (hg : KeepsGeo In Pos g)
    (hn : NumFrom k l) (hb : ∀ f ∈ l, 1 ≤ f.layer ∧ KeptIn In Pos g f) (h : fixDry g mc l = .ok r) :
    ∀ f ∈ r.1, 1 ≤ f.layer ∧ KeptIn In Pos g f := by
  unfold fixDry at h
  simp only [bind_ok_iff] at h
  obtain ⟨_, _, h⟩ := h
  refine (fixDryLoop_ind (P := fun l _ => ∀ f ∈ l, 1 ≤ f.layer ∧ KeptIn In Pos g f) ?_ hn hb h).2
  intro a b c n mc r hn hp _ _ hr
  have ha : ∀ f ∈ a, 1 ≤ f.layer ∧ KeptIn In Pos g f := fun f hf => hp f (by simp [hf])
  have hnb : ∀ f ∈ n :: b, 1 ≤ f.layer ∧ KeptIn In Pos g f := fun f hf => hp f (by simp at hf ⊢; tauto)
  obtain ⟨m0, m1, l2, _, _, rfl, hl2 | ⟨_, d, b', sl, Se, psi, e, hs, hSe, hpsi, hu⟩⟩ := fixDryRepair_inv hn hr
  · rw [hl2.2]
    intro f hf
    rcases List.mem_append.mp hf with hf | hf
    · exact ha f hf
    · exact within_dec1 hnb f hf
  · obtain ⟨rfl, rfl⟩ := List.cons.inj e
    obtain ⟨h1, s', e', b1, _⟩ := hnb n (by simp)
    rw [hs, Except.ok.injEq] at e'
    subst e'
    have p0 := (hg _ _ h1 hs).head _ _ _ b1 hSe hpsi
    refine within_updAbove hg p0 ?_ hu
    intro f hf
    simp only [List.mem_append, List.mem_cons] at hf
    rcases hf with hf | rfl | hf
    · exact ha f hf
    · exact ⟨h1, sl, hs, b1, p0⟩
    · exact within_dec1 (fun x hx => hnb x (by simp [hx])) f hf

theorem moved_within {fuel : Nat} {g : Geo α} {dt precip : α} {nFd n wf : Nat} {olds l : List (Front α)} {aet aet' : α}
    {c c' : Front α} (hg : KeepsGeo In Pos g) (hb : ∀ f ∈ l, 1 ≤ f.layer ∧ KeptIn In Pos g f) (hc : c ∈ l)
    (h : Moved fuel g dt precip nFd n wf olds l aet c c' aet') : 1 ≤ c'.layer ∧ KeptIn In Pos g c' := by
  have ht := (Front.tag_eq h.tag_eq).1
  have h1 := (hb c hc).1
  refine ⟨by rw [ht]; exact h1, ?_⟩
  obtain ⟨s0, e0, a1, a3⟩ := (hb c hc).2
  have hP := hg _ _ h1 e0
  cases h with
  | boundary s nx th hs hwf hnx hl hth =>
    rw [e0, Except.ok.injEq] at hs; subst hs
    obtain ⟨_, _, _, hq⟩ := (hb nx (List.mem_of_getElem? hnx)).2
    have t1 := hP.theta _ _ hq hth
    exact ⟨s0, e0, t1, hq⟩
  | top s nx old oldNext c1 column psi hs hwf hnx hl h1 hcol hold holdn hm hpsi =>
    rw [e0, Except.ok.injEq] at hs; subst hs
    obtain ⟨_, _, _, hth⟩ := moveTopLayer_tag hm
    have hr : In s0 c1.theta := by
      rcases hth with ⟨h, _⟩ | ⟨t, h⟩
      · rw [h]; exact a1
      · rw [h]; exact hP.clampTop t
    refine ⟨s0, ?_, hr, hP.psiOf hr hpsi⟩
    show g.soil c1.layer = _
    rw [(Front.tag_eq (moveTopLayer_tag hm).1).1]; exact e0
  | inner s nx old oldNext oldSucc c1 psi aet' hs hwf hnx hl h1 hold holdn holds hm hpsi =>
    rw [e0, Except.ok.injEq] at hs; subst hs
    obtain ⟨_, _, t, hth⟩ := moveInner_tag hm
    have hr := hP.clamp t
    rw [← hth] at hr
    refine ⟨s0, ?_, hr, hP.psiOf hr hpsi⟩
    show g.soil c1.layer = _
    rw [(Front.tag_eq (moveInner_tag hm).1).1]; exact e0
  | deepest s old c1 aet' hs hwf hn hold hm =>
    rw [e0, Except.ok.injEq] at hs; subst hs
    unfold moveDeepest at hm
    simp only [bind_ok_iff, Prod.exists, pure_eq_ok, Except.ok.injEq, Prod.mk.injEq] at hm
    obtain ⟨base, _, a, _, th, aet', _, psi, hpsi, rfl, _⟩ := hm
    have hr := hP.clamp th
    exact ⟨s0, e0, hr, hP.psiOf hr hpsi⟩
  | same => exact ⟨s0, e0, a1, a3⟩

theorem within_moveOnes {fuel : Nat} {g : Geo α} {dt precip : α} {nFd n : Nat} {prev : List (Front α)} (hg : KeepsGeo In Pos g) :
    ∀ {wf : Nat} {l : List (Front α)} {aet : α} {r : List (Front α) × α}, NumFrom 1 l → n = l.length → wf ≤ n →
      (∀ f ∈ l, 1 ≤ f.layer ∧ KeptIn In Pos g f) →
      moveOnes fuel g dt precip nFd n prev wf l aet = .ok r → ∀ f ∈ r.1, 1 ≤ f.layer ∧ KeptIn In Pos g f
  | 0, l, aet, r, _, _, _, hb, h => by simp [moveOnes] at h; subst h; exact hb
  | wf + 1, l, aet, r, hn, hl, hw, hb, h => by
    unfold moveOnes at h
    simp only [bind_ok_iff, Prod.exists] at h
    obtain ⟨l1, aet1, h1, h⟩ := h
    obtain ⟨c, c', hc, hl1, hm⟩ := moveOne_cases hn hl (by omega) hw h1
    simp only at hl1
    have ht : l1.map Front.tag = l.map Front.tag := by rw [hl1]; exact set_tags hc hm.tag_eq
    refine within_moveOnes hg (tags_num ht hn) (by rw [hl, hl1]; simp) (by omega) ?_ h
    intro f hf
    rw [hl1] at hf
    rcases List.mem_or_eq_of_mem_set hf with hf | rfl
    · exact hb f hf
    · exact moved_within hg hb (List.mem_of_getElem? hc) hm

theorem within_refresh {g : Geo α} (hg : KeepsGeo In Pos g) : ∀ {l l' : List (Front α)}, (∀ f ∈ l, 1 ≤ f.layer ∧ KeptIn In Pos g f) →
    refresh g l = .ok l' → ∀ f ∈ l', KeptIn In Pos g f
  | [], l', _, h => by simp [refresh] at h
  | [f], l', hb, h => by simp [refresh] at h; subst h; exact fun f hf => (hb f hf).2
  | f :: n :: t, l', hb, h => by
    unfold refresh at h
    simp only [bind_ok_iff, pure_eq_ok, Except.ok.injEq] at h
    obtain ⟨f', hf', r, hr, rfl⟩ := h
    intro x hx
    rcases List.mem_cons.mp hx with rfl | hx
    · unfold refreshOne at hf'
      obtain ⟨h1, s, e, b1, b3⟩ := hb f (by simp)
      split at hf'
      · simp only [bind_ok_iff, Prod.exists, Except.ok.injEq] at hf'
        obtain ⟨psi, Kc, hpsi, rfl⟩ := hf'
        exact ⟨s, e, b1, Keeps.psiKOf hg h1 e b1 hpsi⟩
      · simp only [Except.ok.injEq] at hf'
        subst hf'; exact ⟨s, e, b1, b3⟩
    · exact within_refresh hg (fun f hf => hb f (by simp at hf ⊢; tauto)) hr x hx

variable [Compared α]

/-- Structure and moisture bounds, in every run. -/
structure Damp (In : SoilProps α → α → Prop) (Pos : α → Prop) (g : Geo α) (l : List (Front α)) : Prop where
  firm : Firm g l
  bd : ∀ f ∈ l, KeptIn In Pos g f

theorem Damp.layer {g : Geo α} {l : List (Front α)} (hf : Damp In Pos g l) : ∀ f ∈ l, 1 ≤ f.layer ∧ KeptIn In Pos g f :=
  fun f h => ⟨(hf.firm.anch.range f h).1, hf.bd f h⟩

theorem Damp.merge {g : Geo α} {l l' : List (Front α)} (hp : KeepsGeo In Pos g) (hf : Damp In Pos g l) (h : mergeFronts g l = .ok l') :
    Damp In Pos g l' :=
  ⟨hf.firm.merge h, fun f m => (within_merge hp hf.firm.sound.num hf.layer h f m).2⟩

theorem Damp.cross {g : Geo α} {l l' : List (Front α)} (hp : KeepsGeo In Pos g) (hf : Damp In Pos g l) (hinc : Layered g.numLayers g.cum)
    (h : crossLayer g l = .ok l') : Damp In Pos g l' :=
  ⟨hf.firm.cross hinc h, fun f m => (within_cross hp hf.layer h f m).2⟩

theorem Damp.checkFix {g : Geo α} {mc : α} {l : List (Front α)} {r : List (Front α) × α} (hp : KeepsGeo In Pos g) (hf : Damp In Pos g l)
    (h : checkFix g mc l = .ok r) : Damp In Pos g r.1 := by
  refine ⟨hf.firm.checkFix h, ?_⟩
  rcases checkFix_inv h with rfl | h
  · exact hf.bd
  · exact fun f m => (within_fixDry hp hf.firm.sound.num hf.layer h f m).2

theorem Damp.domain {g : Geo α} {dom : α} {l : List (Front α)} {r : α × List (Front α)} (hp : KeepsGeo In Pos g) (hf : Damp In Pos g l)
    (hinc : Layered g.numLayers g.cum) (hdom : g.cum[g.numLayers]? = some dom)
    (h : crossDomain g dom l = .ok r) : Damp In Pos g r.2 := by
  refine ⟨hf.firm.domain hinc hdom h, ?_⟩
  rcases domainLoop_inv hf.firm.sound.num h with rfl | ⟨a, c, n, psi, Kc, rfl, hd, hpsi, rfl⟩
  · exact hf.bd
  · have hl : c.layer = n.layer := hf.firm.anch.same_layer hinc hdom hd
    obtain ⟨h1, s, e, b1, _⟩ := hf.layer c (by simp)
    have p0 := Keeps.psiKOf hp h1 e b1 hpsi
    intro f hm
    rcases List.mem_append.mp hm with hm | hm
    · exact hf.bd f (by simp [hm])
    · simp only [decFronts, List.map_cons, List.map_nil, List.mem_singleton] at hm
      subst hm
      exact ⟨s, by show g.soil n.layer = _; rw [← hl]; exact e, b1, p0⟩

theorem Damp.moveTop {g : Geo α} {oldMass precip aet : α} {l : List (Front α)} {r : List (Front α) × α × α}
    (hp : KeepsGeo In Pos g) (hf : Damp In Pos g l) (hinc : Layered g.numLayers g.cum)
    (h : moveTop g oldMass precip l aet = .ok r) : Damp In Pos g r.1 := by
  refine ⟨hf.firm.moveTop hinc h, ?_⟩
  obtain ⟨l1, column, h1, hcol, h2⟩ := moveTop_inv h
  have hf1 := hf.cross hp hinc h1
  rcases h2 with h2 | ⟨p, w, d, _, hw, h2, _⟩
  · rw [h2]; exact hf1.bd
  · rw [h2]
    intro f hm
    rcases List.mem_or_eq_of_mem_set hm with hm | rfl
    · exact hf1.bd f hm
    · exact (hf1.bd w (List.mem_of_getElem? hw)).congr rfl rfl rfl

theorem Damp.movePost {g : Geo α} {l : List (Front α)} {aet flux : α} {r : List (Front α) × α × α} (hp : KeepsGeo In Pos g)
    (hf : Damp In Pos g l) (hinc : Layered g.numLayers g.cum) (h : movePost g l aet flux = .ok r) : Damp In Pos g r.1 := by
  refine ⟨hf.firm.movePost hinc h, ?_⟩
  obtain ⟨l1, mc1, l2, l3, l4, mc4, l5, column, fl, l6, l7, mc7, l8, h1, h2, h3, h4, h5, hcol, h6, h7, h8, h9, _, _⟩ :=
    movePost_inv h
  have g2 : Damp In Pos g l2 := (hf.checkFix hp h1).merge hp h2
  have g5 : Damp In Pos g l5 := ((g2.cross hp hinc h3).checkFix hp h4).merge hp h5
  have g7 : Damp In Pos g l7 := (g5.domain hp hinc hcol h6).checkFix hp h7
  have c8 := within_refresh hp g7.layer h8
  rcases fixSingle_inv h9 with e | ⟨f, c1, e, hc1, hne, e'⟩
  · rw [e]; exact c8
  · rw [e']
    intro x hx
    simp only [List.mem_singleton] at hx
    subst hx
    exact (c8 f (by rw [e]; simp)).congr rfl rfl rfl

theorem Damp.moveFronts {fuel : Nat} {g : Geo α} {dt oldMass precip : α} {nFd : Nat} {prev l : List (Front α)}
    {aet : α} {r : List (Front α) × α × α} (hp : KeepsGeo In Pos g) (hf : Damp In Pos g l) (hinc : Layered g.numLayers g.cum)
    (h : moveFronts fuel g dt precip nFd oldMass aet prev l = .ok r) : Damp In Pos g r.1 := by
  unfold LGAR.moveFronts at h
  simp only [bind_ok_iff, Prod.exists] at h
  obtain ⟨l1, aet1, fl, h1, h⟩ := h
  unfold moveMain at h1
  rw [if_neg (by simpa using hf.firm.ne_nil)] at h1
  simp only [bind_ok_iff, Prod.exists] at h1
  obtain ⟨l0, aet0, h0, h1⟩ := h1
  have g0 : Damp In Pos g l0 := ⟨moveOnes_firm hf.firm hinc rfl le_rfl h0,
    fun f m => (within_moveOnes hp hf.firm.sound.num rfl le_rfl hf.layer h0 f m).2⟩
  exact (g0.moveTop hp hinc h1).movePost hp hinc h

theorem Damp.create {g : Geo α} {ponded dry theta1 : α} {l : List (Front α)} {r : α × α × List (Front α)} (hp : KeepsGeo In Pos g)
    (hf : Damp In Pos g l) (hinc : Layered g.numLayers g.cum)
    (h : createSurficial g ponded dry theta1 l = .ok r) : Damp In Pos g r.2.2 := by
  obtain ⟨l1, h1, h2⟩ := createSurficial_steps h
  obtain ⟨s, thn, Se, psi, Kc, ff, hs, _, hsp, hSe, hpsi, hK, he⟩ := createFront_inv h1
  simp only at he hsp
  have hP := hp 1 s le_rfl hs
  have t1 : In s thn := by
    unfold calcKFromSe at hK
    simp only [bind_ok_iff] at hK
    obtain ⟨_, hq, _⟩ := hK
    rw [csqrt_ok_iff] at hq
    exact hP.fresh _ _ _ _ _ _ _ hsp hSe hq.1
  have p0 := hP.head _ _ _ t1 hSe hpsi
  have g1 : Damp In Pos g l1 := by
    rw [he]
    refine ⟨hf.firm.push rfl rfl rfl, ?_⟩
    intro f hm
    rcases List.mem_cons.mp hm with rfl | hm
    · exact ⟨s, hs, t1, p0⟩
    · exact KeptIn.inc hf.bd f hm
  rcases h2 with ⟨_, h2⟩ | ⟨_, l2, h2, h3⟩
  · rw [h2]; exact g1
  · exact (g1.merge hp h2).cross hp hinc h3

theorem Damp.speed {fuel : Nat} {closed : Bool} {nint : Int} {hp : α} {g : Geo α} {l l' : List (Front α)}
    (hf : Damp In Pos g l) (h : dzdtCalc fuel closed nint hp g l = .ok l') : Damp In Pos g l' := by
  refine ⟨hf.firm.speed h, KeptIn.data hf.bd ?_⟩
  have e := congrArg (List.map (fun x : α × α × α × α × Nat × Int × Bool => (x.2.2.2.2.1, x.2.1, x.2.2.1)))
    (dzdtCalc_frame h)
  rw [List.map_map, List.map_map] at e
  exact e

theorem Damp.subStep {c : StepCfg α} {s s' : SubSt α} (hp : KeepsGeo In Pos c.geo) (hf : Damp In Pos c.geo s.head)
    (hinc : Layered c.geo.numLayers c.geo.cum) (h : subStep c s = .ok s') : Damp In Pos c.geo s'.head := by
  obtain ⟨aet, vs, h0, hsoil, f, l, ve, h1, ha, _, hh0, hhs, hsf, hl, _, _, _, _, rfl⟩ := subStep_inv h
  refine Damp.speed (l := f.head) ?_ hl
  unfold LGAR.subFlow at hsf
  split at hsf
  · obtain ⟨l, flux, dry, d, h0, pd, hm, hd, hh, hcr, _⟩ := flowCreate_inv hsf
    exact (hf.moveFronts hp hinc hm).create hp hinc hcr
  · obtain ⟨hsf, hm, _⟩ := flowMove_inv hsf
    exact hf.moveFronts hp hinc hm

theorem Damp.subLoop {c : StepCfg α} (hp : KeepsGeo In Pos c.geo) (hinc : Layered c.geo.numLayers c.geo.cum) :
    ∀ {n : Nat} {s s' : SubSt α}, Damp In Pos c.geo s.head → subLoop c n s = .ok s' → Damp In Pos c.geo s'.head
  | 0, s, s', hg, h => by simp [LGAR.subLoop] at h; subst h; exact hg
  | n + 1, s, s', hg, h => by
    unfold LGAR.subLoop at h
    simp only [bind_ok_iff] at h
    obtain ⟨s1, h1, h⟩ := h
    have g1 := hg.subStep hp hinc h1
    split at h
    · simp only [pure_eq_ok, Except.ok.injEq] at h
      subst h; exact g1
    · exact Damp.subLoop hp hinc g1 h

theorem Damp.geo {g g' : Geo α} {l : List (Front α)} (hf : Damp In Pos g l) (h1 : g'.numLayers = g.numLayers) (h2 : g'.cum = g.cum)
    (h3 : g'.soilType = g.soilType) (h4 : g'.soils = g.soils) : Damp In Pos g' l := by
  refine ⟨hf.firm.geo h1 h2, fun f hm => ?_⟩
  obtain ⟨s, e, b⟩ := hf.bd f hm
  exact ⟨s, by rw [geo_soil h3 h4]; exact e, b⟩

theorem Damp.update {fuel : Nat} {sa : Bool} {s s' : State α} (hp' : KeepsGeo In Pos s'.geo) (hf : Damp In Pos s.geo s.head)
    (hnw : s.p.numWf = (s.head.length : Int))
    (hinc : Layered s.p.numLayers s.p.cum)
    (hcal : s.p.calibFlag = true → DistinctTypes s.p.layerSoilType s.p.numLayers)
    (h : update fuel sa s = .ok s') : Damp In Pos s'.geo s'.head := by
  obtain ⟨f1, f2, f3, _⟩ := update_fixed h
  rcases update_inv h with ⟨_, rfl⟩ | ⟨_, s1, d, v, u, h1, hv, hu, h2⟩
  · exact hf.geo rfl rfl rfl rfl
  · obtain ⟨_, _, _, hh, _, hso, _, _, _, _, _, _, hpp, _⟩ := updatePost_inv h2
    have hfirm := hf.firm.pre h1
    obtain ⟨_, _, fs, soils, l, fc, pm, q, _, e, _, hc⟩ := updatePre_inv h1
    have e1 : s1.p.cum = s.p.cum := by subst e; rfl
    have e2 : s1.p.numLayers = s.p.numLayers := by subst e; rfl
    have e3 : s1.p.layerSoilType = s.p.layerSoilType := by subst e; rfl
    have e7 : s'.soils = s1.soils := hso
    have hp1 : KeepsGeo In Pos s1.geo := fun k s hk hs => hp' k s hk (by
      rw [geo_soil (g := s1.geo) (by show s'.p.layerSoilType = s1.p.layerSoilType; rw [f3, e3]) e7]; exact hs)
    have hf1 : Damp In Pos s1.geo s1.head := by
      rcases hc with ⟨hc, _, _, hl, _⟩ | ⟨_, _, _, rfl, rfl, _⟩
      · have e5 : s1.head = l := by subst e; rfl
        have e4 : s1.soils = soils := by subst e; rfl
        refine ⟨hfirm, ?_⟩
        rw [e5]
        intro f' hf'
        have hr := fun f hf' => hf.firm.anch.range f hf'
        obtain ⟨f, hfm, t, p, a1, a2, a3, a4, a5, a6⟩ := calibLoop_soil hl (by rw [hnw]; simp)
          (fun a ha b hb t h1 h2 => hcal hc _ _ t (hr a ha).1 (hr a ha).2 (hr b hb).1 (hr b hb).2 h1 h2) f' hf'
        have hsoil : s1.geo.soil f'.layer = .ok p := by
          unfold Geo.soil
          rw [a4, show s1.geo.soilType = s.p.layerSoilType from e3, idx_ok_iff.mpr a1, ok_bind, idxI_ok_iff]
          exact ⟨a2, by show s1.soils[t.toNat]? = some p; rw [e4]; exact a3⟩
        have p0 : Pos f.psi := (hf.bd f hfm).choose_spec.2.2
        have r1 := (hp1 _ _ (by rw [a4]; exact (hr f hfm).1) hsoil).theta _ _ p0 a6
        exact ⟨p, hsoil, r1, by rw [a5]; exact p0⟩
      · have e5 : s1.head = s.head := by subst e; rfl
        have e4 : s1.soils = s.soils := by subst e; rfl
        rw [e5]; exact hf.geo e2 e1 e3 e4
    have := Damp.subLoop (c := stepCfg fuel sa s1) hp1 (by show Layered s1.p.numLayers s1.p.cum; rw [e1, e2]; exact hinc)
      (s := subInit s1 v) (s' := u) hf1 hu
    rw [hh]
    exact this.geo (by show s'.p.numLayers = s1.p.numLayers; rw [f1, e2]) (by show s'.p.cum = s1.p.cum; rw [f2, e1])
      (by show s'.p.layerSoilType = s1.p.layerSoilType; rw [f3, e3]) e7

end LawFree
end LGAR
