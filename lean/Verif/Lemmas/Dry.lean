import Verif.Props.Found
import Verif.Lemmas.RestRun
import Verif.Props.Soil
import Verif.Spec.Bounds
import Verif.Spec.Dry
/-
A column with one front per layer under evapotranspiration (C106).
-/
namespace LGAR
section
variable {g : Geo ℝ} {psi h : ℝ} {l l0 : List (Front ℝ)} {fuel : Nat} {dt aet : ℝ}

/-- The fronts from position `j` on are already at head `h`, the others still at `psi`. -/
structure Mixed (g : Geo ℝ) (psi h : ℝ) (j : Nat) (l : List (Front ℝ)) : Prop where
  len : l.length = g.numLayers
  front : ∀ i f, l[i]? = some f → RestFront g (if j ≤ i then h else psi) (i + 1) f

theorem Rest.mixed (hl : Rest g psi l) : Mixed g psi h g.numLayers l :=
  ⟨hl.len, fun i f hi => by
    have hlt := (List.getElem?_eq_some_iff.mp hi).1
    rw [hl.len] at hlt
    rw [if_neg (by omega)]; exact hl.front i f hi⟩

theorem Mixed.rest (hl : Mixed g psi h 0 l) : Rest g h l := ⟨hl.len, fun i f hi => by simpa using hl.front i f hi⟩

theorem Mixed.get {j : Nat} (hl : Mixed g psi h j l) {i : Nat} (hi : i < g.numLayers) :
    ∃ f, l[i]? = some f ∧ RestFront g (if j ≤ i then h else psi) (i + 1) f := by
  have hlt : i < l.length := by rw [hl.len]; exact hi
  exact ⟨l[i], List.getElem?_eq_getElem hlt, hl.front i _ (List.getElem?_eq_getElem hlt)⟩

theorem Mixed.find {j : Nat} (hl : Mixed g psi h j l) {i : Nat} (hi : i < g.numLayers) : findFrom ((i + 1 : Nat) : Int) l = some i := by
  have := findFrom_numbers (l := l) (k := 1) (j := i)
    (fun j f hf => by rw [(hl.front j f hf).number]; congr 1; omega) (by rw [hl.len]; exact hi)
  rwa [Nat.add_comm] at this

theorem Mixed.lookup {j : Nat} (hl : Mixed g psi h j l) {i : Nat} (hi : i < g.numLayers) :
    listFindFront ((i + 1 : Nat) : Int) l [] = some i := by
  have he : l.isEmpty = false := by
    have := hl.len
    cases l with
    | nil => simp at this; omega
    | cons => rfl
  unfold listFindFront
  simp only [hl.find hi, he]
  simp

theorem Mixed.readAbove {j : Nat} (hl : Mixed g psi h j l) {i : Nat} (hi : i < g.numLayers) : moveReadAbove (i + 1) l = .ok () := by
  unfold moveReadAbove
  by_cases h1 : i + 1 = 1
  · rw [if_pos h1]
  · rw [if_neg h1]
    obtain ⟨f, hf, _⟩ := hl.get (i := i - 1) (by omega)
    have e : Int.ofNat (i + 1) - 1 = ((i - 1 + 1 : Nat) : Int) := by
      rw [show i - 1 + 1 = i by omega]; simp
    rw [e, hl.lookup (i := i - 1) (by omega)]
    simp only [derefOpt, deref_ok_iff.2 hf, ok_bind]

theorem Mixed.set {j : Nat} (hl : Mixed g psi h (j + 1) l) {f : Front ℝ} (hf : RestFront g h (j + 1) f) : Mixed g psi h j (l.set j f) := by
  refine ⟨by rw [List.length_set]; exact hl.len, fun i x hx => ?_⟩
  rw [List.getElem?_set] at hx
  split_ifs at hx with h1 h2
  · subst h1
    rw [Option.some.injEq] at hx
    rw [← hx, if_pos le_rfl]; exact hf
  · have := hl.front i x hx
    by_cases hc : j ≤ i
    · rw [if_pos (by omega)] at this ⊢; exact this
    · rw [if_neg (by omega)] at this ⊢; exact this

/-- A front above the deepest takes over the head from below. -/
theorem Mixed.moveOne (hg : Ground g) (h0 : 0 ≤ h) {i : Nat} (hl : Mixed g psi h (i + 1) l) (hi : i + 1 < g.numLayers) :
    ∃ l', (∀ fuel, LGAR.moveOne fuel g dt 0 g.numLayers g.numLayers (i + 1) l0 l aet = .ok (l', aet)) ∧ Mixed g psi h i l' := by
  have hpos := hg.pos
  obtain ⟨x, y, _, hy, _⟩ := hg.cum (g.numLayers - 1) (by omega)
  rw [show g.numLayers - 1 + 1 = g.numLayers by omega] at hy
  obtain ⟨c, hc, hcr⟩ := hl.get (i := i) (by omega)
  obtain ⟨n, hn, hnr⟩ := hl.get (i := i + 1) hi
  rw [if_neg (by omega)] at hcr
  rw [if_pos le_rfl] at hnr
  obtain ⟨s, hs, hp, hth⟩ := hcr.theta
  have e1 : listFindFront (Int.ofNat (i + 1)) l [] = some i := hl.lookup (i := i) (by omega)
  have e2 : listFindFront (Int.ofNat (i + 1) + 1) l [] = some (i + 1) := hl.lookup (i := i + 1) hi
  have hm := calcTheta_moistAt hp h0
  refine ⟨l.set i { c with theta := moistAt s h, psi := h }, fun fuel => ?_, ?_⟩
  · unfold LGAR.moveOne
    simp only [idx_ok_iff.2 hy, ok_bind, e1, derefOpt, deref_ok_iff.2 hc, hcr.layer, hs, hl.readAbove (i := i) (by omega),
      Option.getD_some]
    rw [if_pos hi, if_pos hi, e2]
    simp only [deref_ok_iff.2 hn, ok_bind, hnr.layer]
    rw [if_pos (by omega), hnr.head, hm, ok_bind]
    rw [← hcr.layer]; rfl
  · refine hl.set ⟨hcr.layer, hcr.number, hcr.bottom, hcr.speed, rfl, hcr.cond, hcr.depth, s, hs, hp, hm⟩

theorem Mixed.moveOnes (hg : Ground g) (h0 : 0 ≤ h) : ∀ {wf : Nat} {l : List (Front ℝ)}, Mixed g psi h wf l →
    wf < g.numLayers → ∃ l', (∀ fuel, LGAR.moveOnes fuel g dt 0 g.numLayers g.numLayers l0 wf l aet = .ok (l', aet)) ∧ Rest g h l'
  | 0, l, hl, _ => ⟨l, fun _ => rfl, hl.rest⟩
  | wf + 1, l, hl, hlt => by
    obtain ⟨l1, e1, h1⟩ := hl.moveOne hg h0 (l0 := l0) (dt := dt) (aet := aet) hlt
    obtain ⟨l2, e2, h2⟩ := h1.moveOnes hg h0 (by omega)
    refine ⟨l2, fun fuel => ?_, h2⟩
    unfold LGAR.moveOnes
    rw [e1 fuel, ok_bind]; exact e2 fuel

theorem moistAt_inj {s : SoilProps ℝ} (hs : s.Physical) {a b : ℝ} (ha : 0 ≤ a) (hb : 0 ≤ b) (h : moistAt s a = moistAt s b) : a = b := by
  rcases lt_trichotomy a b with hl | hl | hl
  · have := moistAt_lt hs ha hl; linarith
  · exact hl
  · have := moistAt_lt hs hb hl; linarith

theorem layerTop_get {cum : List ℝ} {k : Nat} {c : ℝ} (h : cum[k]? = some c) : layerTop cum (k + 1) = c := by
  unfold layerTop
  rw [List.getD_eq_getElem?_getD, Nat.add_sub_cancel, h]; rfl

theorem ColumnStack.whole {sl : List Slab} (h : ColumnStack g sl) : Whole g (fun _ => 0) 1 sl := by
  intro i x hx
  rw [Nat.add_comm 1 i]
  refine ⟨h.soil i x hx, h.base i x hx, ?_⟩
  rw [h.thick i x hx]
  split_ifs with hc
  · rw [← hc]
  · rfl

theorem massGo_stack (hg : Ground g) (hpsi : 0 ≤ psi) : ∀ {l : List (Front ℝ)} {k : Nat} {s : ℝ} {sl : List Slab}, l ≠ [] →
    k + l.length ≤ g.numLayers → sl.length = l.length → Whole g (fun _ => 0) (k + 1) sl →
    (∀ i f, l[i]? = some f → RestFront g psi (k + i + 1) f) → massBalGo g.cum s l = .ok (s + stackWater sl psi)
  | [], _, _, _, hne, _, _, _, _ => absurd rfl hne
  | f :: t, k, s, sl, _, hk, hlen, hw, hf => by
    obtain ⟨x, sl, rfl⟩ := List.exists_cons_of_length_eq_add_one hlen
    have h0 := hf 0 f rfl
    obtain ⟨so, hs, hp, hth⟩ := h0.theta
    obtain ⟨w1, w2, w3⟩ := hw.head
    rw [Nat.add_zero] at hs h0
    rw [hs, Except.ok.injEq] at w1
    rw [calcTheta_moistAt hp hpsi, Except.ok.injEq] at hth
    simp only [List.length_cons] at hk
    obtain ⟨a, b, ha, hb, _⟩ := hg.cum k (by omega)
    have hd := h0.depth
    rw [hb, Option.some.injEq] at hd
    have e0 : idxPred g.cum f.layer = .ok a := by
      rw [h0.layer]
      exact idxPred_get (by omega) (by simpa using ha)
    rw [layerTop_get ha, show k + 1 + 1 = (k + 1) + 1 from rfl, layerTop_get hb] at w3
    have hx : x.water psi = (f.depth - a) * f.theta := by
      unfold Slab.water
      rw [w2, w3, ← w1, hth, hd]; ring
    unfold massBalGo
    rw [e0, ok_bind]
    cases t with
    | nil =>
      obtain rfl : sl = [] := by simpa using hlen
      rw [stackWater_cons, hx, show stackWater [] psi = 0 from rfl]
      show Except.ok (s + f.theta * (f.depth - a)) = _
      congr 1; ring
    | cons n r =>
      have h1 := hf 1 n rfl
      simp only
      rw [if_neg (by rw [h0.layer, h1.layer]; omega)]
      rw [massGo_stack hg hpsi (l := n :: r) (k := k + 1) (sl := sl) (by simp)
        (by simp only [List.length_cons] at hk ⊢; omega) (by simpa using hlen) hw.tail
        (fun i f hi => by have := hf (i + 1) f hi; rwa [show k + (i + 1) + 1 = k + 1 + i + 1 by omega] at this), stackWater_cons, hx]
      congr 1; ring

theorem Rest.massBal_stack (hg : Ground g) (hpsi : 0 ≤ psi) (hl : Rest g psi l) {sl : List Slab} (hsl : ColumnStack g sl) :
    LGAR.massBal g.cum l = .ok (stackWater sl psi) := by
  have := massGo_stack hg hpsi (k := 0) (s := 0) (sl := sl) (hl.ne hg) (by rw [hl.len]; omega) (by rw [hsl.length, hl.len]) hsl.whole
    (fun i f hi => by rw [Nat.zero_add]; exact hl.front i f hi)
  rw [zero_add] at this
  exact this

theorem Rest.moveTop_dry (hg : Ground g) (hl : Rest g psi l) {m m' : ℝ} (hm0 : 0 < m) (hm : LGAR.massBal g.cum l = .ok m')
    (hclose : |m' - (m - aet)| ≤ 1e-12) : LGAR.moveTop g m 0 l aet = .ok (l, aet, 0) := by
  have hpos := hg.pos
  obtain ⟨x, y, _, hy, _⟩ := hg.cum (g.numLayers - 1) (by omega)
  rw [show g.numLayers - 1 + 1 = g.numLayers by omega] at hy
  obtain ⟨s, hs, hp⟩ := hg.soil g.numLayers hpos le_rfl
  obtain ⟨c, hc, hcr⟩ := hl.get (i := g.numLayers - 1) (by omega)
  have e1 := (hl.lookup hg (i := g.numLayers - 1) (by omega)).1
  rw [show g.numLayers - 1 + 1 = g.numLayers by omega] at e1
  have e1' : listFindFront (Int.ofNat g.numLayers) l [] = some (g.numLayers - 1) := e1
  unfold LGAR.moveTop
  simp only [idx_ok_iff.2 hy, ok_bind, hl.crossLayer hg, hl.drain hg, hs, (show cassert (0 < m) "old_mass > 0.0" = .ok () from
    cassert_ok_iff.2 hm0), e1', derefOpt, deref_ok_iff.2 hc, Option.getD_some]
  split_ifs
  · have hn : l[g.numLayers - 1 + 1]? = none := List.getElem?_eq_none (by rw [hl.len]; omega)
    rw [hm, ok_bind, hn]
    simp only [mcFactor, ok_bind]
    have herr : ¬ ((1e-10 : ℝ) < CMath.fabs (CMath.fabs (m' - (m + 0 - (aet + 0))) - 1e-10)) := by
      rw [fabs_eq, fabs_eq, not_lt, add_zero, add_zero]
      have h1 := abs_nonneg (m' - (m - aet))
      rw [abs_of_nonpos (by norm_num at hclose ⊢; linarith)]
      linarith
    rw [show mcFuel = 10001 + 1 from rfl, LGAR.mcLoop]
    simp only [if_neg herr, ok_bind]
    rfl
  · rfl

theorem Rest.movePost_dry (hg : Ground g) (hpsi : 0 ≤ psi) (hl : Rest g psi l) :
    ∃ l', LGAR.movePost g l aet 0 = .ok (l', aet, 0) ∧ SameFronts l l' ∧ Rest g psi l' := by
  have hpos := hg.pos
  obtain ⟨x, y, _, hy, _⟩ := hg.cum (g.numLayers - 1) (by omega)
  rw [show g.numLayers - 1 + 1 = g.numLayers by omega] at hy
  obtain ⟨l', h1, h2, h3⟩ := hl.refresh hg hpsi
  refine ⟨l', ?_, h2, h3⟩
  have hz : ¬ ((1.0e-7 : ℝ) < CMath.fabs 0) := by
    show ¬ ((1.0e-7 : ℝ) < |0|)
    rw [abs_zero]; norm_num
  unfold LGAR.movePost
  simp only [hl.checkFix hg, ok_bind, hl.mergeFronts hg, hl.crossLayer hg, idx_ok_iff.2 hy, hl.crossDomain hg hy, if_neg hz, h1,
    h3.fixSingle hg, add_zero]
  rfl

/-- The deepest front gives off the ET. -/
theorem Rest.moveLast_dry (hg : Ground g) (hall : PhysGeo g) (hpsi : 0 ≤ psi) (hl : Rest g psi l) {sl : List Slab} (hsl : ColumnStack g sl)
    {h' lo hi N : ℝ} (hsol : stackWater sl h' = stackWater sl psi - aet) (hgen : Gentle sl psi h' lo hi N) :
    ∃ h l' M, (∀ fuel, M ≤ fuel → LGAR.moveOne fuel g dt 0 g.numLayers g.numLayers g.numLayers l l aet = .ok (l', aet)) ∧
      Mixed g psi h (g.numLayers - 1) l' ∧ 0 ≤ h ∧ |stackWater sl h - (stackWater sl psi - aet)| ≤ 1e-12 := by
  have hpos := hg.pos
  obtain ⟨x, y, _, hy, _⟩ := hg.cum (g.numLayers - 1) (by omega)
  rw [show g.numLayers - 1 + 1 = g.numLayers by omega] at hy
  obtain ⟨c, hc, hcr⟩ := hl.get (i := g.numLayers - 1) (by omega)
  rw [show g.numLayers - 1 + 1 = g.numLayers by omega] at hcr
  obtain ⟨s, hs, hp, hth⟩ := hcr.theta
  rw [calcTheta_moistAt hp hpsi, Except.ok.injEq] at hth
  have hd := hcr.depth
  rw [hy, Option.some.injEq] at hd
  have hz : layerTop g.cum (g.numLayers + 1) = c.depth := by rw [layerTop_get hy, hd]
  have hz' : c.depth + c.dzdt * dt = c.depth := by rw [hcr.speed, zero_mul, add_zero]
  have hst : StackTo g (fun _ => 0) c.depth g.numLayers sl := by rw [← hz]; exact hsl
  have htop : layerTop g.cum g.numLayers ≤ c.depth := by
    obtain ⟨a, b, ha, hb, hab⟩ := hg.cum (g.numLayers - 1) (by omega)
    rw [show g.numLayers - 1 + 1 = g.numLayers by omega, hy, Option.some.injEq] at hb
    have := layerTop_get ha
    rw [show g.numLayers - 1 + 1 = g.numLayers by omega] at this
    rw [this, ← hd, hb]; exact hab.le
  obtain ⟨h, p, M, r1, r2, r3, r4, r5⟩ := C105_deepest_found g hg hall dt 0 aet true c c s sl sl (by rw [hcr.layer]; exact hpos)
    (by rw [hcr.layer]) (by rw [hcr.layer]; exact hs) (by rw [hcr.head, hth]) (by rw [hcr.head, hth]) (by rw [hcr.head]; exact hpsi)
    (by rw [hcr.head]; exact hpsi) (by rw [hcr.layer]; exact hst) (by rw [hcr.layer, hz']; exact hst)
    (by rw [hcr.layer, hz']; exact htop) h' lo hi N (by rw [hcr.head, hsol, if_pos rfl]; ring) (by rw [hcr.head]; exact hgen)
  obtain rfl : p = h := moistAt_inj hp r3 r2 r4
  rw [hcr.head, if_pos rfl, zero_sub, ← sub_eq_add_neg] at r5
  have e1 := hl.lookup hg (i := g.numLayers - 1) (by omega)
  rw [show g.numLayers - 1 + 1 = g.numLayers by omega] at e1
  have e1' : listFindFront (Int.ofNat g.numLayers) l [] = some (g.numLayers - 1) := e1.1
  have e1'' : listFindFront (Int.ofNat g.numLayers) l l = some (g.numLayers - 1) := e1.2
  have hrd := (hl.mixed (h := psi)).readAbove (i := g.numLayers - 1) (by omega)
  rw [show g.numLayers - 1 + 1 = g.numLayers by omega] at hrd
  have he : l.isEmpty = false := by
    have := hl.ne hg
    cases l <;> simp_all
  refine ⟨p, l.set (g.numLayers - 1) { c with depth := c.depth + c.dzdt * dt, theta := moistAt s p, psi := p }, M, fun fuel hf => ?_, ?_, r3, r5⟩
  · unfold LGAR.moveOne
    simp only [idx_ok_iff.2 hy, ok_bind, e1', e1'', derefOpt, deref_ok_iff.2 hc, hcr.layer, hs, hrd, Option.getD_some, he,
      lt_irrefl, if_false, and_self, if_true, Bool.false_eq_true, beq_self_eq_true, r1 fuel hf]
    rfl
  · have hm := (hl.mixed (h := p))
    have hm' : Mixed g psi p (g.numLayers - 1 + 1) l := by rw [show g.numLayers - 1 + 1 = g.numLayers by omega]; exact hm
    refine hm'.set ?_
    rw [show g.numLayers - 1 + 1 = g.numLayers by omega]
    exact ⟨hcr.layer, hcr.number, hcr.bottom, hcr.speed, rfl, hcr.cond, by rw [hz']; exact hcr.depth, s, hs, hp, calcTheta_moistAt hp r3⟩

/-- The movement of a column with one front per layer under ET. -/
theorem Rest.moveFronts_dry (hg : Ground g) (hall : PhysGeo g) (hpsi : 0 ≤ psi) (hl : Rest g psi l) {sl : List Slab} (hsl : ColumnStack g sl)
    {h' lo hi N : ℝ} (hsol : stackWater sl h' = stackWater sl psi - aet) (hgen : Gentle sl psi h' lo hi N) :
    ∃ h l' M, (∀ fuel, M ≤ fuel → LGAR.moveFronts fuel g dt 0 g.numLayers (stackWater sl psi) aet l l = .ok (l', aet, 0)) ∧ Rest g h l' ∧ 0 ≤ h ∧
      |stackWater sl h - (stackWater sl psi - aet)| ≤ 1e-12 := by
  obtain ⟨h, l1, M, e1, m1, h0, hc⟩ := hl.moveLast_dry hg hall (dt := dt) hpsi hsl hsol hgen
  have hpos := hg.pos
  obtain ⟨l2, e2, m2⟩ := m1.moveOnes hg h0 (l0 := l) (dt := dt) (aet := aet) (by omega)
  obtain ⟨l3, e3, _, m3⟩ := m2.movePost_dry hg h0 (aet := aet)
  obtain ⟨m, hm, hm0⟩ := hl.massBal hg hpsi
  have hm' := hl.massBal_stack hg hpsi hsl
  rw [hm, Except.ok.injEq] at hm'
  refine ⟨h, l3, M, fun fuel hf => ?_, m3, h0, hc⟩
  have he : l.isEmpty = false := by
    have := hl.ne hg
    cases l <;> simp_all
  have hones : LGAR.moveOnes fuel g dt 0 g.numLayers g.numLayers l g.numLayers l aet = .ok (l2, aet) := by
    obtain ⟨n, hn⟩ : ∃ n, g.numLayers = n + 1 := ⟨g.numLayers - 1, by omega⟩
    have a1 := e1 fuel hf
    have a2 := e2 fuel
    rw [hn] at a1 a2 ⊢
    rw [Nat.add_sub_cancel] at a2
    unfold LGAR.moveOnes
    rw [a1, ok_bind]; exact a2
  unfold LGAR.moveFronts moveMain
  rw [he]
  simp only [Bool.false_eq_true, if_false]
  rw [hl.len, hones, ok_bind, ← hm', m2.moveTop_dry hg hm0 (m2.massBal_stack hg h0 hsl) (by rw [hm']; exact hc), ok_bind]
  exact e3
end
end LGAR
