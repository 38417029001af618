import Verif.Lemmas.Cap
import Verif.Lemmas.Correction
import Verif.Lemmas.Frost
import Verif.Spec.Lone
/-
One-layer columns with several fronts: the mass correction converges, nothing flows in through the bottom (C26, C59).
-/
set_option linter.unusedSectionVars false
namespace LGAR

section Exact
variable {K : Type} [Field K] [LinearOrder K] [IsStrictOrderedRing K] [CMath K] [LawfulNum K]

/-- The movement does not add more water than there is. -/
theorem shift_le {e r column dt x : K} {cum : List K} (h0 : layerTop cum 1 = 0) (hdt : 0 ≤ dt) {c n : Front K}
    {t l' : List (Front K)} (hcol : 0 < column) (h : Shift e r column dt x (c :: n :: t) l')
    (hlay : ∀ f ∈ c :: n :: t, f.layer = 1) (hd : StrictlyDrying (c :: n :: t)) (hc : 0 < c.depth)
    (hdep : ∀ f ∈ n :: t, 0 < f.depth ∧ f.depth ≤ column) (he : ∀ f ∈ c :: n :: t, f.theta ≤ e)
    (hz : ∀ f ∈ (c :: n :: t).dropLast, 0 < f.dzdt) :
    mass cum l' ≤ mass cum (c :: n :: t) + x ∧ mass cum l'.tail = mass cum (n :: t) := by
  cases h with
  | cons x c n c' n' t t' hs ht hde hne hr hth =>
    obtain ⟨i1, i2, i3, i4⟩ := shift_tail h0 hdt hs rfl
      (fun f hf => hlay f (by simp [List.mem_cons.mp hf |>.elim Or.inl Or.inr])) hd.2 hdep
      (fun f hf => he f (by simp [List.mem_cons.mp hf |>.elim Or.inl Or.inr]))
      (fun f hf => hz f (by rw [List.dropLast_cons_cons]; exact List.mem_cons_of_mem _ hf))
    have hcl := hlay c (by simp)
    have hnl := hlay n (by simp)
    have hcl' : c'.layer = 1 := by rw [(Front.tag_eq ht).1]; exact hcl
    have hnl' : n'.layer = 1 := by
      have := hs.tags
      rw [List.map_cons, List.map_cons, List.cons.injEq] at this
      rw [(Front.tag_eq this.1).1]; exact hnl
    have hv := hz c (by rw [List.dropLast_cons_cons]; simp)
    have hpos : 0 < c'.depth := by rw [hde]; exact lt_min (by nlinarith) hcol
    have hle : c'.theta ≤ (c.depth * (c.theta - n.theta) + x) / c'.depth + n'.theta := by rw [hth]; exact min_le_right _ _
    have := mul_le_mul_of_nonneg_left (sub_le_iff_le_add.mpr hle) hpos.le
    rw [mul_div_cancel₀ _ hpos.ne'] at this
    refine ⟨?_, i3⟩
    rw [mass_pair h0 hcl' hnl', mass_pair h0 hcl hnl, i3]
    linarith

/-- Correction of a saturated front that lacks water, above a drier one: it converges. -/
theorem moveTop_fills {g : Geo K} {oldMass precip aet : K} {l l1 : List (Front K)} {w n : Front K} {s : SoilProps K} {p : Nat}
    {r : List (Front K) × K × K}
    (h : moveTop g oldMass precip l aet = .ok r) (hcross : crossLayer g l = .ok l1) (hr : LayersInRange g.cum l1)
    (hp : listFindFront (Int.ofNat (wettingFrontFreeDrainage l1)) l1 [] = some p)
    (hw : l1[p]? = some w) (hn : l1[p + 1]? = some n) (hl : w.layer = n.layer) (hb : w.toBottom = false)
    (hs : g.soil (wettingFrontFreeDrainage l1) = .ok s) (hsat : |w.theta - s.thetaE| < 1e-15)
    (hdry : n.theta < w.theta) (hone : w.theta - n.theta ≤ 1) (hup : oldMass + precip - aet ≤ mass g.cum l1 + 49)
    (hlow : mass g.cum l1 < oldMass + precip - aet) :
    r.2 = (aet, 0) ∧ |mass g.cum r.1 - (oldMass + precip - aet)| ≤ 2e-10 := by
  obtain ⟨column, fac, st0, st, brk, hf, ha, h1, h2, h3, h4, h5, f1, f2, hmc, hm, hok, _, _, hl'⟩ :=
    moveTop_loop h hcross hr hp hw hn hl hb hs hsat hdry hone
  have h0 : 0 < mcWater (w.theta - n.theta) st0 := by rw [h4]; exact lt_of_lt_of_le (by norm_num) f1
  have key : brk = false := by
    refine mcLoop_start (q := 4990) hf le_rfl ha h1 h0 (.inl ⟨by simp only [mcGap, h5]; linarith, ?_, by rw [h4]; exact f2⟩) hmc
    rw [h4]
    simp only [mcGap, h5]
    norm_num at f1 ⊢
    linarith
  obtain ⟨k1, k2⟩ := hok key
  rw [hl', ← massBal_val hm, k2]
  exact ⟨rfl, k1⟩

/-- The clean-up of a one-layer column only lets water out; it changes the ET by the water of a removed first front only. -/
theorem movePost_books {g : Geo K} {column e aet flux : K} {l : List (Front K)} {r : List (Front K) × K × K} (hN : g.numLayers = 1)
    (h0 : layerTop g.cum 1 = 0) (hg : Good g l) (hcol : g.cum[1]? = some column)
    (hl : Neat column e l ∨ ∃ c n t, l = c :: n :: t ∧ StrictlyDrying (n :: t) ∧ 0 < c.depth ∧ c.theta ≤ n.theta ∧
      ∀ f ∈ n :: t, 0 < f.depth ∧ f.depth ≤ column)
    (h : movePost g l aet flux = .ok r) :
    flux ≤ r.2.2 ∧ (r.2.1 = aet ∨ ∃ c n t, l = c :: n :: t ∧ r.2.1 = aet - (mass g.cum (n :: t) - mass g.cum l)) := by
  obtain ⟨l1, mc1, l2, l3, l4, mc4, l5, col, fl, l6, l7, mc7, l8, h1, h2, h3, h4, h5, hc, h6, h7, h8, h9, ha, hf⟩ :=
    movePost_inv h
  rw [hN, hcol, Option.some.injEq] at hc
  subst hc
  have hlay1 : ∀ f ∈ l, f.layer = 1 := by
    intro f hf
    have := hg.col.range f hf
    rw [hN] at this
    omega
  have hg1 := hg.checkFix h1
  have n1 : Neat column e l1 ∧ (mc1 = 0 ∨ ∃ c n t, l = c :: n :: t ∧ mc1 = mass g.cum (n :: t) - mass g.cum l) := by
    rcases hl with hl | ⟨c, n, t, rfl, hd, hcd, hle, hdep⟩
    · have := checkFix_drying hl.dry h1
      simp only [Prod.mk.injEq] at this
      obtain ⟨rfl, rfl⟩ := this
      exact ⟨hl, .inl rfl⟩
    · obtain ⟨e1, e2⟩ := checkFix_top h0 hg.sound.num hlay1 hd hcd hle h1
      simp only at e1 e2
      rw [e1]
      refine ⟨?_, .inr ⟨c, n, t, rfl, e2⟩⟩
      refine Neat.congr (l := n :: t) ⟨fun f hf => hlay1 f (by simp [List.mem_cons.mp hf |>.elim Or.inl Or.inr]), hd, ?_, ?_⟩
        (by simp [decFronts])
      · exact fun f hf => hdep f (by simp at hf; simp [hf])
      · intro f hf
        simp only [List.head?_cons, Option.mem_def, Option.some.injEq] at hf
        subst hf
        exact .inl (hdep _ (by simp))
  obtain ⟨n1, m1⟩ := n1
  have n2 := n1.merge hg1.sound.num h2
  have hg2 := hg1.merge h2
  have := crossLayer_single (fun f hf => by rw [hN]; exact n2.lay f hf) h3
  subst this
  have := checkFix_drying n2.dry h4
  simp only [Prod.mk.injEq] at this
  obtain ⟨rfl, rfl⟩ := this
  have n5 := n2.merge hg2.sound.num h5
  have hg5 := hg2.merge h5
  have n6 := n5.domain hg5.sound.num h6
  have := crossDomain_out hN hcol hg5.sound.num hg5 n5 h6
  simp only at this
  refine ⟨by rw [hf]; linarith, ?_⟩
  have := checkFix_drying n6.dry h7
  simp only [Prod.mk.injEq] at this
  obtain ⟨rfl, rfl⟩ := this
  rw [ha]
  rcases m1 with rfl | ⟨c, n, t, rfl, rfl⟩
  · left; split <;> simp
  · split
    · exact .inr ⟨c, n, t, rfl, rfl⟩
    · exact .inl rfl

/-- The clean-up leaves the ET alone if no front lies on a wetter one. -/
theorem movePost_neat {g : Geo K} {column e aet flux : K} {l : List (Front K)} {r : List (Front K) × K × K} (hN : g.numLayers = 1)
    (hg : Good g l) (hcol : g.cum[1]? = some column) (hl : Neat column e l)
    (h : movePost g l aet flux = .ok r) : r.2.1 = aet := by
  obtain ⟨l1, mc1, l2, l3, l4, mc4, l5, col, fl, l6, l7, mc7, l8, h1, h2, h3, h4, h5, hc, h6, h7, h8, h9, ha, hf⟩ :=
    movePost_inv h
  rw [hN, hcol, Option.some.injEq] at hc
  subst hc
  have := checkFix_drying hl.dry h1
  simp only [Prod.mk.injEq] at this
  obtain ⟨rfl, rfl⟩ := this
  have n2 := hl.merge hg.sound.num h2
  have hg2 := hg.merge h2
  have := crossLayer_single (fun f hf => by rw [hN]; exact n2.lay f hf) h3
  subst this
  have := checkFix_drying n2.dry h4
  simp only [Prod.mk.injEq] at this
  obtain ⟨rfl, rfl⟩ := this
  have n5 := n2.merge hg2.sound.num h5
  have n6 := n5.domain (hg2.merge h5).sound.num h6
  have := checkFix_drying n6.dry h7
  simp only [Prod.mk.injEq] at this
  obtain ⟨rfl, rfl⟩ := this
  rw [ha]
  split <;> simp

end Exact

section Exact
variable {K : Type} [Field K] [LinearOrder K] [IsStrictOrderedRing K] [CMath K] [LawfulNum K] [LawfulPow K] [LawfulMono K]

/-- The movement in a one-layer column: the ET stays between the demand and 0 (up to a lack of storage), nothing flows in at the bottom.
With a single front this asks for the search and the correction to leave the ET alone. -/
theorem moveFronts_lone {fuel : Nat} {g : Geo K} {column dt precip oldMass aet : K} {s : SoilProps K} {l : List (Front K)}
    {r : List (Front K) × K × K} (hp : PhysGeo g) (hN : g.numLayers = 1) (hs : g.soil 1 = .ok s) (hone : s.thetaE ≤ 1)
    (h0 : layerTop g.cum 1 = 0) (hcol : g.cum[1]? = some column) (hpos : 0 < column) (hdt : 0 ≤ dt)
    (hf : Fine g l) (hl : Neat column s.thetaE l) (hhd : ∀ f ∈ l.head?, 0 < f.depth) (hz : ∀ f ∈ l.dropLast, 0 < f.dzdt)
    (hold : oldMass = mass g.cum l) (hmax : oldMass + precip - aet ≤ 49 + column * s.thetaR) (haet : 0 ≤ aet)
    (h2 : l.length = 1 → MoveLeaves fuel g dt precip 1 oldMass aet l l)
    (h : moveFronts fuel g dt precip 1 oldMass aet l l = .ok r) :
    min precip 0 ≤ r.2.1 ∧ r.2.1 ≤ aet ∧ 0 ≤ r.2.2 := by
  have hph := hp 1 s le_rfl hs
  have hgap := hph.gap
  have grange : ∀ {l : List (Front K)}, Good g l → ∀ f ∈ l, f.layer = 1 := by
    intro l hg f hf
    have := hg.col.range f hf
    rw [hN] at this
    omega
  have bd : ∀ {l : List (Front K)}, Fine g l → ∀ f ∈ l, s.thetaR ≤ f.theta ∧ f.theta ≤ s.thetaE := by
    intro l hf f hm
    obtain ⟨s', hs', h1, h2, _⟩ := hf.bd f hm
    rw [grange hf.good f hm, hs, Except.ok.injEq] at hs'
    subst hs'
    exact ⟨h1, h2⟩
  have he := fun f hm => (bd hf f hm).2
  unfold moveFronts at h
  simp only [bind_ok_iff, Prod.exists] at h
  obtain ⟨l2, aet2, fl, h1, h⟩ := h
  unfold moveMain at h1
  rw [if_neg (by simpa using hf.good.col.ne_nil)] at h1
  simp only [bind_ok_iff, Prod.exists] at h1
  obtain ⟨l1, aet1, h01, h1⟩ := h1
  have g1 : Good g l1 := moveOnes_good hf.good rfl le_rfl h01
  have g2 : Good g l2 := g1.moveTop (.inl hN) h1
  have hlay1 := grange g1
  have fin1 : Fine g l1 := ⟨g1, fun f m => (bounded_moveOnes hp hf.good.sound.num rfl le_rfl hf.layer h01 f m).2⟩
  have hup := movePost_aet g2.sound h
  match l, hf, hl, hhd, hz, hold, h01, he, h2 with
  | [], hf, _, _, _, _, _, _, _ => exact absurd rfl hf.good.col.ne_nil
  | [f], hf, hl, hhd, hz, hold, h01, he, h2 =>
    have hlen : l1.length = 1 := by
      have := moveOnes_tags hf.good.sound.num rfl le_rfl h01
      simpa using congrArg List.length this
    obtain ⟨f1, rfl⟩ := List.length_eq_one_iff.mp hlen
    obtain ⟨k1, k2⟩ := (h2 rfl).of_ok h01
    have k2 := k2.of_ok h1
    simp only at k1 k2
    subst k2
    have h3 := moveOnes_aet (r := ([f1], aet2)) hf.good.sound.num rfl le_rfl h01
    simp only [max_eq_left haet] at h3
    have hfl : fl = 0 := by
      obtain ⟨_, w, s', _, _, _, ⟨_, e⟩ | ⟨e, _⟩ | ⟨m, hm, hb, e1, e2⟩⟩ := moveTop_out h1
      · simp only [Prod.mk.injEq] at e; exact e.2.2
      · simp only [Prod.mk.injEq] at e; exact e.2
      · simp only at e1
        have : (0 : K) < 2e-10 := by norm_num
        linarith
    subst hfl
    obtain ⟨_, _, d, b3, _⟩ := moveTop_single hN hs g1.sound.num hlay1 h1
    simp only at b3
    subst b3
    have nl : Neat column s.thetaE [{ f1 with depth := d }] := by
      refine ⟨?_, trivial, by simp, ?_⟩
      · intro f hf; simp only [List.mem_singleton] at hf; subst hf; exact hlay1 f1 (by simp)
      · intro f hf
        have := g2.lastDepth f (by simpa using hf)
        rw [hN, hcol, Option.some.injEq] at this
        rw [← this]
        exact .inl ⟨hpos, le_rfl⟩
    have q1 := (movePost_books hN h0 g2 hcol (.inl nl) h).1
    rw [movePost_neat hN g2 hcol nl h]
    exact ⟨(min_le_right _ _).trans k1, h3, q1⟩
  | c :: n :: t, hf, hl, hhd, hz, hold, h01, he, _ =>
    obtain ⟨e1, hsh⟩ := moveOnes_single hf.good.sound.num (by simp) hN hs hgap (by rw [hN]; exact hcol) hl.lay
      (fun f hf => (hz f hf).ne') h01
    simp only at e1 hsh
    subst e1
    obtain ⟨hle, htl⟩ := shift_le (cum := g.cum) h0 hdt hpos hsh hl.lay hl.dry (hhd c (by simp)) (fun f hf => hl.tail f hf) he hz
    obtain ⟨c', n', t', rfl, s1, s2, s3, s4⟩ := shift_top (cum := g.cum) h0 hdt hpos hsh hl.lay hl.dry (hhd c (by simp))
      (fun f hf => hl.tail f hf) he hz
    rw [← hold] at s4 hle
    have hq : oldMass + (precip - aet1) = oldMass + precip - aet1 := by ring
    rw [hq] at s4 hle
    obtain ⟨b1, b2, d, b3, _⟩ := moveTop_single hN hs g1.sound.num hlay1 h1
    by_cases hm : mass g.cum (c' :: n' :: t') = oldMass + precip - aet1
    · have := b2 hm
      simp only [Prod.mk.injEq] at this
      obtain ⟨rfl, rfl, rfl⟩ := this
      obtain ⟨q1, q2⟩ := movePost_books (e := s.thetaE) hN h0 g2 hcol (by
        by_cases hle : c'.theta ≤ n'.theta
        · exact .inr ⟨c', n', t', rfl, s1, (s2 c' (by simp)).1, hle, fun f hf => s2 f (List.mem_cons_of_mem _ hf)⟩
        · refine .inl ⟨hlay1, ⟨fun _ => not_le.mp hle, s1⟩, fun f hf => s2 f (List.mem_cons_of_mem _ hf), ?_⟩
          intro f hf
          simp only [List.head?_cons, Option.mem_def, Option.some.injEq] at hf
          subst hf
          exact .inl (s2 _ (by simp))) h
      refine ⟨?_, hup, q1⟩
      rcases q2 with q2 | ⟨c1, n1, t1, e, q2⟩
      · rw [q2]; exact (min_le_right _ _).trans haet
      · simp only [List.cons.injEq] at e
        obtain ⟨rfl, rfl, rfl⟩ := e
        rw [q2, hm]
        simp only [List.tail_cons] at htl
        rw [htl, hold, mass_pair h0 (hl.lay c (by simp)) (hl.lay n (by simp))]
        have hcn : n.theta < c.theta := hl.dry.1 ((hl.lay c (by simp)).trans (hl.lay n (by simp)).symm)
        have := mul_pos (hhd c (by simp)) (sub_pos.mpr hcn)
        refine (min_le_left _ _).trans ?_
        linarith
    · have hce := s4.resolve_left hm
      have hcross : crossLayer g (c' :: n' :: t') = .ok (c' :: n' :: t') := by
        obtain ⟨x, _, hx, _⟩ := moveTop_inv h1
        rwa [crossLayer_single (fun f hf => by rw [hN]; exact hlay1 f hf) hx] at hx
      have hfd := freeDrainage_one hlay1 (by simp)
      have hcn : c'.layer = n'.layer := (hlay1 c' (by simp)).trans (hlay1 n' (by simp)).symm
      have hb : c'.toBottom = false := g1.col.not_flagged (i := 0) rfl rfl hcn
      have hin : LayersInRange g.cum (c' :: n' :: t') := by
        intro f hf
        have := (List.getElem?_eq_some_iff.mp hcol).1
        rw [hlay1 f hf]
        omega
      have hd1 : StrictlyDrying (c' :: n' :: t') := ⟨fun _ => by rw [hce]; exact s3, s1⟩
      obtain ⟨b, hlast⟩ : ∃ b, (c' :: n' :: t').getLast? = some b := ⟨_, List.getLast?_eq_some_getLast (by simp)⟩
      have hbl := g1.lastDepth b hlast
      rw [hN, hcol, Option.some.injEq] at hbl
      obtain ⟨m1, -⟩ := mass_one (column := column) h0 hlay1 hd1 (fun f hf => (s2 f hf).1) hlast
      have hb0 : column * s.thetaR ≤ b.depth * b.theta := by
        rw [← hbl]; exact mul_le_mul_of_nonneg_left (bd fin1 b (List.mem_of_getLast? hlast)).1 hpos.le
      have hn0 := hph.res.trans (bd fin1 n' (by simp)).1
      obtain ⟨k1, k2⟩ := moveTop_fills (p := 0) (w := c') (n := n') h1 hcross hin
        (by rw [hfd]; exact find_num g1.sound.num le_rfl (by simp)) rfl rfl hcn hb
        (by rw [hfd]; exact hs) (by rw [hce, sub_self, abs_zero]; norm_num) (by rw [hce]; exact s3) (by rw [hce]; linarith) (by linarith)
        (lt_of_le_of_ne hle hm)
      simp only [Prod.mk.injEq] at k1
      obtain ⟨rfl, rfl⟩ := k1
      simp only at b3 k2
      have nl : Neat column s.thetaE l2 := by
        rw [b3]
        refine ⟨?_, ⟨fun _ => by simp only; rw [hce]; exact s3, s1⟩, fun f hf => s2 f (List.mem_cons_of_mem _ hf), ?_⟩
        · intro f hf
          rcases List.mem_cons.mp hf with rfl | hf
          · exact hlay1 c' (by simp)
          · exact hlay1 f (List.mem_cons_of_mem _ hf)
        · intro f hf
          simp only [List.head?_cons, Option.mem_def, Option.some.injEq] at hf
          subst hf
          exact .inr hce
      obtain ⟨q1, -⟩ := movePost_books hN h0 g2 hcol (.inl nl) h
      refine ⟨?_, hup, q1⟩
      rw [movePost_neat hN g2 hcol nl h]
      exact (min_le_right _ _).trans haet

/-- Infiltration is not negative, up to a lack of storage. -/
theorem surfaceFlow_min {c : StepCfg K} {st : SubSt K} {rate ponded aet column : K} {s : SoilProps K} {q : K × K × K × K}
    (ho : OneLayer c column s) (ht : Settled c.geo column s.thetaE st.head) (haet : 0 ≤ aet)
    (h : surfaceFlow c st 1 rate ponded aet = .ok q) :
    min (column * s.thetaE - mass c.geo.cum st.head) 0 ≤ q.2.1 := by
  unfold surfaceFlow at h
  split at h
  · rename_i hpd
    simp only [bind_ok_iff, Prod.exists] at h
    obtain ⟨r, v, p, hi, h⟩ := h
    split at h
    · exact absurd h (by simp)
    · simp only [Except.ok.injEq] at h
      subst h
      obtain ⟨fp, hfp, hpp⟩ := insertWater_inv hi
      obtain ⟨b, mx, hb, hmx, _, rfl⟩ := fpCapacity_inv hfp
      have e := maxStorageGo_val hmx
      simp only [ho.layers, List.range'_one, List.map_cons, List.map_nil, List.sum_cons, List.sum_nil, add_zero, zero_add, ho.soil,
        ho.surf, sub_zero, List.getD_eq_getElem?_getD, ho.col, Option.getD_some] at e
      rw [mul_comm] at e
      have hb0 : 0 ≤ b := by
        obtain ⟨fd, h0, s', ff, G, y, sT, hfd, hh0, hs', hff, hG, hraw, _, hor⟩ := fpPotential_inv hb
        have hfm := derefOpt_mem hfd
        have hfl := ht.neat.lay fd hfm
        rw [hfl, ho.soil, Except.ok.injEq] at hs'
        subst hs'
        have hff0 : 0 < ff := ho.frozen ff (by rw [← hff, ht.neat.lay h0 (List.mem_of_getElem? hh0)])
        have hK := mul_pos ho.physSoil.ksat hff0
        have hG0 : 0 ≤ G := by
          rcases hG with ⟨_, rfl⟩ | ⟨_, w, hw, hG⟩
          · exact le_rfl
          · obtain ⟨s', e', w1, w2, _⟩ := ht.fine.bd w (derefOpt_mem hw)
            rw [ht.neat.lay w (derefOpt_mem hw), ho.soil, Except.ok.injEq] at e'
            subst e'
            exact capDrive_nonneg ho.physSoil.gap w1 w2 le_rfl ho.lam ho.psib hG
        have hdep : 0 < fd.depth := by
          cases hst : st.head with
          | nil => rw [hst] at hfm; simp at hfm
          | cons x t =>
            rw [hst, List.mem_cons] at hfm
            rcases hfm with rfl | hfm
            · exact ht.top _ (by rw [hst]; rfl)
            · exact (ht.neat.tail fd (by rw [hst]; exact hfm)).1
        have hy : 0 ≤ y := by
          unfold fpRaw at hraw
          rw [if_pos hfl] at hraw
          simp only [bind_ok_iff, cdiv_ok, Except.ok.injEq] at hraw
          obtain ⟨q, ⟨_, rfl⟩, rfl⟩ := hraw
          have : 0 ≤ (G + max (ponded - rate * c.dt) 0) / fd.depth := div_nonneg (add_nonneg hG0 (le_max_right _ _)) hdep.le
          exact mul_nonneg hK.le (by linarith)
        rcases hor with ⟨_, _, _, rfl⟩ | ⟨_, rfl⟩
        · exact le_min hy (div_nonneg haet ho.dt.le)
        · exact hy
      have hfp0 : min (column * s.thetaE - mass c.geo.cum st.head) 0 ≤ min b ((mx - mass c.geo.cum st.head) / c.dt) * c.dt := by
        rw [← sub_nonneg] at hb0
        rcases min_cases b ((mx - mass c.geo.cum st.head) / c.dt) with ⟨hmn, _⟩ | ⟨hmn, _⟩
        · rw [hmn]; exact (min_le_right _ _).trans (mul_nonneg (by linarith) ho.dt.le)
        · rw [hmn, div_mul_cancel₀ _ ho.dt.ne', e]; exact min_le_left _ _
      obtain ⟨_, ⟨_, _, rfl, rfl, rfl⟩ | ⟨h0, _, rfl, rfl, rfl⟩ | ⟨_, _, rfl, rfl, rfl⟩ | ⟨_, rfl, rfl, rfl⟩⟩ :=
        partitionPond_inv hpp
      · exact le_min ((min_le_right _ _).trans hpd.le) hfp0
      · exact hfp0
      · exact min_le_right _ _
      · exact le_min ((min_le_right _ _).trans hpd.le) hfp0
  · split at h
    · simp only [Except.ok.injEq] at h
      subst h; exact min_le_right _ _
    · simp only [Except.ok.injEq] at h
      subst h; exact min_le_right _ _

/-- ET and percolation of the water movement in a sub-timestep. -/
theorem subFlow_books {c : StepCfg K} {st : SubSt K} {column rate ponded aet : K} {s : SoilProps K} {b : Bool} {f : SubFlow K}
    (ho : OneLayer c column s) (hone : s.thetaE ≤ 1) (ht : Settled c.geo column s.thetaE st.head) (hv : st.volend = mass c.geo.cum st.head)
    (haet : 0 ≤ aet) (hmax : max (mass c.geo.cum st.head) (column * s.thetaE) ≤ 49 + column * s.thetaR)
    (h2 : st.head.length = 1 → FlowLeaves c st b (wettingFrontFreeDrainage st.head) rate ponded aet)
    (h : subFlow c st b st.head (wettingFrontFreeDrainage st.head) rate ponded aet = .ok f) :
    min (column * s.thetaE - mass c.geo.cum st.head) 0 ≤ f.aet ∧ f.aet ≤ aet ∧ st.rechT ≤ f.rechT := by
  have hfd := freeDrainage_one ht.neat.lay ht.fine.good.col.ne_nil
  have hx1 := le_max_left (mass c.geo.cum st.head) (column * s.thetaE)
  have hx2 := le_max_right (mass c.geo.cum st.head) (column * s.thetaE)
  rw [hfd] at h h2
  unfold FlowLeaves at h2
  unfold subFlow at h
  split at h
  · rename_i e
    rw [if_pos e] at h2
    obtain ⟨l, flux, dry, d, h0, pd, hm, hd, hh, hcr, _, _, hre, _⟩ := flowCreate_inv h
    obtain ⟨b1, b2, b3⟩ := moveFronts_lone ho.phys ho.layers ho.soil hone ho.surf ho.col ho.pos ho.dt.le ht.fine ht.neat ht.top ht.speed hv
      (by rw [hv]; linarith) haet h2 hm
    simp only [min_self] at b1 b2 b3
    refine ⟨(min_le_right _ _).trans b1, b2, ?_⟩
    rcases hre with ⟨_, _, e⟩ | ⟨_, _, e⟩
    · exact e.ge
    · rw [e]; linarith
  · rename_i e
    rw [if_neg e] at h2
    obtain ⟨hsf, hm, _, _, _, hre⟩ := flowMove_inv h
    have hvol := surfaceFlow_max ho hsf
    have hlow := surfaceFlow_min ho ht haet hsf
    simp only at hvol hlow
    have hT : mass c.geo.cum st.head + f.volin ≤ max (mass c.geo.cum st.head) (column * s.thetaE) := by
      rcases le_total (column * s.thetaE - mass c.geo.cum st.head) 0 with h | h
      · rw [max_eq_right h] at hvol; linarith
      · rw [max_eq_left h] at hvol; linarith
    obtain ⟨b1, b2, b3⟩ := moveFronts_lone ho.phys ho.layers ho.soil hone ho.surf ho.col ho.pos ho.dt.le ht.fine ht.neat ht.top ht.speed hv
      (by rw [hv]; linarith) haet (fun e1 => (h2 e1).of_ok hsf) hm
    simp only at b1 b2 b3
    refine ⟨le_trans (le_min hlow (min_le_right _ _)) b1, b2, ?_⟩
    rw [hre]; linarith

/-- ET and percolation of a sub-timestep. -/
theorem Steady.books {c : StepCfg K} {column : K} {s : SoilProps K} {st st' : SubSt K} (ho : OneLayer c column s) (hone : s.thetaE ≤ 1)
    (hs : Steady c column s st) (hmax : max (mass c.geo.cum st.head) (column * s.thetaE) ≤ 49 + column * s.thetaR)
    (h2 : st.head.length = 1 → StepLeaves c st) (h : subStep c st = .ok st') :
    min (column * s.thetaE - mass c.geo.cum st.head) 0 ≤ st'.aetT - st.aetT ∧ st'.aetT - st.aetT ≤ st'.petT - st.petT ∧
      st.rechT ≤ st'.rechT := by
  obtain ⟨aet, vs, h0, hsoil, f, l, ve, h1, ha, hvs, hh0, hhs, hsf, hl, hve, _, hh1, hpos, rfl⟩ := subStep_inv h
  have hpet : 0 ≤ CMath.fmax st.petMm (0 : K) := by rw [fmax_eq]; exact le_max_right _ _
  obtain ⟨ha0, ha1⟩ := aetDemand_bound ho.dt.le (mul_nonneg hpet (by norm_num)) ha
  obtain ⟨b1, b2, b3⟩ := subFlow_books ho hone hs.tidy hs.vol ha0 hmax
    (fun e => (((h2 e).of_ok ha).of_ok (deref_ok_iff.mpr hh0)).of_ok hhs) hsf
  simp only [fmax_eq] at ha1 ⊢
  have h3 := le_max_left (max st.petMm 0 * 0.1 * c.dt) 0
  exact ⟨by linarith, by linarith, b3⟩

theorem Steady.loop_books {c : StepCfg K} {column M : K} {s : SoilProps K} (ho : OneLayer c column s) (hone : s.thetaE ≤ 1)
    (hM : column * s.thetaE + M * 2e-10 ≤ 49 + column * s.thetaR) :
    ∀ {n : Nat} {st st' : SubSt K}, Steady c column s st → Capped s.thetaE st.timesteps column (mass c.geo.cum st.head) →
      LoopLone c n st → subLoop c n st = .ok st' → (st'.timesteps : K) ≤ M →
      -(((st'.timesteps : K) - (st.timesteps : K)) * (M * 2e-10)) ≤ st'.aetT - st.aetT ∧ st'.aetT - st.aetT ≤ st'.petT - st.petT ∧
        st.rechT ≤ st'.rechT
  | 0, st, st', hs, hc, _, h, _ => by simp [subLoop] at h; subst h; simp
  | n + 1, st, st', hs, hc, hlone, h, hle => by
    have hlater := subLoop_later h
    unfold subLoop at h
    simp only [bind_ok_iff] at h
    obtain ⟨s1, h1, h⟩ := h
    have hcast : (st.timesteps : K) ≤ (st'.timesteps : K) := Int.cast_le.mpr hlater
    have h0 : (0 : K) ≤ (st.timesteps : K) := by exact_mod_cast hc.1
    have hM0 : 0 ≤ M * (2e-10 : K) := mul_nonneg (by linarith) (by norm_num)
    have hle' : (st.timesteps : K) * 2e-10 ≤ M * 2e-10 := mul_le_mul_of_nonneg_right (by linarith) (by norm_num)
    have hm2 := hc.2
    have hb : max (column * s.thetaE) (mass c.geo.cum st.head) ≤ 49 + column * s.thetaR := max_le (by linarith) (by linarith)
    obtain ⟨k1, k2, k3⟩ := hs.books ho hone (by rwa [max_comm]) hlone.1 h1
    have hlow : -(M * 2e-10) ≤ s1.aetT - st.aetT := le_trans (le_min (by linarith) (by linarith)) k1
    have hcap := hs.cap ho hone hb h1
    have hts : s1.timesteps = st.timesteps + 1 := by
      obtain ⟨aet, vs, h0, hsoil, f, l, ve, hh, -, -, -, -, -, -, -, -, -, -, rfl⟩ := subStep_inv h1
      rfl
    have hc1 : Capped s.thetaE s1.timesteps column (mass c.geo.cum s1.head) := by
      refine ⟨by rw [hts]; have := hc.1; omega, ?_⟩
      rw [hts, Int.cast_add, Int.cast_one, add_mul, one_mul]
      have := max_le (a := column * s.thetaE) (c := column * s.thetaE + (st.timesteps : K) * 2e-10)
        (by have := mul_nonneg h0 (by norm_num : (0 : K) ≤ 2e-10); linarith) hm2
      linarith
    have hts' : (s1.timesteps : K) = (st.timesteps : K) + 1 := by rw [hts]; push_cast; ring
    split at h
    · simp only [pure_eq_ok, Except.ok.injEq] at h
      subst h
      refine ⟨?_, k2, k3⟩
      rw [hts']
      have : ((st.timesteps : K) + 1 - (st.timesteps : K)) * (M * 2e-10) = M * 2e-10 := by
        generalize (2e-10 : K) = a; ring
      rw [this]; exact hlow
    · obtain ⟨i1, i2, i3⟩ := Steady.loop_books ho hone hM (hs.step ho h1) hc1 (hlone.2.of_ok h1) h hle
      refine ⟨?_, by linarith, k3.trans i3⟩
      rw [hts'] at i1
      have : ((st'.timesteps : K) - (st.timesteps : K)) * (M * 2e-10) =
          ((st'.timesteps : K) - ((st.timesteps : K) + 1)) * (M * 2e-10) + M * 2e-10 := by
        generalize (2e-10 : K) = a; ring
      rw [this]
      linarith

end Exact
end LGAR
