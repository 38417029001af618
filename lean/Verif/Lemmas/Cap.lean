import Verif.Lemmas.McLoop
import Verif.Lemmas.SingleRun
import Verif.Lemmas.Storage
import Verif.Lemmas.Infil
/-
The storage of a one-layer column does not grow beyond saturation, also when a saturated first front lies below the bottom.
-/
set_option linter.unusedSectionVars false
namespace LGAR

section Exact
variable {K : Type} [Field K] [LinearOrder K] [IsStrictOrderedRing K] [CMath K] [LawfulNum K]

/-- Once the steps have been enlarged, the loop does not exceed a level that bounds it and its next step up. -/
theorem mcLoop_peak {g : Geo K} {target column A D top : K} {p : Nat} {l : List (Front K)} {w : Front K} (hf : McFree g p l w A D) :
    ∀ {fuel : Nat} {st : McState K} {r : McState K × Bool}, McAt g target p l w A D st → st.aug = true → 0 < mcWater D st →
      st.mass ≤ top → (0 < mcGap target st → st.mass + mcWater D st ≤ top ∧ mcGap target st ≤ mcWater D st) →
      mcLoop g target column p fuel st = .ok r → r.2 = false ∨ r.1.mass ≤ top
  | 0, st, r, _, _, _, _, _, h => by simp [mcLoop] at h
  | fuel + 1, st, r, ha, hau, h0, hm, hu, h => by
    rcases mcLoop_round hf ha h with ⟨h1, _⟩ | ⟨h1, _⟩ | ⟨st', x, ha', h', hit, hbig, hlim, hx, hs⟩
    · exact .inl h1
    · rw [h1]; exact .inr hm
    obtain ⟨e, rfl⟩ : st'.aug = true ∧ x = 1 := by
      rcases hx with ⟨e, rfl, _⟩ | ⟨e1, _⟩
      · exact ⟨e.trans hau, rfl⟩
      · rw [hau] at e1; exact absurd e1 (by simp)
    simp only [mcGap] at hs hu
    rcases hs with ⟨s1, _, s3, s4⟩ | ⟨_, _, s3, s4⟩
    · rw [mul_one] at s3
      obtain ⟨u1, u2⟩ := hu s1
      refine mcLoop_peak hf ha' e (by rw [s3]; exact h0) (by rw [s3] at s4; linarith) ?_ h'
      intro hp
      simp only [mcGap] at hp
      rw [s3] at s4
      linarith
    · rw [mul_one] at s3
      have hd0 : 0 < mcDown D st := by
        unfold mcDown; split
        · exact h0
        · exact mul_pos h0 (by norm_num)
      refine mcLoop_peak hf ha' e (by rw [s3]; exact hd0) (by rw [s3] at s4; linarith) ?_ h'
      intro hp
      simp only [mcGap] at hp ⊢
      rw [s3] at s4 ⊢
      constructor <;> linarith

/-- Started above the target, the loop ends within the tolerance or no higher than it started. -/
theorem mcLoop_down {g : Geo K} {target column A D top : K} {p : Nat} {l : List (Front K)} {w : Front K} (hf : McFree g p l w A D) :
    ∀ {fuel : Nat} {st : McState K} {r : McState K × Bool}, McAt g target p l w A D st → 0 < mcWater D st → st.mass ≤ top →
      mcGap target st ≤ 0 → (st.aug = false → mcDown D st ≤ 0.01 * 0.001) →
      mcLoop g target column p fuel st = .ok r → r.2 = false ∨ r.1.mass ≤ top
  | 0, st, r, _, _, _, _, _, h => by simp [mcLoop] at h
  | fuel + 1, st, r, ha, h0, hm, hg, hsm, h => by
    rcases mcLoop_round hf ha h with ⟨h1, _⟩ | ⟨h1, _⟩ | ⟨st', x, ha', h', hit, hbig, hlim, hx, hs⟩
    · exact .inl h1
    · rw [h1]; exact .inr hm
    rcases hs with ⟨s1, _⟩ | ⟨_, s2, s3, s4⟩
    · linarith
    have hd0 : 0 < mcDown D st := by
      unfold mcDown; split
      · exact h0
      · exact mul_pos h0 (by norm_num)
    have hx0 : (0 : K) < x := by rcases hx with ⟨_, rfl, _⟩ | ⟨_, _, _, rfl⟩ <;> norm_num
    have hw' : 0 < mcWater D st' := by rw [s3]; exact mul_pos hd0 hx0
    have hd : mcDown D st' = mcWater D st' := by unfold mcDown; rw [s2]; simp
    have hms : st'.mass = st.mass - mcWater D st' := by simp only [mcGap] at s4; linarith
    rcases lt_or_ge 0 (mcGap target st') with hp | hp
    · cases hau : st'.aug with
      | true =>
        refine mcLoop_peak hf ha' hau hw' (by linarith) (fun _ => ⟨by linarith, by linarith⟩) h'
      | false =>
        left
        have hi := ha'.flag hau
        obtain ⟨e, rfl⟩ : st.aug = false ∧ x = 1 := by
          rcases hx with ⟨e, rfl, _⟩ | ⟨_, e2, _⟩
          · exact ⟨e.symm.trans hau, rfl⟩
          · rw [hau] at e2; exact absurd e2 (by simp)
        refine mcLoop_near (k := 1) (j := 0) hf ha' (.inl ⟨hp, by linarith, ?_, rfl⟩) (by omega) (by omega) h'
        have := hsm e
        rw [s3, hau]; simp only [mcScale]; norm_num at this ⊢; linarith
    · refine mcLoop_down hf ha' hw' (by linarith) hp ?_ h'
      intro hau
      obtain ⟨e, rfl⟩ : st.aug = false ∧ x = 1 := by
        rcases hx with ⟨e, rfl, _⟩ | ⟨_, e2, _⟩
        · exact ⟨e.symm.trans hau, rfl⟩
        · rw [hau] at e2; exact absurd e2 (by simp)
      rw [hd, s3, mul_one]; exact hsm e

/-- The correction of a saturated front above a drier one ends no higher than it started, or at the wanted water. -/
theorem moveTop_cap {g : Geo K} {oldMass precip aet : K} {l l1 : List (Front K)} {w n : Front K} {s : SoilProps K} {p : Nat}
    {r : List (Front K) × K × K}
    (h : moveTop g oldMass precip l aet = .ok r) (hcross : crossLayer g l = .ok l1) (hr : LayersInRange g.cum l1)
    (hp : listFindFront (Int.ofNat (wettingFrontFreeDrainage l1)) l1 [] = some p)
    (hw : l1[p]? = some w) (hn : l1[p + 1]? = some n) (hl : w.layer = n.layer) (hb : w.toBottom = false)
    (hs : g.soil (wettingFrontFreeDrainage l1) = .ok s) (hsat : |w.theta - s.thetaE| < 1e-15)
    (hdry : n.theta < w.theta) (hone : w.theta - n.theta ≤ 1) (hup : oldMass + precip - aet ≤ mass g.cum l1 + 49) :
    mass g.cum r.1 ≤ max (mass g.cum l1) (oldMass + precip - aet + 2e-10) := by
  obtain ⟨column, fac, st0, st, brk, hf, ha, h1, h2, h3, h4, h5, f1, f2, hmc, hm, hok, _, _, hl'⟩ :=
    moveTop_loop h hcross hr hp hw hn hl hb hs hsat hdry hone
  have h0 : 0 < mcWater (w.theta - n.theta) st0 := by rw [h4]; exact lt_of_lt_of_le (by norm_num) f1
  rw [hl', ← massBal_val hm]
  have key : brk = false ∨ st.mass ≤ mass g.cum l1 := by
    rcases lt_or_ge 0 (mcGap (oldMass + precip - aet) st0) with hg | hg
    · left
      refine mcLoop_start (q := 4990) hf le_rfl ha h1 h0 (.inl ⟨hg, ?_, by rw [h4]; exact f2⟩) hmc
      rw [h4]
      simp only [mcGap, h5]
      norm_num at f1 ⊢
      linarith
    · have := mcLoop_down hf (top := mass g.cum l1) ha h0 h5.le hg (fun _ => by
        simp only [mcDown, h2, h4, Bool.false_eq_true, if_false]; norm_num at f2 ⊢; linarith) hmc
      exact this
  rcases key with hb | hb
  · have := (abs_le.mp (hok hb).1).2
    exact le_max_of_le_right (by linarith)
  · exact le_max_of_le_left hb

/-- In a one-layer column nothing flows in through the bottom. -/
theorem crossDomain_out {g : Geo K} {column e : K} {l : List (Front K)} {r : K × List (Front K)} {k : Int} (hN : g.numLayers = 1)
    (hcol : g.cum[1]? = some column) (hn : NumFrom k l) (hg : Good g l) (hl : Neat column e l)
    (h : crossDomain g column l = .ok r) : 0 ≤ r.1 := by
  rcases domainLoop_inv hn h with rfl | ⟨a, c, n, psi, Kc, rfl, hd, _, rfl⟩
  · exact le_rfl
  · simp only [zero_add]
    have hnd := hg.lastDepth n (by simp)
    rw [hN, hcol, Option.some.injEq] at hnd
    have hlt : n.theta < c.theta := strictlyDrying_iff.mp hl.dry a.length c n (by simp) (by simp)
      ((hl.lay c (by simp)).trans (hl.lay n (by simp)).symm)
    exact mul_nonneg (by linarith) (by rw [← hnd]; linarith)

/-- The clean-up of a one-layer column in order does not add water. -/
theorem movePost_cap {g : Geo K} {column e aet flux : K} {l : List (Front K)} {r : List (Front K) × K × K} (hN : g.numLayers = 1)
    (hinc : g.cum.Pairwise (· < ·)) (hg : Good g l) (hcol : g.cum[1]? = some column)
    (hl : Neat column e l) (h : movePost g l aet flux = .ok r) : mass g.cum r.1 ≤ mass g.cum l := by
  obtain ⟨l1, mc1, l2, l3, l4, mc4, l5, col, fl, l6, l7, mc7, l8, h1, h2, h3, h4, h5, hc, h6, h7, h8, h9, ha, hf⟩ :=
    movePost_inv h
  rw [hN, hcol, Option.some.injEq] at hc
  subst hc
  have := checkFix_drying hl.dry h1
  simp only [Prod.mk.injEq] at this
  obtain ⟨rfl, rfl⟩ := this
  have n2 := hl.merge hg.sound.num h2
  have m2 : mass g.cum l2 = mass g.cum l1 := mergeFronts_mass hg.sound.num hg.col h2
  have hg2 := hg.merge h2
  have := crossLayer_single (fun f hf => by rw [hN]; exact n2.lay f hf) h3
  subst this
  have := checkFix_drying n2.dry h4
  simp only [Prod.mk.injEq] at this
  obtain ⟨rfl, rfl⟩ := this
  have n5 := n2.merge hg2.sound.num h5
  have m5 : mass g.cum l5 = mass g.cum l4 := mergeFronts_mass hg2.sound.num hg2.col h5
  have hg5 := hg2.merge h5
  have n6 := n5.domain hg5.sound.num h6
  have m6 : mass g.cum l5 = fl + mass g.cum l6 := crossDomain_mass hg5.sound.num hg5.col
    (fun f hf _ hne => absurd (by rw [hN]; exact n5.lay f hf) hne) h6
  have f6 := crossDomain_out hN hcol hg5.sound.num hg5 n5 h6
  have hg6 := hg5.domain hinc (by rw [hN]; exact hcol) h6
  have := checkFix_drying n6.dry h7
  simp only [Prod.mk.injEq] at this
  obtain ⟨rfl, rfl⟩ := this
  have e8 := refresh_inv h8
  have e8' := congrArg (List.map (fun x : K × K × Nat × Int × Bool × K => (x.1, x.2.1, x.2.2.1))) e8
  rw [List.map_map, List.map_map] at e8'
  have m8 : mass g.cum l8 = mass g.cum l7 := mass_congr_water _ _ _ e8'
  have hr1 : r.1 = l8 := by
    rcases fixSingle_inv h9 with h | ⟨f, c1, rfl, hc1, hne, _⟩
    · exact h
    · have c8 : Col g.numLayers g.cum 1 [f] := by
        refine col_congr ?_ hg6.col
        have := congrArg (List.map (fun x : K × K × Nat × Int × Bool × K => (x.1, x.2.2.1, x.2.2.2.2.1))) e8
        rw [List.map_map, List.map_map] at this
        exact this.symm
      rw [col_single_iff] at c8
      obtain ⟨e1, e2, _, e4⟩ := c8
      rw [e1, hc1, Option.some.injEq] at e4
      rw [e4] at hne
      simp at hne
  rw [hr1, m8]
  simp only at f6
  linarith

/-- Fronts in order within the column hold no more than a saturated column. -/
theorem neat_mass {g : Geo K} {column e : K} {l : List (Front K)} (hN : g.numLayers = 1) (h0 : layerTop g.cum 1 = 0)
    (hcol : g.cum[1]? = some column) (hpos : 0 < column) (hg : Good g l) (hlay : ∀ f ∈ l, f.layer = 1) (hdry : StrictlyDrying l)
    (hin : ∀ f ∈ l, 0 < f.depth ∧ f.depth ≤ column) (he : ∀ f ∈ l, f.theta ≤ e) : mass g.cum l ≤ column * e := by
  obtain ⟨b, hb⟩ : ∃ b, l.getLast? = some b := by
    cases h : l.getLast? with
    | none => exact absurd (List.getLast?_eq_none_iff.mp h) hg.col.ne_nil
    | some b => exact ⟨b, rfl⟩
  have hbd := hg.lastDepth b hb
  rw [hN, hcol, Option.some.injEq] at hbd
  obtain ⟨_, m2⟩ := mass_one (column := column) h0 hlay hdry (fun f hf => (hin f hf).1) hb
  obtain ⟨f, hf⟩ : ∃ f, l.head? = some f := by
    cases h : l with
    | nil => exact absurd h hg.col.ne_nil
    | cons x t => exact ⟨x, rfl⟩
  exact (m2 (fun f hf => (hin f hf).2) hbd.symm f hf).trans
    (mul_le_mul_of_nonneg_left (he f (List.mem_of_head? hf)) hpos.le)

end Exact

section Exact
variable {K : Type} [Field K] [LinearOrder K] [IsStrictOrderedRing K] [CMath K] [LawfulNum K] [LawfulPow K] [LawfulMono K]

/-- The movement of the fronts of a one-layer column leaves it at most saturated, or with the water it should hold. -/
theorem moveFronts_cap {fuel : Nat} {g : Geo K} {column dt precip oldMass aet : K} {s : SoilProps K} {l : List (Front K)}
    {r : List (Front K) × K × K} (hp : PhysGeo g) (hN : g.numLayers = 1) (hs : g.soil 1 = .ok s) (hone : s.thetaE ≤ 1)
    (h0 : layerTop g.cum 1 = 0) (hinc : g.cum.Pairwise (· < ·)) (hcol : g.cum[1]? = some column) (hpos : 0 < column) (hdt : 0 ≤ dt)
    (hf : Fine g l) (hl : Neat column s.thetaE l) (hhd : ∀ f ∈ l.head?, 0 < f.depth) (hz : ∀ f ∈ l.dropLast, 0 < f.dzdt)
    (hold : oldMass = mass g.cum l) (hmax : oldMass + precip - aet ≤ 49 + column * s.thetaR)
    (h : moveFronts fuel g dt precip 1 oldMass aet l l = .ok r) :
    mass g.cum r.1 ≤ max (column * s.thetaE) (oldMass + precip - aet + 2e-10) := by
  have hph := hp 1 s le_rfl hs
  have hgap := hph.gap
  have fr := hf.moveFronts hp hinc (.inl hN) h
  have grange : ∀ {l : List (Front K)}, Good g l → ∀ f ∈ l, f.layer = 1 := by
    intro l hg f hf
    have := hg.col.range f hf
    rw [hN] at this
    omega
  have bd : ∀ {l : List (Front K)}, Fine g l → ∀ f ∈ l, s.thetaR ≤ f.theta ∧ f.theta ≤ s.thetaE := by
    intro l hf f hm
    obtain ⟨s', hs', h1, h2, _⟩ := hf.bd f hm
    rw [grange hf.good f hm, hs, Except.ok.injEq] at hs'
    subst hs'
    exact ⟨h1, h2⟩
  have he := fun f hm => (bd hf f hm).2
  -- fronts that stay within the column
  have within : ∀ {l2 : List (Front K)} {aet2 fl : K}, Good g l2 →
      (Neat column (s.thetaE + 1) l2 ∨ ∃ c n t, l2 = c :: n :: t ∧ StrictlyDrying (n :: t) ∧ 0 < c.depth ∧ c.theta ≤ n.theta ∧
        ∀ f ∈ n :: t, 0 < f.depth ∧ f.depth ≤ column) → movePost g l2 aet2 fl = .ok r → mass g.cum r.1 ≤ column * s.thetaE := by
    intro l2 aet2 fl g2 hn hpost
    obtain ⟨nr, _⟩ := movePost_single hN h0 hinc g2 hcol hn hpost
    refine neat_mass hN h0 hcol hpos fr.good nr.lay nr.dry ?_ (fun f hf => (bd fr f hf).2)
    intro f hf
    cases hr : r.1 with
    | nil => rw [hr] at hf; simp at hf
    | cons x t =>
      rw [hr, List.mem_cons] at hf
      rcases hf with rfl | hf
      · rcases nr.head f (by rw [hr]; rfl) with h | h
        · exact h
        · have := (bd fr f (by rw [hr]; simp)).2
          linarith
      · exact nr.tail f (by rw [hr]; exact hf)
  unfold moveFronts at h
  simp only [bind_ok_iff, Prod.exists] at h
  obtain ⟨l2, aet2, fl, h1, h⟩ := h
  unfold moveMain at h1
  rw [if_neg (by simpa using hf.good.col.ne_nil)] at h1
  simp only [bind_ok_iff, Prod.exists] at h1
  obtain ⟨l1, aet1, h01, h1⟩ := h1
  have g1 : Good g l1 := moveOnes_good hf.good rfl le_rfl h01
  have g2 : Good g l2 := g1.moveTop (.inl hN) h1
  have hlay1 := grange g1
  have fin1 : Fine g l1 := ⟨g1, fun f m => (bounded_moveOnes hp hf.good.sound.num rfl le_rfl hf.layer h01 f m).2⟩
  match l, hf, hl, hhd, hz, hold, h01, he with
  | [], hf, _, _, _, _, _, _ => exact absurd rfl hf.good.col.ne_nil
  | [f], hf, hl, hhd, hz, hold, h01, he =>
    have hlen : l1.length = 1 := by
      have := moveOnes_tags hf.good.sound.num rfl le_rfl h01
      simpa using congrArg List.length this
    obtain ⟨f1, rfl⟩ := List.length_eq_one_iff.mp hlen
    obtain ⟨_, _, d, b3, _⟩ := moveTop_single hN hs g1.sound.num hlay1 h1
    simp only at b3
    subst b3
    refine le_max_of_le_left (within g2 (.inl ⟨?_, trivial, by simp, ?_⟩) h)
    · intro f hf; simp only [List.mem_singleton] at hf; subst hf; exact hlay1 f1 (by simp)
    · intro f hf
      have := g2.lastDepth f (by simpa using hf)
      rw [hN, hcol, Option.some.injEq] at this
      rw [← this]
      exact .inl ⟨hpos, le_rfl⟩
  | c :: n :: t, hf, hl, hhd, hz, hold, h01, he =>
    obtain ⟨e1, hsh⟩ := moveOnes_single hf.good.sound.num (by simp) hN hs hgap (by rw [hN]; exact hcol) hl.lay
      (fun f hf => (hz f hf).ne') h01
    simp only at e1 hsh
    subst e1
    obtain ⟨c', n', t', rfl, s1, s2, s3, s4⟩ := shift_top (cum := g.cum) h0 hdt hpos hsh hl.lay hl.dry (hhd c (by simp))
      (fun f hf => hl.tail f hf) he hz
    rw [← hold] at s4
    have hq : oldMass + (precip - aet1) = oldMass + precip - aet1 := by ring
    rw [hq] at s4
    obtain ⟨b1, b2, d, b3, _⟩ := moveTop_single hN hs g1.sound.num hlay1 h1
    by_cases hm : mass g.cum (c' :: n' :: t') = oldMass + precip - aet1
    · have := b2 hm
      simp only [Prod.mk.injEq] at this
      obtain ⟨rfl, rfl, rfl⟩ := this
      refine le_max_of_le_left (within g2 ?_ h)
      by_cases hle : c'.theta ≤ n'.theta
      · exact .inr ⟨c', n', t', rfl, s1, (s2 c' (by simp)).1, hle,
          fun f hf => s2 f (List.mem_cons_of_mem _ hf)⟩
      · refine .inl ⟨hlay1, ⟨fun _ => not_le.mp hle, s1⟩, fun f hf => s2 f (List.mem_cons_of_mem _ hf), ?_⟩
        intro f hf
        simp only [List.head?_cons, Option.mem_def, Option.some.injEq] at hf
        subst hf
        exact .inl (s2 _ (by simp))
    · have hce := s4.resolve_left hm
      have hd1 : StrictlyDrying (c' :: n' :: t') := ⟨fun _ => by rw [hce]; exact s3, s1⟩
      have n1 : Neat column s.thetaE l2 := by
        simp only at b3
        subst b3
        refine ⟨?_, ⟨fun _ => ?_, s1⟩, fun f hf => s2 f (List.mem_cons_of_mem _ hf), ?_⟩
        · intro f hf
          rcases List.mem_cons.mp hf with rfl | hf
          · exact hlay1 c' (by simp)
          · exact hlay1 f (List.mem_cons_of_mem _ hf)
        · simp only; rw [hce]; exact s3
        · intro f hf
          simp only [List.head?_cons, Option.mem_def, Option.some.injEq] at hf
          subst hf
          exact .inr hce
      refine (movePost_cap hN hinc g2 hcol n1 h).trans ?_
      have hcn := (hlay1 c' (by simp)).trans (hlay1 n' (by simp)).symm
      have hfd := freeDrainage_one hlay1 (by simp)
      have hcross : crossLayer g (c' :: n' :: t') = .ok (c' :: n' :: t') := by
        obtain ⟨l1, _, h', _⟩ := moveTop_inv h1
        rw [h', crossLayer_single (fun f hf => by rw [hN]; exact hlay1 f hf) h']
      have hb : c'.toBottom = false := g1.col.not_flagged (i := 0) rfl rfl hcn
      have hin : LayersInRange g.cum (c' :: n' :: t') := by
        intro f hf
        have := (List.getElem?_eq_some_iff.mp hcol).1
        rw [hlay1 f hf]
        omega
      obtain ⟨b, hlast⟩ : ∃ b, (c' :: n' :: t').getLast? = some b := ⟨_, List.getLast?_eq_some_getLast (by simp)⟩
      have hbl := g1.lastDepth b hlast
      rw [hN, hcol, Option.some.injEq] at hbl
      obtain ⟨m1, m2⟩ := mass_one (column := column) h0 hlay1 hd1 (fun f hf => (s2 f hf).1) hlast
      have hsat := m2 (fun f hf => (s2 f hf).2) hbl.symm c' rfl
      have hb0 : column * s.thetaR ≤ b.depth * b.theta := by
        rw [← hbl]; exact mul_le_mul_of_nonneg_left (bd fin1 b (List.mem_of_getLast? hlast)).1 hpos.le
      have hn0 := hph.res.trans (bd fin1 n' (by simp)).1
      have := moveTop_cap (p := 0) (w := c') (n := n') h1 hcross hin (by rw [hfd]; exact find_num g1.sound.num le_rfl (by simp)) rfl rfl hcn hb
        (by rw [hfd]; exact hs) (by rw [hce, sub_self, abs_zero]; norm_num) (by rw [hce]; exact s3) (by rw [hce]; linarith) (by linarith)
      rw [hce] at hsat
      exact this.trans (max_le_max_right _ hsat)

/-- What infiltrates fits into the free space, if there is any. -/
theorem partitionPond_max {dt ponded pondMax fp r v p c : K} (hdt : 0 < dt) (hfp : fp ≤ c / dt)
    (h : partitionPond dt ponded 0 pondMax fp = .ok (r, v, p)) : v ≤ max c 0 := by
  have h1 : fp * dt ≤ c := by rwa [le_div_iff₀ hdt] at hfp
  obtain ⟨_, ⟨_, _, rfl, rfl, rfl⟩ | ⟨h0, _, rfl, rfl, rfl⟩ | ⟨_, _, rfl, rfl, rfl⟩ | ⟨_, rfl, rfl, rfl⟩⟩ :=
    partitionPond_inv h
  · exact le_max_of_le_left ((min_le_right _ _).trans h1)
  · exact le_max_of_le_left h1
  · exact le_max_right _ _
  · exact le_max_of_le_left ((min_le_right _ _).trans h1)

theorem surfaceFlow_max {c : StepCfg K} {st : SubSt K} {nFd : Nat} {rate ponded aet column : K} {s : SoilProps K} {q : K × K × K × K}
    (ho : OneLayer c column s) (h : surfaceFlow c st nFd rate ponded aet = .ok q) :
    q.2.1 ≤ max (column * s.thetaE - mass c.geo.cum st.head) 0 := by
  unfold surfaceFlow at h
  split at h
  · simp only [bind_ok_iff, Prod.exists] at h
    obtain ⟨r, v, p, hi, h⟩ := h
    split at h
    · exact absurd h (by simp)
    · simp only [Except.ok.injEq] at h
      subst h
      obtain ⟨fp, hfp, hpp⟩ := insertWater_inv hi
      obtain ⟨mx, hmx, _, hle⟩ := fpCapacity_cap hfp
      have e := maxStorageGo_val hmx
      simp only [ho.layers, List.range'_one, List.map_cons, List.map_nil, List.sum_cons, List.sum_nil, add_zero, zero_add, ho.soil,
        ho.surf, sub_zero, List.getD_eq_getElem?_getD, ho.col, Option.getD_some] at e
      rw [e, mul_comm] at hle
      exact partitionPond_max ho.dt hle hpp
  · split at h
    · simp only [Except.ok.injEq] at h
      subst h; exact le_max_right _ _
    · simp only [Except.ok.injEq] at h
      subst h; exact le_max_right _ _

/-- A sub-timestep leaves the column at most saturated, or with no more water than before (up to 2e-10). -/
theorem subFlow_cap {c : StepCfg K} {st : SubSt K} {column rate ponded aet : K} {s : SoilProps K} {b : Bool} {f : SubFlow K}
    (ho : OneLayer c column s) (hone : s.thetaE ≤ 1) (ht : Settled c.geo column s.thetaE st.head) (hv : st.volend = mass c.geo.cum st.head)
    (hb : b = true → 0 < ponded) (haet : 0 ≤ aet) (hmax : max (mass c.geo.cum st.head) (column * s.thetaE) ≤ 49 + column * s.thetaR)
    (h : subFlow c st b st.head (wettingFrontFreeDrainage st.head) rate ponded aet = .ok f) :
    mass c.geo.cum f.head ≤ max (column * s.thetaE) (mass c.geo.cum st.head) + 2e-10 := by
  have hfd := freeDrainage_one ht.neat.lay ht.fine.good.col.ne_nil
  have e0 : (0 : K) < 2e-10 := by norm_num
  have hx1 := le_max_left (column * s.thetaE) (mass c.geo.cum st.head)
  have hx2 := le_max_right (column * s.thetaE) (mass c.geo.cum st.head)
  rw [hfd] at h
  unfold subFlow at h
  split at h
  · rename_i hbt
    obtain ⟨l, flux, dry, d, h0, pd, hm, hd, hh, hcr, _, _, _, _, _⟩ := flowCreate_inv h
    obtain ⟨gm, nm, _⟩ := moveFronts_single ho.layers ho.soil ho.physSoil.gap ho.surf ho.inc ho.col ho.pos ho.dt.le ht.fine ht.neat
      ht.top ht.speed hv hm
    have fm := ht.fine.moveFronts ho.phys ho.inc (.inl ho.layers) hm
    simp only at gm nm fm
    match l, hh with
    | x :: t, hh =>
      simp only [List.getElem?_cons_zero, Option.some.injEq] at hh
      subst hh
      obtain ⟨d0, d1, d2⟩ := dryDepth_single ho fm (nm.lay x (by simp)) hd
      obtain ⟨n1, m1⟩ := create_single ho fm nm d2 d0 d1 (hb hbt) rfl hcr
      obtain ⟨s', thn, psi, Kc, hs', hv', -⟩ := createSurficial_inv hcr
      rw [ho.soil, Except.ok.injEq] at hs'
      subst hs'
      have hle : f.volin ≤ dry * (s.thetaE - x.theta) := by
        rcases hv' with ⟨q1, _, q3, _, _⟩ | ⟨_, q3, _, _⟩
        · exact q3.trans_le q1.le
        · exact q3.le
      have hin : ∀ y ∈ x :: t, 0 < y.depth ∧ y.depth ≤ column := by
        intro y hy
        rcases List.mem_cons.mp hy with rfl | hy
        · exact (nm.head _ rfl).resolve_right d2.ne
        · exact nm.tail y hy
      obtain ⟨z, hz⟩ : ∃ z, (x :: t).getLast? = some z := ⟨_, List.getLast?_eq_some_getLast (by simp)⟩
      have hzd := fm.good.lastDepth z hz
      rw [ho.layers, ho.col, Option.some.injEq] at hzd
      have hm1 := (mass_one (column := column) ho.surf nm.lay nm.dry (fun y hy => (hin y hy).1) hz).2 (fun y hy => (hin y hy).2) hzd.symm x rfl
      simp only at m1
      rw [m1]
      have hmul : dry * (s.thetaE - x.theta) ≤ column * (s.thetaE - x.theta) := mul_le_mul_of_nonneg_right d1 (by linarith)
      have : mass c.geo.cum (x :: t) + f.volin ≤ column * s.thetaE := by
        refine (add_le_add hm1 (hle.trans hmul)).trans (le_of_eq ?_)
        ring
      linarith
  · rename_i hbf
    obtain ⟨hsf, hm, _⟩ := flowMove_inv h
    have hvol := surfaceFlow_max ho hsf
    simp only at hvol
    have hT : mass c.geo.cum st.head + f.volin ≤ max (column * s.thetaE) (mass c.geo.cum st.head) := by
      rcases le_total (column * s.thetaE - mass c.geo.cum st.head) 0 with h | h
      · rw [max_eq_right h] at hvol; linarith
      · rw [max_eq_left h] at hvol; linarith
    rw [max_comm] at hmax
    have := moveFronts_cap ho.phys ho.layers ho.soil hone ho.surf ho.inc ho.col ho.pos ho.dt.le ht.fine ht.neat ht.top ht.speed hv
      (by rw [hv]; linarith) hm
    refine this.trans (max_le (by linarith) ?_)
    rw [hv]; linarith

/-- Water in the column after a sub-timestep. -/
theorem Steady.cap {c : StepCfg K} {column : K} {s : SoilProps K} {st st' : SubSt K} (ho : OneLayer c column s) (hone : s.thetaE ≤ 1)
    (hs : Steady c column s st) (hmax : max (column * s.thetaE) (mass c.geo.cum st.head) ≤ 49 + column * s.thetaR) (h : subStep c st = .ok st') :
    mass c.geo.cum st'.head ≤ max (column * s.thetaE) (mass c.geo.cum st.head) + 2e-10 := by
  obtain ⟨aet, vs, h0, hsoil, f, l, ve, h1, ha, hvs, hh0, hhs, hsf, hl, hve, _, hh1, hpos, rfl⟩ := subStep_inv h
  have hr := rain_nonneg (x := st.precipMm) ho.dt
  have hpd := hs.pond
  have hpet : 0 ≤ CMath.fmax st.petMm (0 : K) := by rw [fmax_eq]; exact le_max_right _ _
  have ha0 : 0 ≤ aet := (aetDemand_bound ho.dt.le (mul_nonneg hpet (by norm_num)) ha).1
  have := subFlow_cap ho hone hs.tidy hs.vol (fun e => by have := wants_rain e; linarith) ha0 (by rwa [max_comm]) hsf
  rw [mass_speed hl]
  exact this

theorem subLoop_later {c : StepCfg K} : ∀ {n : Nat} {st st' : SubSt K}, subLoop c n st = .ok st' → st.timesteps ≤ st'.timesteps
  | 0, st, st', h => by simp [subLoop] at h; subst h; exact le_rfl
  | n + 1, st, st', h => by
    unfold subLoop at h
    simp only [bind_ok_iff] at h
    obtain ⟨s1, h1, h⟩ := h
    obtain ⟨aet, vs, h0, hsoil, f, l, ve, hh, -, -, -, -, -, -, -, -, -, -, rfl⟩ := subStep_inv h1
    split at h
    · simp only [pure_eq_ok, Except.ok.injEq] at h
      subst h; simp
    · have := subLoop_later h
      simp only at this
      omega

/-- No more water than in the saturated column, up to 2e-10 per sub-timestep. -/
def Capped (e : K) (steps : Int) (column : K) (m : K) : Prop := 0 ≤ steps ∧ m ≤ column * e + (steps : K) * 2e-10

theorem Steady.loop_cap {c : StepCfg K} {column : K} {s : SoilProps K} (ho : OneLayer c column s) (hone : s.thetaE ≤ 1) :
    ∀ {n : Nat} {st st' : SubSt K}, Steady c column s st → Capped s.thetaE st.timesteps column (mass c.geo.cum st.head) →
      subLoop c n st = .ok st' → column * s.thetaE + (st'.timesteps : K) * 2e-10 ≤ 49 + column * s.thetaR →
      Capped s.thetaE st'.timesteps column (mass c.geo.cum st'.head)
  | 0, st, st', hs, hc, h, _ => by simp [subLoop] at h; subst h; exact hc
  | n + 1, st, st', hs, hc, h, hmax => by
    have hlater := subLoop_later h
    unfold subLoop at h
    simp only [bind_ok_iff] at h
    obtain ⟨s1, h1, h⟩ := h
    have hcast : (st.timesteps : K) ≤ (st'.timesteps : K) := Int.cast_le.mpr hlater
    have h0 : (0 : K) ≤ (st.timesteps : K) := by exact_mod_cast hc.1
    have hb : max (column * s.thetaE) (mass c.geo.cum st.head) ≤ column * s.thetaE + (st.timesteps : K) * 2e-10 :=
      max_le (by have := mul_nonneg h0 (by norm_num : (0 : K) ≤ 2e-10); linarith) hc.2
    have hle : (st.timesteps : K) * 2e-10 ≤ (st'.timesteps : K) * 2e-10 := mul_le_mul_of_nonneg_right hcast (by norm_num)
    have hcap := hs.cap ho hone (by linarith) h1
    have hts : s1.timesteps = st.timesteps + 1 := by
      obtain ⟨aet, vs, h0, hsoil, f, l, ve, hh, -, -, -, -, -, -, -, -, -, -, rfl⟩ := subStep_inv h1
      rfl
    have hc1 : Capped s.thetaE s1.timesteps column (mass c.geo.cum s1.head) := by
      refine ⟨by rw [hts]; have := hc.1; omega, ?_⟩
      rw [hts, Int.cast_add, Int.cast_one, add_mul, one_mul]
      linarith
    split at h
    · simp only [pure_eq_ok, Except.ok.injEq] at h
      subst h; exact hc1
    · exact Steady.loop_cap ho hone (hs.step ho h1) hc1 h hmax

end Exact
end LGAR
