import Verif.Props.Speed
/-
C95: the speed of a wetting front is that of the LGAR equation.
-/
set_option linter.unusedSectionVars false
namespace LGAR
attribute [-instance] Rat.instOfScientific

section Field
variable {K : Type} [Field K] [LinearOrder K] [IsStrictOrderedRing K] [CMath K] [LawfulNum K]

/-- Flux below a front at depth z over the step in moisture: mean conductivity plus the pull of the capillary drive G and of the ponded
water h over the length z. -/
def lgarSpeed (Ks G h Kmean z step : K) : K := (Kmean + Ks * (G + h) / z) / step

/-- The speeds are kept away from zero and below 1e4 cm/h. -/
def limitSpeed (v : K) : K := if v = 0 then 1e-9 else if v ≤ 1e4 then v else 1e4

/-- Conductivity of z cm of soil of which the upper z1 cm have K1 and the others K2: lengths over conductivities add up. -/
def inSeries (z1 K1 z K2 : K) : K := z / (z1 / K1 + (z - z1) / K2)

theorem limitSpeed_eq (v : K) : dzdtClamp v = limitSpeed v := by
  have h0 : (1e-9 : K) ≤ 1e4 := by norm_num
  unfold dzdtClamp limitSpeed
  by_cases hv : v = 0
  · subst hv
    simp [not_lt.mpr h0]
  · simp only [beq_iff_eq, hv, if_false]
    by_cases h : v ≤ 1e4
    · rw [if_neg (not_lt.mpr h), if_pos h]
    · rw [if_pos (not_le.mp h), if_neg h]

theorem limitSpeed_mono {v w : K} (hv : 0 ≤ v) (h : v ≤ w) (hw : v = 0 → w = 0 ∨ 1e-9 ≤ w) : limitSpeed v ≤ limitSpeed w := by
  have h0 : (1e-9 : K) ≤ 1e4 := by norm_num
  unfold limitSpeed
  by_cases hv0 : v = 0
  · rw [if_pos hv0]
    by_cases hw0 : w = 0
    · rw [if_pos hw0]
    · rw [if_neg hw0]
      split
      · exact (hw hv0).resolve_left hw0
      · exact h0
  · have hw0 : w ≠ 0 := fun e => hv0 (le_antisymm (h.trans e.le) hv)
    rw [if_neg hv0, if_neg hw0]
    split
    · split
      · exact h
      · assumption
    · rename_i h1
      rw [if_neg (fun h2 => h1 (h.trans h2))]

/-- The speed that the speed calculation gives to the front `c` over `n` that moves. -/
theorem dzdtCalc_speed {fuel : Nat} {closed : Bool} {nint : Int} {hp : K} {g : Geo K} {l l' : List (Front K)}
    (h : dzdtCalc fuel closed nint hp g l = .ok l') {i : Nat} {c n : Front K} (hc : l[i]? = some c) (hn : l[i + 1]? = some n)
    (hb : c.toBottom = false) : ∃ s ff G bs w c', g.soil c.layer = .ok s ∧ g.frozen[c.layer]? = some ff ∧
      calcGeff fuel closed n.theta c.theta s.thetaE s.thetaR s.vgAlpha s.vgN s.vgM (s.Ksat * ff) nint s.bcLambda s.bcPsib = .ok G ∧
      dzdtBottomSum g c = .ok bs ∧ dzdtRaw g (s.Ksat * ff) G hp bs c n = .ok w ∧ l'[i]? = some c' ∧ c'.dzdt = limitSpeed w ∧
      n.theta ≤ c.theta ∧ 0 ≤ c.K := by
  obtain ⟨_, hg⟩ := dzdtCalc_go h
  obtain ⟨hk, _, hall⟩ := (dzdtGo_get hg).2 i c hc
  obtain ⟨s, ff, v, hs, hff, hv, he⟩ := hall n hn
  rw [dzdtVel, if_neg (by simp [hb]), dzdtOne] at hv
  simp only [bind_ok_iff] at hv
  obtain ⟨bs, hbs, hv⟩ := hv
  split at hv
  · cases hv
  · rename_i hcn
    simp only [bind_ok_iff, pure_eq_ok, Except.ok.injEq] at hv
    obtain ⟨G, hG, w, hw, rfl⟩ := hv
    exact ⟨s, ff, G, bs, w, _, hs, hff, hG, hbs, hw, he, limitSpeed_eq w, not_lt.mp hcn, not_lt.mp hk⟩

/-- C95, first layer: conductivity of the wetted soil plus the pull at the front, over the step in moisture. -/
theorem C95_first_layer (fuel : Nat) (closed : Bool) (nint : Int) (hp : K) (g : Geo K) (l l' : List (Front K)) (i : Nat) (c n : Front K)
    (h : dzdtCalc fuel closed nint hp g l = .ok l') (hc : l[i]? = some c) (hn : l[i + 1]? = some n) (hb : c.toBottom = false)
    (hl : c.layer = 1) (hstep : n.theta < c.theta) :
    ∃ s ff G c', g.soil 1 = .ok s ∧ g.frozen[1]? = some ff ∧
      calcGeff fuel closed n.theta c.theta s.thetaE s.thetaR s.vgAlpha s.vgN s.vgM (s.Ksat * ff) nint s.bcLambda s.bcPsib = .ok G ∧
      l'[i]? = some c' ∧ c'.dzdt = limitSpeed (lgarSpeed (s.Ksat * ff) G hp c.K c.depth (c.theta - n.theta)) := by
  obtain ⟨s, ff, G, bs, w, c', h1, h2, h3, h4, h5, h6, h7, -⟩ := dzdtCalc_speed h hc hn hb
  rw [hl] at h1 h2
  refine ⟨s, ff, G, c', h1, h2, h3, h6, ?_⟩
  rw [h7]
  unfold dzdtRaw at h5
  dsimp only at h5
  rw [if_pos hl, if_pos (sub_pos.mpr hstep)] at h5
  simp only [bind_ok_iff, cdiv_ok, Except.ok.injEq] at h5
  obtain ⟨inv, ⟨_, rfl⟩, q, ⟨_, rfl⟩, rfl⟩ := h5
  congr 1
  unfold lgarSpeed
  ring

/-- C95, second layer: the conductivities of the layers the front has passed act in series. -/
theorem C95_second_layer (fuel : Nat) (closed : Bool) (nint : Int) (hp : K) (g : Geo K) (l l' : List (Front K)) (i : Nat) (c n : Front K)
    (z1 K1 : K) (h : dzdtCalc fuel closed nint hp g l = .ok l') (hc : l[i]? = some c) (hn : l[i + 1]? = some n)
    (hb : c.toBottom = false) (hl : c.layer = 2) (hstep : n.theta < c.theta) (h0 : g.cum[0]? = some 0) (h1 : g.cum[1]? = some z1)
    (hK : layerK g 1 c.psi = .ok K1) :
    ∃ s ff G c', g.soil 2 = .ok s ∧ g.frozen[2]? = some ff ∧
      calcGeff fuel closed n.theta c.theta s.thetaE s.thetaR s.vgAlpha s.vgN s.vgM (s.Ksat * ff) nint s.bcLambda s.bcPsib = .ok G ∧
      l'[i]? = some c' ∧
      c'.dzdt = limitSpeed (lgarSpeed (s.Ksat * ff) G hp (inSeries z1 K1 c.depth c.K) c.depth (c.theta - n.theta)) := by
  obtain ⟨s, ff, G, bs, w, c', k1, k2, k3, k4, k5, k6, k7, -⟩ := dzdtCalc_speed h hc hn hb
  rw [hl] at k1 k2
  refine ⟨s, ff, G, c', k1, k2, k3, k6, ?_⟩
  rw [k7]
  unfold dzdtBottomSum at k4
  rw [if_pos (by omega), hl] at k4
  simp only [bind_ok_iff, idxPred_ok_iff, cdiv_ok, Except.ok.injEq] at k4
  obtain ⟨base, ⟨_, hbase⟩, q, ⟨_, rfl⟩, rfl⟩ := k4
  rw [show 2 - 1 = 1 from rfl, h1, Option.some.injEq] at hbase
  subst hbase
  unfold dzdtRaw at k5
  dsimp only at k5
  rw [if_neg (by omega), hl] at k5
  simp only [bind_ok_iff] at k5
  obtain ⟨den, hden, k5⟩ := k5
  have hd : den = z1 / K1 + (c.depth - z1) / c.K := by
    simp only [dzdtDenom, bind_ok_iff, Except.ok.injEq] at hden
    obtain ⟨t, ht, rfl⟩ := hden
    obtain ⟨kk, c1, c0, e1, _, e2, _, e3, rfl⟩ := dzdtTerm_val ht
    rw [show 2 - 1 = 1 from rfl, hK, Except.ok.injEq] at e1
    rw [h1, Option.some.injEq] at e2
    rw [show 1 - 1 = 0 from rfl, h0, Option.some.injEq] at e3
    subst e1 e2 e3
    rw [zero_add, sub_zero, add_comm]
  rw [if_pos (sub_pos.mpr hstep)] at k5
  simp only [bind_ok_iff, cdiv_ok, Except.ok.injEq] at k5
  obtain ⟨inv, ⟨_, rfl⟩, q, ⟨_, rfl⟩, q2, ⟨_, rfl⟩, rfl⟩ := k5
  congr 1
  unfold lgarSpeed inSeries
  rw [hd]
  ring

/-- C95: a front as wet as the soil below creeps with the smallest speed. -/
theorem C95_no_step (fuel : Nat) (closed : Bool) (nint : Int) (hp : K) (g : Geo K) (l l' : List (Front K)) (i : Nat) (c n : Front K)
    (h : dzdtCalc fuel closed nint hp g l = .ok l') (hc : l[i]? = some c) (hn : l[i + 1]? = some n) (hb : c.toBottom = false)
    (hstep : n.theta = c.theta) : ∃ c', l'[i]? = some c' ∧ c'.dzdt = 1e-9 := by
  obtain ⟨s, ff, G, bs, w, c', k1, k2, k3, k4, k5, k6, k7, -⟩ := dzdtCalc_speed h hc hn hb
  refine ⟨c', k6, ?_⟩
  have hw : w = 0 := by
    unfold dzdtRaw at k5
    dsimp only at k5
    have hz : ¬ 0 < c.theta - n.theta := by rw [hstep, sub_self]; exact lt_irrefl 0
    split at k5
    · simpa using k5.symm
    · simp only [bind_ok_iff] at k5
      obtain ⟨_, _, k5⟩ := k5
      simpa using k5.symm
  rw [k7, hw, limitSpeed, if_pos rfl]

end Field

/-- C95: of two fronts in the first layer with the same moisture, head and soil below, the deeper one is not the faster one. -/
theorem C95_deeper_slower (fuel : Nat) (closed : Bool) (nint : Int) (hp : ℝ) (g : Geo ℝ) (l l' m m' : List (Front ℝ)) (i j : Nat)
    (c n d k : Front ℝ) (hsoil : ∀ k s, g.soil k = .ok s → s.Usable) (hfrozen : ∀ (k : Nat) f, g.frozen[k]? = some f → 0 < f)
    (hp0 : 0 ≤ hp) (h : dzdtCalc fuel closed nint hp g l = .ok l') (h' : dzdtCalc fuel closed nint hp g m = .ok m')
    (hc : l[i]? = some c) (hn : l[i + 1]? = some n) (hd : m[j]? = some d) (hk : m[j + 1]? = some k)
    (hcb : c.toBottom = false) (hdb : d.toBottom = false) (hcl : c.layer = 1) (hdl : d.layer = 1) (hstep : n.theta < c.theta)
    (e1 : d.theta = c.theta) (e2 : k.theta = n.theta) (e3 : d.K = c.K) (hKpos : 0 < c.K)
    (hrange : ∀ s, g.soil 1 = .ok s → s.thetaR ≤ n.theta ∧ c.theta ≤ s.thetaE) (hz : 0 < c.depth) (hdeep : c.depth ≤ d.depth) :
    ∃ c' d', l'[i]? = some c' ∧ m'[j]? = some d' ∧ d'.dzdt ≤ c'.dzdt := by
  obtain ⟨s, ff, G, c', k1, k2, k3, k4, k5⟩ := C95_first_layer fuel closed nint hp g l l' i c n h hc hn hcb hcl hstep
  obtain ⟨s', ff', G', d', q1, q2, q3, q4, q5⟩ := C95_first_layer fuel closed nint hp g m m' j d k h' hd hk hdb hdl (by rw [e1, e2]; exact hstep)
  rw [k1, Except.ok.injEq] at q1; subst q1
  rw [k2, Option.some.injEq] at q2; subst q2
  rw [e1, e2, k3, Except.ok.injEq] at q3; subst q3
  refine ⟨c', d', k4, q4, ?_⟩
  rw [k5, q5, e1, e2, e3]
  have hu := hsoil _ _ k1
  have hr := hrange s k1
  have hG : 0 ≤ G := geff_nonneg hu.phys.gap hr.1 hstep.le hr.2 hu.lam hu.psib k3
  have hKs : 0 ≤ s.Ksat * ff := mul_nonneg hu.phys.ksat.le (hfrozen _ _ k2).le
  have hst : 0 < c.theta - n.theta := sub_pos.mpr hstep
  have hq : 0 ≤ s.Ksat * ff * (G + hp) := mul_nonneg hKs (by linarith)
  have hd0 : 0 < d.depth := lt_of_lt_of_le hz hdeep
  have hpos : 0 < lgarSpeed (s.Ksat * ff) G hp c.K d.depth (c.theta - n.theta) := by
    unfold lgarSpeed
    have := div_nonneg hq hd0.le
    positivity
  refine limitSpeed_mono hpos.le ?_ (fun e => absurd e hpos.ne')
  unfold lgarSpeed
  have := div_le_div_of_nonneg_left hq hz hdeep
  gcongr

/-- C95: with more water ponded on the surface no front of the first layer gets slower. -/
theorem C95_ponding_faster (fuel : Nat) (closed : Bool) (nint : Int) (hp hp' : ℝ) (g : Geo ℝ) (l l1 l2 : List (Front ℝ)) (i : Nat)
    (c n : Front ℝ) (hsoil : ∀ k s, g.soil k = .ok s → s.Usable) (hfrozen : ∀ (k : Nat) f, g.frozen[k]? = some f → 0 < f)
    (hp0 : 0 ≤ hp) (hpp : hp ≤ hp') (h : dzdtCalc fuel closed nint hp g l = .ok l1) (h' : dzdtCalc fuel closed nint hp' g l = .ok l2)
    (hc : l[i]? = some c) (hn : l[i + 1]? = some n) (hcb : c.toBottom = false) (hcl : c.layer = 1) (hstep : n.theta < c.theta)
    (hKpos : 0 < c.K) (hrange : ∀ s, g.soil 1 = .ok s → s.thetaR ≤ n.theta ∧ c.theta ≤ s.thetaE) (hz : 0 < c.depth) :
    ∃ c1 c2, l1[i]? = some c1 ∧ l2[i]? = some c2 ∧ c1.dzdt ≤ c2.dzdt := by
  obtain ⟨s, ff, G, c', k1, k2, k3, k4, k5⟩ := C95_first_layer fuel closed nint hp g l l1 i c n h hc hn hcb hcl hstep
  obtain ⟨s', ff', G', d', q1, q2, q3, q4, q5⟩ := C95_first_layer fuel closed nint hp' g l l2 i c n h' hc hn hcb hcl hstep
  rw [k1, Except.ok.injEq] at q1; subst q1
  rw [k2, Option.some.injEq] at q2; subst q2
  rw [k3, Except.ok.injEq] at q3; subst q3
  refine ⟨c', d', k4, q4, ?_⟩
  rw [k5, q5]
  have hu := hsoil _ _ k1
  have hr := hrange s k1
  have hG : 0 ≤ G := geff_nonneg hu.phys.gap hr.1 hstep.le hr.2 hu.lam hu.psib k3
  have hKs : 0 ≤ s.Ksat * ff := mul_nonneg hu.phys.ksat.le (hfrozen _ _ k2).le
  have hst : 0 < c.theta - n.theta := sub_pos.mpr hstep
  have hq : 0 ≤ s.Ksat * ff * (G + hp) := mul_nonneg hKs (by linarith)
  have hpos : 0 < lgarSpeed (s.Ksat * ff) G hp c.K c.depth (c.theta - n.theta) := by
    unfold lgarSpeed
    have := div_nonneg hq hz.le
    positivity
  refine limitSpeed_mono hpos.le ?_ (fun e => absurd e hpos.ne')
  unfold lgarSpeed
  gcongr

/-- The speed calculation returns for a pair of fronts at depths z and 100 cm in the first layer. -/
theorem pair_speed (hp z : ℝ) (hz : 0 < z) : ∃ l', dzdtCalc 0 true 1 hp geoLoam
    (movingPair.map fun f => if f.front = 1 then { f with depth := z } else f) = .ok l' := by
  obtain ⟨G, hG, -, -⟩ := C23_closed_form 0 (1/4) (1/2) loam.thetaE loam.thetaR loam.vgAlpha loam.vgN loam.vgM (loam.Ksat * 1)
    loam.bcLambda loam.bcPsib 1 (by norm_num [loam]) (by norm_num [loam]) (by norm_num) (by norm_num [loam]) (by norm_num [loam])
    (by norm_num [loam])
  have hs : geoLoam.soil 1 = .ok loam := by simp [Geo.soil, geoLoam, idx, idxI, ok_bind]
  have hf : idx geoLoam.frozen 1 = .ok 1 := by simp [geoLoam, idx]
  simp only [movingPair, List.map_cons, List.map_nil, dzdtCalc, List.isEmpty_cons, Bool.false_eq_true, if_false, dzdtGo, hs, hf, ok_bind,
    dzdtVel, dzdtOne, dzdtBottomSum]
  norm_num [ok_bind, hG, dzdtRaw, cdiv, hz.ne']
  exact ⟨_, loam, hs, 1, hf, G, hG, _, if_pos ((LawfulNum.divOk_iff _ _).mpr (by norm_num)), _,
    if_pos ((LawfulNum.divOk_iff _ _).mpr hz.ne'), ⟨_, hs⟩, ⟨_, hf⟩, rfl⟩

example : ∃ l' m', dzdtCalc 0 true 1 (2 : ℝ) geoLoam (movingPair.map fun f => if f.front = 1 then { f with depth := 10 } else f) = .ok l' ∧
    dzdtCalc 0 true 1 (2 : ℝ) geoLoam (movingPair.map fun f => if f.front = 1 then { f with depth := 20 } else f) = .ok m' := by
  obtain ⟨a, ha⟩ := pair_speed 2 10 (by norm_num)
  obtain ⟨b, hb⟩ := pair_speed 2 20 (by norm_num)
  exact ⟨a, b, ha, hb⟩

open Sample in
/-- C95_first_layer, C95_second_layer, C95_no_step: one front in each of two layers, and one as wet as the soil below. -/
example : okAnd (dzdtCalc 0 true 1 (1 : ℚ) geo2 [{ fr 5 (3/10) 1 1 false with K := 1/10 }, { fr 10 (2/10) 1 2 true with K := 1/20 },
    { fr 15 (3/10) 2 3 false with K := 1/20 }, { fr 20 (1/10) 2 4 false with K := 1/50 }, { fr 30 (1/10) 2 5 true with K := 1/50 }])
    (fun l' => l'.length == 5 && (l'.map fun f => decide (0 < f.dzdt)) == [true, false, true, true, false]) = true ∧
    okAnd (layerK geo2 1 (fr 15 (3/10) 2 3 false : Front ℚ).psi) (fun k => 0 < k) = true ∧ geo2.cum[0]? = some (0 : ℚ) := by
  decide +kernel

end LGAR
