import Verif.Props.SpeedLaw
import Verif.Props.Soil
import Verif.Lemmas.Merge
/-
C104: a boundary between layers of the same soil is invisible to storage, to the speed of fronts and to fronts that cross it.
-/
set_option linter.unusedSectionVars false
namespace LGAR
attribute [-instance] Rat.instOfScientific

section Storage
variable {K : Type} [Field K] [LinearOrder K] [IsStrictOrderedRing K]

/-- The front one layer further down the list of layers: same place, same water. -/
def Front.shift (f : Front K) : Front K := { f with layer := f.layer + 1 }

theorem layerTop_insert_low {cum : List K} {k j : Nat} {z : K} (hk : 1 ≤ k) (hj : j ≤ k) (hlen : k ≤ cum.length) :
    layerTop (cum.take k ++ z :: cum.drop k) j = layerTop cum j := by
  unfold layerTop
  rw [List.getD_eq_getElem?_getD, List.getD_eq_getElem?_getD, List.getElem?_append_left (by simp; omega),
    List.getElem?_take_of_lt (by omega)]

theorem layerTop_insert_at {cum : List K} {k : Nat} {z : K} (hlen : k ≤ cum.length) :
    layerTop (cum.take k ++ z :: cum.drop k) (k + 1) = z := by
  unfold layerTop
  rw [List.getD_eq_getElem?_getD, List.getElem?_append_right (by simp)]
  simp [Nat.min_eq_left hlen]

theorem layerTop_insert_high {cum : List K} {k j : Nat} {z : K} (hj : k < j) (hlen : k ≤ cum.length) :
    layerTop (cum.take k ++ z :: cum.drop k) (j + 1) = layerTop cum j := by
  unfold layerTop
  rw [List.getD_eq_getElem?_getD, List.getD_eq_getElem?_getD, List.getElem?_append_right (by simp; omega)]
  simp only [List.length_take, Nat.min_eq_left hlen, Nat.add_sub_cancel]
  obtain ⟨m, rfl⟩ := Nat.exists_eq_add_of_lt hj
  rw [show k + m + 1 - k = m + 1 by omega, List.getElem?_cons_succ, List.getElem?_drop]
  rfl

theorem waterBelow_low {cum : List K} {k : Nat} {z : K} (hk : 1 ≤ k) (hlen : k ≤ cum.length) :
    ∀ (a : List (Front K)) (above : Option (Front K)), (∀ f ∈ a, f.layer ≤ k) →
      ∀ b b' : List (Front K), (∀ o, waterBelow (cum.take k ++ z :: cum.drop k) o b' = waterBelow cum o b) →
      waterBelow (cum.take k ++ z :: cum.drop k) above (a ++ b') = waterBelow cum above (a ++ b)
  | [], above, _, b, b', h => h above
  | f :: t, above, ha, b, b', h => by
    have ih := waterBelow_low hk hlen t (some f) (fun x hx => ha x (by simp [hx])) b b' h
    have hf := ha f (by simp)
    simp only [List.cons_append, waterBelow, ih, layerTop_insert_low hk hf hlen]

theorem waterBelow_deep {cum : List K} {k : Nat} {z : K} (hlen : k ≤ cum.length) : ∀ (d : List (Front K)) (f : Front K),
    (∀ x ∈ d, k < x.layer) →
    waterBelow (cum.take k ++ z :: cum.drop k) (some f.shift) (d.map Front.shift) = waterBelow cum (some f) d
  | [], _, _ => rfl
  | x :: t, f, h => by
    have ih := waterBelow_deep (z := z) hlen t x fun y hy => h y (by simp [hy])
    have hx := h x (by simp)
    simp only [List.map_cons, waterBelow, ih]
    simp only [Front.shift, Nat.add_right_cancel_iff, layerTop_insert_high hx hlen]

theorem waterBelow_same {cum : List K} {k : Nat} {z : K} (hlen : k ≤ cum.length) : ∀ (m d : List (Front K)) (f : Front K),
    f.layer = k → (∀ x ∈ m, x.layer = k) → (∀ x ∈ d, k < x.layer) →
    waterBelow (cum.take k ++ z :: cum.drop k) (some f.shift) ((m ++ d).map Front.shift) = waterBelow cum (some f) (m ++ d)
  | [], d, f, _, _, hd => waterBelow_deep hlen d f hd
  | x :: t, d, f, hf, hm, hd => by
    have hx := hm x (by simp)
    have ih := waterBelow_same (z := z) hlen t d x hx (fun y hy => hm y (by simp [hy])) hd
    simp only [List.cons_append, List.map_cons, waterBelow, ih]
    simp only [Front.shift, hf, hx, if_true]

/-- C104, storage: a boundary at depth `z` is drawn inside layer `k`.  The fronts of layer `k` above `z` stay, those below and those of deeper
layers are counted one layer further; the new boundary front at `z` has the moisture of the soil there, that of the first front below.
The water of the column is the same, and so is the storage the code computes. -/
theorem C104_storage (cum : List K) (k : Nat) (z : K) (top : List (Front K)) (p b : Front K) (below deep : List (Front K))
    (hk : 1 ≤ k) (hlen : k < cum.length) (htop : ∀ f ∈ top, f.layer ≤ k) (hp : p.layer = k) (hbelow : ∀ f ∈ below, f.layer = k)
    (hdeep : ∀ f ∈ deep, k < f.layer) (hb : b.layer = k) (hz : b.depth = z) (hth : b.theta = p.theta) :
    water (cum.take k ++ z :: cum.drop k) (top ++ b :: p.shift :: (below ++ deep).map Front.shift) =
      water cum (top ++ p :: (below ++ deep)) := by
  unfold water
  refine waterBelow_low hk hlen.le top none htop _ _ fun o => ?_
  have hs := waterBelow_same (z := z) hlen.le below deep p hp hbelow hdeep
  simp only [waterBelow]
  rw [hs]
  have e1 : p.shift.layer = k + 1 := by simp [Front.shift, hp]
  have e2 : p.shift.depth = p.depth := rfl
  have e3 : p.shift.theta = p.theta := rfl
  rw [e1, e2, e3, hb, hz, hth, hp, if_neg (by omega), layerTop_insert_at hlen.le, layerTop_insert_low hk le_rfl hlen.le]
  ring

end Storage

section Speed
variable {K : Type} [Field K] [LinearOrder K] [IsStrictOrderedRing K] [CMath K] [LawfulNum K]

theorem dzdtDenom_alike {g : Geo K} {layer : Nat} {psi Kc : K}
    (hK : ∀ k kk, 1 ≤ k → k < layer → layerK g k psi = .ok kk → kk = Kc) :
    ∀ {n k : Nat} {b d x y : K}, 1 ≤ k → k + n ≤ layer → dzdtDenom g layer psi n k b = .ok d → g.cum[k - 1]? = some x →
      g.cum[k - 1 + n]? = some y → d = b + (y - x) / Kc
  | 0, k, b, d, x, y, _, _, h, hx, hy => by
    rw [Nat.add_zero, hx, Option.some.injEq] at hy
    simp only [dzdtDenom, Except.ok.injEq] at h
    rw [hy, h]; simp
  | n + 1, k, b, d, x, y, h1, hn, h, hx, hy => by
    unfold dzdtDenom at h
    simp only [bind_ok_iff] at h
    obtain ⟨t, ht, h⟩ := h
    obtain ⟨kk, c1, c0, e1, _, e2, _, e3, rfl⟩ := dzdtTerm_val ht
    rw [e3, Option.some.injEq] at hx
    subst hx
    rw [hK _ _ (by omega) (by omega) e1] at h
    rw [dzdtDenom_alike hK (x := c1) (y := y) (by omega) (by omega) h (by simpa using e2)
      (by rw [← hy]; congr 1; omega)]
    ring

/-- C104, speed: where all layers down to that of the front conduct alike at its head (the same soil, equally frozen), the front moves in
layer 2 and deeper by the formula of the first layer. -/
theorem C104_speed (fuel : Nat) (closed : Bool) (nint : Int) (hp : K) (g : Geo K) (l l' : List (Front K)) (i : Nat) (c n : Front K)
    (h : dzdtCalc fuel closed nint hp g l = .ok l') (hc : l[i]? = some c) (hn : l[i + 1]? = some n) (hb : c.toBottom = false)
    (hl : 1 ≤ c.layer) (hstep : n.theta < c.theta) (h0 : g.cum[0]? = some 0)
    (hK : ∀ k kk, 1 ≤ k → k < c.layer → layerK g k c.psi = .ok kk → kk = c.K) :
    ∃ s ff G c', g.soil c.layer = .ok s ∧ g.frozen[c.layer]? = some ff ∧
      calcGeff fuel closed n.theta c.theta s.thetaE s.thetaR s.vgAlpha s.vgN s.vgM (s.Ksat * ff) nint s.bcLambda s.bcPsib = .ok G ∧
      l'[i]? = some c' ∧ c'.dzdt = limitSpeed (lgarSpeed (s.Ksat * ff) G hp c.K c.depth (c.theta - n.theta)) := by
  by_cases hl1 : c.layer = 1
  · obtain ⟨s, ff, G, c', k1, k2, k3⟩ := C95_first_layer fuel closed nint hp g l l' i c n h hc hn hb hl1 hstep
    exact ⟨s, ff, G, c', hl1 ▸ k1, hl1 ▸ k2, k3⟩
  obtain ⟨s, ff, G, bs, w, c', k1, k2, k3, k4, k5, k6, k7, -⟩ := dzdtCalc_speed h hc hn hb
  refine ⟨s, ff, G, c', k1, k2, k3, k6, ?_⟩
  rw [k7]
  unfold dzdtBottomSum at k4
  rw [if_pos (by omega)] at k4
  simp only [bind_ok_iff, idxPred_ok_iff, cdiv_ok, Except.ok.injEq] at k4
  obtain ⟨base, ⟨_, hbase⟩, q, ⟨hK0, rfl⟩, rfl⟩ := k4
  unfold dzdtRaw at k5
  dsimp only at k5
  rw [if_neg hl1] at k5
  simp only [bind_ok_iff] at k5
  obtain ⟨den, hden, k5⟩ := k5
  have hd' : den = c.depth / c.K := by
    rw [dzdtDenom_alike hK (x := 0) (y := base) le_rfl (by omega) hden h0 (by rw [← hbase]; congr 1; omega)]
    ring
  rw [if_pos (sub_pos.mpr hstep)] at k5
  simp only [bind_ok_iff, cdiv_ok, Except.ok.injEq] at k5
  obtain ⟨inv, ⟨_, rfl⟩, q, ⟨_, rfl⟩, q2, ⟨_, rfl⟩, rfl⟩ := k5
  congr 1
  unfold lgarSpeed
  rw [hd']
  field_simp

end Speed

/-- A front reaches past the bottom of its layer into a layer of the same soil, and below the boundary the soil has one
moisture.  Then it keeps its moisture and its depth: the crossing only counts it to the next layer and leaves behind a boundary front of
its own moisture. -/
theorem cross_alike (g : Geo ℝ) (a b : List (Front ℝ)) (c n nn : Front ℝ) (s : SoilProps ℝ) (bot : ℝ) (l' : List (Front ℝ))
    (hs : g.soil c.layer = .ok s) (hs2 : g.soil (c.layer + 1) = .ok s) (hphys : s.Physical)
    (hlo : s.thetaR < c.theta) (hhi : c.theta ≤ s.thetaE) (hbot : g.cum[c.layer]? = some bot) (hpast : bot < c.depth)
    (hn : n.depth = bot) (hlast : c.layer ≠ g.numLayers) (hsame : nn.theta = n.theta) (hstep : n.theta < c.theta)
    (h : crossStep g a.length (a ++ c :: n :: nn :: b) = .ok l') :
    ∃ c' n', l' = a ++ c' :: n' :: nn :: b ∧ c'.depth = bot ∧ c'.theta = c.theta ∧ c'.layer = c.layer ∧ c'.toBottom = true ∧
      n'.depth = c.depth ∧ n'.theta = c.theta ∧ n'.layer = c.layer + 1 ∧ n'.toBottom = false ∧ n'.dzdt = c.dzdt ∧ n'.psi = c'.psi := by
  have hu := h
  rcases crossStep_inv h with e | ⟨a', c1, n1, nn1, b', s1, ff, s2, bot1, psi, Kc, tn, Se, z, e, ha, h1, h2, h3, h4, h5, h6, h7, h8, h9, h10, h11, h12, rfl⟩
  · exfalso
    subst e
    unfold crossStep at hu
    have d0 : deref (a ++ c :: n :: nn :: b) a.length = .ok c := deref_ok_iff.2 (by simp)
    have d1 : deref (a ++ c :: n :: nn :: b) (a.length + 1) = .ok n := deref_ok_iff.2 (by simp)
    rw [d0, ok_bind, hs, ok_bind] at hu
    simp only [d1, bind_ok_iff, idx_ok_iff, hbot, Option.some.injEq, exists_eq_left', Except.ok.injEq] at hu
    obtain ⟨ff, _, hu⟩ := hu
    rw [if_pos ⟨hpast, by simp [hn], hlast⟩] at hu
    simp only [bind_ok_iff] at hu
    obtain ⟨s2, _, Se, _, psi, _, Kc, _, tn, _, m, _, hu⟩ := hu
    have key : ∀ x : Front ℝ, ((a ++ c :: n :: nn :: b).set a.length
        { c with depth := bot, psi := psi, K := Kc, dzdt := 0, toBottom := true }).set (a.length + 1) x ≠ a ++ c :: n :: nn :: b := by
      intro x e
      have e := congrArg (fun x => x[a.length]?) e
      simp only [List.getElem?_set_ne (show a.length + 1 ≠ a.length by omega)] at e
      rw [List.getElem?_set_self (by simp)] at e
      simp only [List.getElem?_append_right le_rfl, Nat.sub_self, List.getElem?_cons_zero, Option.some.injEq] at e
      have := congrArg Front.depth e
      simp only at this
      linarith
    split at hu
    · simp only [bind_ok_iff, pure_eq_ok, Except.ok.injEq] at hu
      obtain ⟨_, _, _, _, hu⟩ := hu
      exact key _ hu
    · simp only [bind_ok_iff, pure_eq_ok, Except.ok.injEq] at hu
      obtain ⟨_, _, hu⟩ := hu
      exact key _ hu
  · have el := List.append_inj e ha.symm
    simp only [List.cons.injEq] at el
    obtain ⟨rfl, rfl, rfl, rfl, rfl⟩ := el
    rw [hs, Except.ok.injEq] at h1; subst h1
    rw [hs2, Except.ok.injEq] at h7; subst h7
    rw [hbot, Option.some.injEq] at h3; subst h3
    have hgap := hphys.gap
    have hg0 : s.thetaE - s.thetaR ≠ 0 := by linarith
    rw [calcSeFromTheta_real hgap, Except.ok.injEq] at h8
    have hSe0 : 0 < Se := by rw [← h8]; exact div_pos (by linarith) (by linarith)
    have hSe1 : Se ≤ 1 := by rw [← h8, div_le_one (by linarith)]; linarith
    obtain ⟨hh, th, e1, e2, e3, e4⟩ := C21_saturation_roundtrip s hphys Se hSe0 hSe1
    rw [SoilProps.headAt, h9, Except.ok.injEq] at e1; subst e1
    rw [SoilProps.thetaAt, h11, Except.ok.injEq] at e3; subst e3
    rw [SoilProps.seOf, calcSeFromTheta_real hgap, Except.ok.injEq, ← h8] at e4
    have htn : tn = c.theta := by
      have := (div_left_inj' hg0).mp e4
      linarith
    subst htn
    have hne : c.theta - nn.theta ≠ 0 := by rw [hsame]; linarith
    rw [if_neg (by rw [divInf_iff]; exact fun h => hne h.1), cdiv_ok] at h12
    refine ⟨_, _, rfl, rfl, rfl, rfl, rfl, ?_, rfl, rfl, rfl, rfl, rfl⟩
    show bot + z = c.depth
    rw [h12.2, hn, fmin_eq, min_eq_right hhi, ← hsame, mul_div_cancel_right₀ _ hne]
    ring

/-- C104, crossing: a front reaches past the bottom of its layer into a layer of the same soil, and below the boundary the soil has one
moisture.  The crossing returns, and the front keeps its moisture, its speed and its depth: it is only counted to the next layer, and leaves
behind a boundary front of its own moisture. -/
theorem C104_cross (g : Geo ℝ) (a b : List (Front ℝ)) (c n nn : Front ℝ) (s : SoilProps ℝ) (bot ff : ℝ)
    (hs : g.soil c.layer = .ok s) (hs2 : g.soil (c.layer + 1) = .ok s) (hphys : s.Physical) (hff : g.frozen[c.layer]? = some ff)
    (hlo : s.thetaR < c.theta) (hhi : c.theta ≤ s.thetaE) (hbot : g.cum[c.layer]? = some bot) (hpast : bot < c.depth)
    (hn : n.depth = bot) (hlast : c.layer ≠ g.numLayers) (hsame : nn.theta = n.theta) (hstep : n.theta < c.theta) :
    ∃ c' n', crossStep g a.length (a ++ c :: n :: nn :: b) = .ok (a ++ c' :: n' :: nn :: b) ∧ c'.depth = bot ∧ c'.theta = c.theta ∧
      c'.layer = c.layer ∧ c'.toBottom = true ∧ n'.depth = c.depth ∧ n'.theta = c.theta ∧ n'.layer = c.layer + 1 ∧
      n'.toBottom = false ∧ n'.dzdt = c.dzdt ∧ n'.psi = c'.psi := by
  have hret : ∃ l', crossStep g a.length (a ++ c :: n :: nn :: b) = .ok l' := by
    have hgap := hphys.gap
    have hSe0 : 0 < (c.theta - s.thetaR) / (s.thetaE - s.thetaR) := div_pos (by linarith) (by linarith)
    have hSe1 : (c.theta - s.thetaR) / (s.thetaE - s.thetaR) ≤ 1 := by rw [div_le_one (by linarith)]; linarith
    obtain ⟨hh, th, e1, e2, e3, e4⟩ := C21_saturation_roundtrip s hphys _ hSe0 hSe1
    rw [SoilProps.headAt] at e1
    rw [SoilProps.thetaAt] at e3
    rw [SoilProps.seOf, calcSeFromTheta_real hgap, Except.ok.injEq] at e4
    have htn : th = c.theta := by
      have := (div_left_inj' (sub_pos.mpr hgap).ne').mp e4
      linarith
    subst htn
    have d0 : deref (a ++ c :: n :: nn :: b) a.length = .ok c := by simp [deref]
    have d1 : deref (a ++ c :: n :: nn :: b) (a.length + 1) = .ok n := by simp [deref]
    have d2 : deref (a ++ c :: n :: nn :: b) (a.length + 2) = .ok nn := by simp [deref]
    have hne : c.theta - nn.theta ≠ 0 := by rw [hsame]; linarith
    unfold crossStep
    simp only [d0, d1, d2, ok_bind, hs, hs2, idx, hff, hbot, calcSeFromTheta_real hgap, e1, e3, calcKFromSe_real hphys.m_pos hSe0.le hSe1]
    rw [if_pos ⟨hpast, by simpa using hn, hlast⟩, if_neg (by rw [divInf_iff]; exact fun h => hne h.1),
      (cdiv_ok).mpr ⟨hne, rfl⟩]
    exact ⟨_, rfl⟩
  obtain ⟨l', hl'⟩ := hret
  obtain ⟨c', n', rfl, h⟩ := cross_alike g a b c n nn s bot l' hs hs2 hphys hlo hhi hbot hpast hn hlast hsame hstep hl'
  exact ⟨c', n', hl', h⟩

open Sample in
/-- C104_storage: a boundary at 4 cm in the first of two layers, between the fronts at 3 and at 5 cm. -/
example : water [0, 4, 10, 30] ([fr 3 (3/10) 1 1 false] ++ fr 4 (2/10) 1 2 true :: (fr 5 (2/10) 1 2 false).shift ::
      ([fr 10 (1/10) 1 3 true] ++ [fr 30 (1/5) 2 4 true]).map Front.shift) =
    water [0, 10, 30] ([fr 3 (3/10) 1 1 false] ++ fr 5 (2/10) 1 2 false :: ([fr 10 (1/10) 1 3 true] ++ [fr 30 (1/5) 2 4 true])) ∧
    water [0, 10, 30] ([fr 3 (3/10) 1 1 false] ++ fr 5 (2/10) 1 2 false :: ([fr 10 (1/10) 1 3 true] ++ [fr 30 (1/5) 2 4 true])) =
      (29/5 : ℚ) :=
  ⟨C104_storage [0, 10, 30] 1 4 [fr 3 (3/10) 1 1 false] (fr 5 (2/10) 1 2 false) (fr 4 (2/10) 1 2 true) [fr 10 (1/10) 1 3 true]
    [fr 30 (1/5) 2 4 true] le_rfl (by decide) (by simp [fr]) rfl (by simp [fr]) (by simp [fr]) rfl rfl rfl,
    by norm_num [water, waterBelow, layerTop, fr]⟩

open Sample in
/-- C104_speed: two layers of one soil, the conductivity of the front in the second one is that of the first layer at its head. -/
example : okAnd (layerK { geo2 with soilType := [0, 1, 1] } 1 (225/4 : ℚ)) (fun k => decide (0 < k) &&
    okAnd (dzdtCalc 0 true 1 (1 : ℚ) { geo2 with soilType := [0, 1, 1] } [{ fr 10 (3/10) 1 1 true with psi := 225/4, K := k },
      { fr 15 (3/10) 2 2 false with psi := 225/4, K := k }, { fr 30 (1/10) 2 3 true with K := 1/50 }])
    (fun l' => (l'.map fun f => decide (0 < f.dzdt)) == [false, true, false])) = true ∧ geo2.cum[0]? = some (0 : ℚ) := by
  decide +kernel

/-- Two layers of loam. -/
noncomputable def geoLoams : Geo ℝ :=
  { numLayers := 2, cum := [0, 10, 30], soilType := [0, 1, 1], frozen := [1, 1, 1], soils := [loam, loam] }

/-- C104_cross: a front at 12 cm has passed the boundary at 10 cm. -/
example : ∃ c' n', crossStep geoLoams 0
      ([] ++ { depth := 12, theta := 3/10, psi := 0, K := 0, layer := 1, front := 1, toBottom := false, dzdt := 1 } ::
        { depth := 10, theta := 1/5, psi := 0, K := 0, layer := 1, front := 2, toBottom := true, dzdt := 0 } ::
        { depth := 30, theta := 1/5, psi := 0, K := 0, layer := 2, front := 3, toBottom := true, dzdt := 0 } :: []) =
      .ok ([] ++ c' :: n' :: { depth := 30, theta := 1/5, psi := 0, K := 0, layer := 2, front := 3, toBottom := true, dzdt := 0 } :: []) ∧
    c'.depth = 10 ∧ n'.depth = 12 ∧ n'.theta = 3/10 := by
  obtain ⟨c', n', h1, h2, -, -, -, h3, h4, -⟩ := C104_cross geoLoams []  []
    { depth := 12, theta := 3/10, psi := 0, K := 0, layer := 1, front := 1, toBottom := false, dzdt := 1 }
    { depth := 10, theta := 1/5, psi := 0, K := 0, layer := 1, front := 2, toBottom := true, dzdt := 0 }
    { depth := 30, theta := 1/5, psi := 0, K := 0, layer := 2, front := 3, toBottom := true, dzdt := 0 } loam 10 1
    (by simp [Geo.soil, geoLoams, idx, idxI, ok_bind]) (by simp [Geo.soil, geoLoams, idx, idxI, ok_bind]) loam_physical rfl
    (by norm_num [loam]) (by norm_num [loam]) rfl (by norm_num) rfl (by norm_num [geoLoams]) rfl (by norm_num)
  exact ⟨c', n', h1, h2, h3, h4⟩

end LGAR
