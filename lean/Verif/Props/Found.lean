import Verif.Lemmas.Slope
import Verif.Props.Carry
/-
C89, C104 and C105 where the search for the moisture of a moved front succeeds.
-/
namespace LGAR

/-- C89, success: where the water content changes neither too little nor too much with the head and the head sought is not near
zero (`Gentle`), the search finds the moisture: the stack has the wanted water to 1e-12 cm and the ET demand is unchanged. -/
theorem C89_found (g : Geo ℝ) (layer : Nat) (s : SoilProps ℝ) (sl : List Slab) (dTheta dThick : List ℝ)
    (psi newMass prior aet h' lo hi n : ℝ) (hd : SlabsOf g dTheta dThick layer sl) (ht : ∀ x ∈ sl, 0 ≤ x.thick)
    (hp : ∀ k q, 1 ≤ k → g.soil k = .ok q → q.Physical) (h1 : 1 ≤ layer) (hg : g.soil layer = .ok s)
    (hnew : newMass = stackWater sl psi) (hsol : stackWater sl h' = prior) (hgen : Gentle sl psi h' lo hi n) :
    ∃ h N, (∀ fuel, N ≤ fuel →
        thetaMassBalance fuel g layer s psi newMass prior aet dTheta dThick = .ok (some (moistAt s h), aet)) ∧ 0 ≤ h ∧
      |stackWater sl h - prior| ≤ 1e-12 := by
  have hs : SlabsOk sl := by
    intro x hx
    obtain ⟨i, hi⟩ := List.mem_iff_getElem?.mp hx
    exact ⟨ht x hx, hp _ _ (by omega) (hd.2 i x hi).2.2⟩
  have hs0 := hp layer s h1 hg
  obtain ⟨mu, L, hst⟩ := hgen.steady hs
  obtain ⟨r, hN0, N, hN1⟩ := thetaMassBalance_finishes (g := g) (layer := layer) (s := s) (dTheta := dTheta) (dThick := dThick)
    (prior := prior) (psi := psi) (newMass := newMass) (aet := aet)
    (fun k q hk hq => ⟨(hp k q hk hq).alpha, (hp k q hk hq).n_pos⟩) hs0.alpha hs0.n_pos
  dsimp only at hN1
  subst hsol
  rcases thetaMassBalance_converges (aet := aet) hd hs h1 hg (fuel := N) hst ⟨hgen.from_lo, hgen.from_hi⟩ hnew with he | ⟨h, he, k1, k2⟩
  · rw [hN1 N le_rfl] at he
    exact absurd he hN0
  · exact ⟨h, N, fun fuel hf => by rw [hN1 fuel hf, ← hN1 N le_rfl]; exact he, k1, k2⟩

/-- C105 in layer 2 and deeper, success: the water above the moved front is the water before (plus rain less ET, if it is the
free-drainage front) to 1e-12 cm, and the ET demand is unchanged. -/
theorem C105_inner_found (g : Geo ℝ) (hg : Ground g) (hall : ∀ k q, 1 ≤ k → g.soil k = .ok q → q.Physical) (dt precip aet : ℝ)
    (isFd : Bool) (c n old oldNext : Front ℝ) (s : SoilProps ℝ) (before after : List Slab) (h1 : 1 ≤ c.layer)
    (h2 : c.layer ≤ g.numLayers) (hs : g.soil c.layer = .ok s) (hc : c.theta = moistAt s c.psi) (hn : n.theta = moistAt s n.psi)
    (ho : old.theta = moistAt s old.psi) (hon : oldNext.theta = moistAt s oldNext.psi) (pc : 0 ≤ c.psi) (pn : 0 ≤ n.psi)
    (po : 0 ≤ old.psi) (pon : 0 ≤ oldNext.psi) (hbefore : StackTo g (fun q => moistAt q oldNext.psi) old.depth c.layer before)
    (hafter : StackTo g (fun q => moistAt q n.psi) (c.depth + c.dzdt * dt) c.layer after)
    (htop : layerTop g.cum c.layer ≤ c.depth + c.dzdt * dt) (h' lo hi N : ℝ)
    (hsol : stackWater after h' = stackWater before old.psi + (if isFd then precip - aet else 0))
    (hgen : Gentle after c.psi h' lo hi N) :
    ∃ h N, (∀ fuel, N ≤ fuel → moveInner fuel g dt precip isFd c n old oldNext oldNext s aet =
        .ok ({ c with depth := c.depth + c.dzdt * dt, theta := moistAt s h }, aet)) ∧ 0 ≤ h ∧
      |stackWater after h - (stackWater before old.psi + (if isFd then precip - aet else 0))| ≤ 1e-12 := by
  obtain ⟨dTheta, dThick, newMass, hsl, hnew, hmove⟩ := moveInner_search g hg hall dt precip aet isFd c n old oldNext s before after h1 h2
    hs hc hn ho hon pc pn po pon hbefore hafter
  obtain ⟨h, M, r1, r2, r3⟩ := C89_found g c.layer s after _ _ c.psi newMass _ aet h' lo hi N hsl (hafter.thick_nonneg hg h2 htop) hall h1
    hs hnew hsol hgen
  exact ⟨h, M, fun fuel hf => hmove fuel h aet r2 (r1 fuel hf), r2, r3⟩

/-- C105 for the deepest front of a column with one front per layer, success. -/
theorem C105_deepest_found (g : Geo ℝ) (hg : Ground g) (hall : ∀ k q, 1 ≤ k → g.soil k = .ok q → q.Physical) (dt precip aet : ℝ)
    (isFd : Bool) (c old : Front ℝ) (s : SoilProps ℝ) (before after : List Slab) (h1 : 1 ≤ c.layer) (h2 : c.layer ≤ g.numLayers)
    (hs : g.soil c.layer = .ok s) (hc : c.theta = moistAt s c.psi) (ho : old.theta = moistAt s old.psi) (pc : 0 ≤ c.psi)
    (po : 0 ≤ old.psi) (hbefore : StackTo g (fun _ => 0) old.depth c.layer before)
    (hafter : StackTo g (fun _ => 0) (c.depth + c.dzdt * dt) c.layer after)
    (htop : layerTop g.cum c.layer ≤ c.depth + c.dzdt * dt) (h' lo hi N : ℝ)
    (hsol : stackWater after h' = stackWater before old.psi + (if isFd then precip - aet else 0))
    (hgen : Gentle after c.psi h' lo hi N) :
    ∃ h psi N, (∀ fuel, N ≤ fuel → moveDeepest fuel g dt precip isFd c old s aet =
        .ok ({ c with depth := c.depth + c.dzdt * dt, theta := moistAt s h, psi := psi }, aet)) ∧ 0 ≤ h ∧ 0 ≤ psi ∧
      moistAt s psi = moistAt s h ∧
      |stackWater after h - (stackWater before old.psi + (if isFd then precip - aet else 0))| ≤ 1e-12 := by
  obtain ⟨dTheta, dThick, newMass, hsl, hnew, hmove⟩ := moveDeepest_search g hg hall dt precip aet isFd c old s before after h1 h2 hs hc ho
    pc po hbefore hafter
  obtain ⟨h, M, r1, r2, r3⟩ := C89_found g c.layer s after _ _ c.psi newMass _ aet h' lo hi N hsl (hafter.thick_nonneg hg h2 htop) hall h1
    hs hnew hsol hgen
  obtain ⟨psi, q1, q2, q3⟩ := hmove h r2
  exact ⟨h, psi, M, fun fuel hf => q3 fuel aet (r1 fuel hf), r2, q1, q2, r3⟩

/-- Slope of whole layers of one soil. -/
theorem stackSlope_one {g : Geo ℝ} {s : SoilProps ℝ} {b : SoilProps ℝ → ℝ} {h : ℝ} : ∀ {o : List Slab} {k : Nat}, 1 ≤ k → Whole g b k o →
    (∀ i, i < o.length → g.soil (k + i) = .ok s) →
    stackSlope o h = (layerTop g.cum (k + o.length) - layerTop g.cum k) * slopeAt s h
  | [], k, _, _, _ => by simp [stackSlope]
  | x :: o, k, hk, ho, hs => by
    obtain ⟨a1, a2, a3⟩ := ho.head
    have := hs 0 (by simp)
    rw [Nat.add_zero, a1, Except.ok.injEq] at this
    have ih := stackSlope_one (h := h) (k := k + 1) (by omega) ho.tail (fun i hi => by
      have := hs (i + 1) (by simpa using hi)
      rwa [show k + (i + 1) = k + 1 + i by omega] at this)
    unfold stackSlope at ih ⊢
    rw [List.map_cons, List.sum_cons, ih, a3, this, List.length_cons, show k + (o.length + 1) = k + 1 + o.length by omega]
    ring

theorem StackTo.slope_one {g : Geo ℝ} {s : SoilProps ℝ} {b : SoilProps ℝ → ℝ} {h z : ℝ} {layer : Nat} {sl : List Slab}
    (hst : StackTo g b z layer sl) (h1 : 1 ≤ layer) (h0 : g.cum[0]? = some 0)
    (hs : ∀ k, 1 ≤ k → k ≤ layer → g.soil k = .ok s) : stackSlope sl h = z * slopeAt s h := by
  obtain ⟨o, x, rfl, o1, o2, o3, o4, o5⟩ := hst.split h1
  rw [hs layer h1 le_rfl, Except.ok.injEq] at o3
  have t0 : layerTop g.cum 1 = 0 := by unfold layerTop; rw [List.getD_eq_getElem?_getD, h0]; rfl
  have := stackSlope_one (h := h) le_rfl o2 fun i hi => hs _ (by omega) (by omega)
  unfold stackSlope at this ⊢
  rw [List.map_append, List.sum_append, this]
  simp only [List.map_cons, List.map_nil, List.sum_cons, List.sum_nil, o5, ← o3, t0, o1]
  rw [show 1 + (layer - 1) = layer by omega]
  ring

theorem StackTo.soils {g : Geo ℝ} {s : SoilProps ℝ} {b : SoilProps ℝ → ℝ} {z : ℝ} {layer : Nat} {sl : List Slab}
    (hst : StackTo g b z layer sl) (hs : ∀ k, 1 ≤ k → k ≤ layer → g.soil k = .ok s) {x : Slab} (hx : x ∈ sl) : x.soil = s := by
  obtain ⟨i, hi⟩ := List.mem_iff_getElem?.mp hx
  have hlt := (List.getElem?_eq_some_iff.mp hi).1
  rw [hst.length] at hlt
  have := hst.soil i x hi
  rwa [hs (i + 1) (by omega) (by omega), Except.ok.injEq, eq_comm] at this

/-- C104, movement, success: in layers of one soil a front of layer 2 or deeper moves by the formula of the first layer,
`theta = theta below + water / depth`, to 1e-12 cm of water, if the head `h'` of that moisture is not near zero and the slope of the
soil's moisture curve there is not extreme. -/
theorem C104_move_found (g : Geo ℝ) (hg : Ground g) (hall : ∀ k q, 1 ≤ k → g.soil k = .ok q → q.Physical) (dt precip aet : ℝ)
    (isFd : Bool) (c n old oldNext : Front ℝ) (s : SoilProps ℝ) (h1 : 1 ≤ c.layer) (h2 : c.layer ≤ g.numLayers)
    (hs : ∀ k, 1 ≤ k → k ≤ c.layer → g.soil k = .ok s) (hc : c.theta = moistAt s c.psi) (hn : n.theta = moistAt s n.psi)
    (ho : old.theta = moistAt s old.psi) (hon : oldNext.theta = moistAt s oldNext.psi) (pc : 0 ≤ c.psi) (pn : 0 ≤ n.psi)
    (po : 0 ≤ old.psi) (pon : 0 ≤ oldNext.psi) (htop : layerTop g.cum c.layer ≤ c.depth + c.dzdt * dt) (z water h' lo hi : ℝ)
    (hz : z = c.depth + c.dzdt * dt) (hz0 : 0 < z)
    (hw : water = old.depth * (old.theta - oldNext.theta) + (if isFd then precip - aet else 0))
    (hsol : moistAt s h' = n.theta + water / z) (hlo : 0 < lo) (hhi : hi ≤ 1e7) (hfrom : lo ≤ c.psi ∧ c.psi ≤ hi)
    (hbelow : lo ≤ h' - 10 * max 1 (c.psi / 100)) (habove : h' + 10 * max 1 (c.psi / 100) ≤ hi) (hratio : (hi / lo) ^ s.vgN ≤ 90)
    (hsteep : (hi / lo) ^ s.vgN * 1e-13 ≤ z * slopeAt s h') (hflat : (hi / lo) ^ s.vgN * (z * slopeAt s h') ≤ 10) :
    ∃ th N, (∀ fuel, N ≤ fuel → moveInner fuel g dt precip isFd c n old oldNext oldNext s aet =
        .ok ({ c with depth := z, theta := th }, aet)) ∧ |th - (n.theta + water / z)| ≤ 1e-12 / z := by
  obtain ⟨before, hbefore⟩ := stack_exists hg (fun q => moistAt q oldNext.psi) old.depth h2
  obtain ⟨after, hafter⟩ := stack_exists hg (fun q => moistAt q n.psi) z h2
  have e1 : ∀ h, stackWater after h = z * (moistAt s h - n.theta) := fun h => by rw [hafter.one h1 hg.top hs, hn]
  have e2 : stackWater before old.psi = old.depth * (old.theta - oldNext.theta) := by
    rw [hbefore.one h1 hg.top hs, ho, hon]
  have e3 : stackSlope after h' = z * slopeAt s h' := hafter.slope_one h1 hg.top hs
  obtain ⟨h, N, r1, r2, r3⟩ := C105_inner_found g hg hall dt precip aet isFd c n old oldNext s before after h1 h2 (hs _ h1 le_rfl) hc hn
    ho hon pc pn po pon hbefore (hz ▸ hafter) htop h' lo hi s.vgN (by rw [e1, e2, ← hw, hsol]; field_simp; ring)
    ⟨hlo, hhi, hfrom.1, hfrom.2, hbelow, habove, fun x hx => by rw [hafter.soils hs hx], hratio, by rw [e3]; exact hsteep,
      by rw [e3]; exact hflat⟩
  rw [e1, e2, ← hw] at r3
  refine ⟨moistAt s h, N, fun fuel hf => by rw [r1 fuel hf, hz], ?_⟩
  have e4 : z * (moistAt s h - n.theta) - water = z * (moistAt s h - (n.theta + water / z)) := by field_simp; ring
  rw [e4, abs_mul, abs_of_pos hz0] at r3
  rw [le_div_iff₀ hz0, mul_comm]
  exact r3

/-- The slope of the loam at a head. -/
theorem slopeAt_loam {x y : ℝ} (hy : 0 < y) (h : 1 + (x / 100) ^ 2 = y ^ 2) : slopeAt loam x = x / 10000 / y ^ 3 := by
  have e0 : loam.vgAlpha * x = x / 100 := by norm_num [loam]; ring
  have e1 : (loam.vgAlpha * x) ^ loam.vgN = (x / 100) ^ 2 := by
    rw [e0, show loam.vgN = ((2 : ℕ) : ℝ) by norm_num [loam], Real.rpow_natCast]
  have e2 : (y ^ 2 : ℝ) ^ (loam.vgM + 1) = y ^ 3 := by
    rw [show loam.vgM + 1 = 3 / 2 by norm_num [loam], ← Real.rpow_natCast, ← Real.rpow_mul hy.le, ← Real.rpow_natCast]
    norm_num
  unfold slopeAt
  rw [e1, h, e2, show loam.vgN - 1 = 1 by norm_num [loam], Real.rpow_one, e0]
  norm_num [loam]
  ring

/-- C104_move_found: the free-drainage front at 15 cm in the second layer of loam, moisture 0.8 over 0.6, moves by 1 cm and takes in
0.2 cm; it keeps its moisture of 0.8 to 1e-13. -/
example : ∃ th N, (∀ fuel, N ≤ fuel → moveInner fuel geoLoams 1 (3/10) true
      { depth := 15, theta := 4/5, psi := 75, K := 0, layer := 2, front := 2, toBottom := false, dzdt := 1 }
      { depth := 30, theta := 3/5, psi := 400/3, K := 0, layer := 2, front := 3, toBottom := true, dzdt := 0 }
      { depth := 15, theta := 4/5, psi := 75, K := 0, layer := 2, front := 2, toBottom := false, dzdt := 1 }
      { depth := 30, theta := 3/5, psi := 400/3, K := 0, layer := 2, front := 3, toBottom := true, dzdt := 0 }
      { depth := 30, theta := 3/5, psi := 400/3, K := 0, layer := 2, front := 3, toBottom := true, dzdt := 0 } loam (1/10) =
    .ok ({ depth := 16, theta := th, psi := 75, K := 0, layer := 2, front := 2, toBottom := false, dzdt := 1 }, 1/10)) ∧
    |th - (3/5 + 16/5/16)| ≤ 1e-12 / 16 := by
  have hsl := slopeAt_loam (x := 75) (y := 5 / 4) (by norm_num) (by norm_num)
  have hq : ((90 : ℝ) / 60) ^ loam.vgN = 9 / 4 := by
    rw [show loam.vgN = ((2 : ℕ) : ℝ) by norm_num [loam], Real.rpow_natCast]; norm_num
  refine C104_move_found geoLoams geoLoams_ground (fun k q h1 h => geoLoams_soil k q h1 h ▸ loam_physical) 1 (3/10) (1/10) true
    { depth := 15, theta := 4/5, psi := 75, K := 0, layer := 2, front := 2, toBottom := false, dzdt := 1 }
    { depth := 30, theta := 3/5, psi := 400/3, K := 0, layer := 2, front := 3, toBottom := true, dzdt := 0 }
    { depth := 15, theta := 4/5, psi := 75, K := 0, layer := 2, front := 2, toBottom := false, dzdt := 1 }
    { depth := 30, theta := 3/5, psi := 400/3, K := 0, layer := 2, front := 3, toBottom := true, dzdt := 0 } loam
    (by norm_num) (by norm_num [geoLoams]) (fun k h1 h2 => ?_)
    loam_75.symm loam_133.symm loam_75.symm loam_133.symm (by norm_num) (by norm_num) (by norm_num) (by norm_num)
    (by norm_num [layerTop, geoLoams]) 16 (16/5) 75 60 90 (by norm_num) (by norm_num) (by norm_num) (by rw [loam_75]; norm_num)
    (by norm_num) (by norm_num) (by norm_num) (by norm_num) (by norm_num) (by rw [hq]; norm_num) (by rw [hq, hsl]; norm_num)
    (by rw [hq, hsl]; norm_num)
  have : k = 1 ∨ k = 2 := by simp only at h2; omega
  rcases this with rfl | rfl <;> simp [Geo.soil, geoLoams, idx, idxI, ok_bind]

/-- C89_found, C105_inner_found and C105_deepest_found: the stack of loam down to 30 cm is gentle from 60 to 90 cm of head, and a search
there for other water than at the start has something to do. -/
example : ∃ sl, StackTo geoLoams (fun _ => 0) 30 2 sl ∧ Gentle sl 61 75 60 90 2 ∧ stackWater sl 75 = 24 ∧ stackWater sl 61 ≠ 24 := by
  have hs : ∀ k, 1 ≤ k → k ≤ 2 → geoLoams.soil k = .ok loam := fun k h1 h2 => by
    have : k = 1 ∨ k = 2 := by omega
    rcases this with rfl | rfl <;> simp [Geo.soil, geoLoams, idx, idxI, ok_bind]
  obtain ⟨sl, hsl⟩ := stack_exists geoLoams_ground (fun _ => 0) 30 (layer := 2) (by norm_num [geoLoams])
  have hq : ((90 : ℝ) / 60) ^ (2 : ℝ) = 9 / 4 := by
    rw [show (2 : ℝ) = ((2 : ℕ) : ℝ) by norm_num, Real.rpow_natCast]; norm_num
  have e : stackSlope sl 75 = 30 * (75 / 10000 / (5 / 4) ^ 3) := by
    rw [hsl.slope_one (by norm_num) rfl hs, slopeAt_loam (x := 75) (y := 5 / 4) (by norm_num) (by norm_num)]
  refine ⟨sl, hsl, ⟨by norm_num, by norm_num, by norm_num, by norm_num, by norm_num, by norm_num,
    fun x hx => by rw [hsl.soils hs hx]; norm_num [loam], by rw [hq]; norm_num, by rw [hq, e]; norm_num, by rw [hq, e]; norm_num⟩, ?_, ?_⟩
  · rw [hsl.one (by norm_num) rfl hs, loam_75]; norm_num
  · rw [hsl.one (by norm_num) rfl hs, moistAt_loam (y := Real.sqrt (1 + (61 / 100) ^ 2)) (by positivity)
      (by rw [Real.sq_sqrt (by positivity)])]
    intro h
    have h5 : Real.sqrt (1 + (61 / 100) ^ 2) = 5 / 4 := by
      have : (1 : ℝ) / Real.sqrt (1 + (61 / 100) ^ 2) = 4 / 5 := by linarith
      field_simp at this ⊢
      linarith
    rw [Real.sqrt_eq_iff_mul_self_eq (by positivity) (by norm_num)] at h5
    norm_num at h5

end LGAR
