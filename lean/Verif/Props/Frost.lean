import Verif.Lemmas.Frost
/-
C80: freezing never lets water in faster.
-/
set_option linter.unusedSectionVars false
namespace LGAR

/-- C80, capillary drive: the drive of a front is a property of the retention curve; it is the same for every positive
frozen-soil factor, in the closed form and in the numerical integration. -/
theorem C80_drive (fuel : Nat) (closed : Bool) (t1 t2 e r a n m Ks x y la ps : ℝ) (nint : Int) (hx : 0 < x) (hy : 0 < y) :
    calcGeff fuel closed t1 t2 e r a n m (Ks * x) nint la ps = calcGeff fuel closed t1 t2 e r a n m (Ks * y) nint la ps :=
  geff_frost hx hy

/-- C80, infiltration capacity: with smaller frozen-soil factors the same column takes in water no faster. -/
theorem C80_capacity (fuel : Nat) (closed : Bool) (nint : Int) (g : Geo ℝ) (cold : List ℝ) (dt aet ponded precip : ℝ)
    (nFd : Nat) (l : List (Front ℝ)) (f f' : ℝ) (hcold : Colder cold g.frozen)
    (hsoil : ∀ k s, g.soil k = .ok s → s.Usable)
    (hcum : ∀ k c1 c0, g.cum[k]? = some c1 → g.cum[k - 1]? = some c0 → c0 ≤ c1)
    (hl : ∀ f ∈ l, 1 ≤ f.layer ∧ 0 < f.depth ∧ ∀ b, g.cum[f.layer - 1]? = some b → b ≤ f.depth)
    (h : fpCapacity fuel closed nint g dt aet ponded precip nFd l = .ok f)
    (h' : fpCapacity fuel closed nint (g.withFrost cold) dt aet ponded precip nFd l = .ok f') : f' ≤ f :=
  fpCapacity_frost hcold hsoil hcum hl h h'

/-- C80, surface water: with smaller factors the same column under the same water infiltrates no more, sheds no less and ponds no
less.  Missing: the coincidence of C04. -/
theorem C80_surface_partial (fuel : Nat) (closed : Bool) (nint : Int) (g : Geo ℝ) (cold : List ℝ)
    (dt aet ponded precip pondMax : ℝ) (nFd : Nat) (l : List (Front ℝ)) (r v p r' v' p' : ℝ) (hdt : 0 < dt)
    (hmax : 0 ≤ pondMax) (hcold : Colder cold g.frozen) (hsoil : ∀ k s, g.soil k = .ok s → s.Usable)
    (hcum : ∀ k c1 c0, g.cum[k]? = some c1 → g.cum[k - 1]? = some c0 → c0 ≤ c1)
    (hl : ∀ f ∈ l, 1 ≤ f.layer ∧ 0 < f.depth ∧ ∀ b, g.cum[f.layer - 1]? = some b → b ≤ f.depth)
    (t : ∀ fp, fpCapacity fuel closed nint g dt aet ponded precip nFd l = .ok fp → ¬ 0 < pondMax ∨ ponded ≠ pondMax + fp * dt)
    (t' : ∀ fp, fpCapacity fuel closed nint (g.withFrost cold) dt aet ponded precip nFd l = .ok fp →
      ¬ 0 < pondMax ∨ ponded ≠ pondMax + fp * dt)
    (h : insertWater fuel closed nint g dt aet ponded 0 precip nFd pondMax l = .ok (r, v, p))
    (h' : insertWater fuel closed nint (g.withFrost cold) dt aet ponded 0 precip nFd pondMax l = .ok (r', v', p')) :
    v' ≤ v ∧ r ≤ r' ∧ p ≤ p' := by
  obtain ⟨fp, hf, h⟩ := insertWater_inv h
  obtain ⟨fp', hf', h'⟩ := insertWater_inv h'
  have hle := fpCapacity_frost hcold hsoil hcum hl hf hf'
  obtain ⟨u1, u2, u3⟩ := partitionPond_closed hmax (t fp hf) h
  obtain ⟨v1, v2, v3⟩ := partitionPond_closed hmax (t' fp' hf') h'
  obtain ⟨r1, r2, r3⟩ := split_cold (mul_le_mul_of_nonneg_right hle hdt.le) u1 v1 u2 v2
  exact ⟨r1, by rw [u3, v3]; exact r3, r2⟩

/-- C80, new fronts: with smaller factors the depth of a new surficial front, and with it the water it can take, is no
larger. -/
theorem C80_dry_depth (fuel : Nat) (closed : Bool) (nint : Int) (g : Geo ℝ) (cold : List ℝ) (dt : ℝ) (n : Front ℝ)
    (t : List (Front ℝ)) (dry delta dry' delta' : ℝ) (hdt : 0 ≤ dt) (hcold : Colder cold g.frozen) (hk : 1 ≤ n.layer)
    (hsoil : ∀ s, g.soil n.layer = .ok s → s.Usable ∧ n.theta < s.thetaE)
    (h : calcDryDepth fuel closed nint g dt (n :: t) = .ok (dry, delta))
    (h' : calcDryDepth fuel closed nint (g.withFrost cold) dt (n :: t) = .ok (dry', delta')) : dry' ≤ dry ∧ delta' = delta := by
  unfold calcDryDepth at h h'
  simp only [bind_ok_iff, deref_ok_iff, idx_ok_iff, List.getElem?_cons_zero, Option.some.injEq, cdiv_ok,
    csqrt_ok_iff, withFrost_soil] at h h'
  obtain ⟨c, rfl, s, hs, y, hy, tau, ⟨_, rfl⟩, G, hG, q, ⟨_, rfl⟩, bot, hb, h⟩ := h
  obtain ⟨c', rfl, s', hs', x, hx, tau', ⟨_, rfl⟩, G', hG', q', ⟨_, rfl⟩, bot', hb', h'⟩ := h'
  rw [hs, Except.ok.injEq] at hs'; subst hs'
  have : g.cum[n.layer]? = some bot' := hb'
  rw [hb, Option.some.injEq] at this; subst this
  simp only [pure_eq_ok, Except.ok.injEq, Prod.mk.injEq, fmin_eq] at h h'
  obtain ⟨rfl, rfl⟩ := h
  obtain ⟨rfl, rfl⟩ := h'
  refine ⟨?_, rfl⟩
  obtain ⟨hu, hlt⟩ := hsoil s hs
  obtain ⟨x0, xy⟩ := hcold n.layer x y hk hx hy
  rw [geff_frost x0 (x0.trans_le xy), hG, Except.ok.injEq] at hG'
  subst hG'
  have G0 := geff_sat_nonneg hu.phys.gap hu.lam hu.psib hG
  have k0 := hu.phys.ksat
  have d0 : 0 < s.thetaE - n.theta := by linarith
  have y0 : 0 < y := x0.trans_le xy
  have tt : dt * (s.Ksat * x) / (s.thetaE - n.theta) ≤ dt * (s.Ksat * y) / (s.thetaE - n.theta) := by gcongr
  have t0 : 0 ≤ dt * (s.Ksat * x) / (s.thetaE - n.theta) := by positivity
  refine min_le_min (le_refl _) ?_
  have hsq : ∀ a b : ℝ, a ≤ b → CMath.sqrt a ≤ CMath.sqrt b := fun a b hab => Real.sqrt_le_sqrt hab
  generalize dt * (s.Ksat * x) / (s.thetaE - n.theta) = a at *
  generalize dt * (s.Ksat * y) / (s.thetaE - n.theta) = b at *
  have b0 : 0 ≤ b := t0.trans tt
  rw [lit_half, lit_four]
  have := hsq (a * a + 4 * a * G) (b * b + 4 * b * G) (by gcongr)
  linarith

theorem clamp_mono {v v' : ℝ} (h0 : 0 ≤ v') (h : v' ≤ v) (hz : v' = 0 → v = 0) : dzdtClamp v' ≤ dzdtClamp v := by
  unfold dzdtClamp
  simp only [beq_iff_eq]
  by_cases e : v' = 0
  · simp only [e, hz e, if_true]; exact le_refl _
  · have p' : 0 < v' := lt_of_le_of_ne h0 (Ne.symm e)
    have e2 : v ≠ 0 := (p'.trans_le h).ne'
    simp only [e, e2, if_false]
    split
    · split
      · exact le_refl _
      · linarith
    · split
      · linarith
      · exact h

/-- C80, front speeds: with smaller factors every front of the same list gets a speed that is no larger. -/
theorem C80_speed (fuel : Nat) (closed : Bool) (nint : Int) (hp : ℝ) (g : Geo ℝ) (cold : List ℝ) (l l1 l2 : List (Front ℝ))
    (hcold : Colder cold g.frozen) (hsoil : ∀ k s, g.soil k = .ok s → s.Usable)
    (hcum : ∀ k c1 c0, g.cum[k]? = some c1 → g.cum[k - 1]? = some c0 → c0 ≤ c1)
    (hdepth : ∀ f ∈ l, 1 ≤ f.layer ∧ 0 < f.depth ∧ ∀ b, g.cum[f.layer - 1]? = some b → b ≤ f.depth)
    (htheta : ∀ f ∈ l, ∀ s, g.soil f.layer = .ok s → s.thetaR ≤ f.theta ∧ f.theta ≤ s.thetaE)
    (hlayer : ∀ i c n, l[i]? = some c → l[i + 1]? = some n → c.toBottom = false → n.layer = c.layer)
    (hhp : 0 ≤ hp) (h1 : dzdtCalc fuel closed nint hp g l = .ok l1)
    (h2 : dzdtCalc fuel closed nint hp (g.withFrost cold) l = .ok l2) :
    ∀ (i : Nat) (a b : Front ℝ), l1[i]? = some a → l2[i]? = some b → b.dzdt ≤ a.dzdt := by
  intro i a b ha hb
  obtain ⟨_, _, hKneg, _, hord⟩ := C28_frame fuel closed nint hp g l l1 h1
  obtain ⟨_, g1⟩ := dzdtCalc_go h1
  obtain ⟨_, g2⟩ := dzdtCalc_go h2
  obtain ⟨len1, all1⟩ := dzdtGo_get g1
  obtain ⟨len2, all2⟩ := dzdtGo_get g2
  cases hc : l[i]? with
  | none =>
    rw [List.getElem?_eq_none_iff, ← len1, ← List.getElem?_eq_none_iff, ha] at hc
    simp at hc
  | some c =>
  cases hn : l[i + 1]? with
  | none =>
    have e1 := (all1 i c hc).2.1 hn
    have e2 := (all2 i c hc).2.1 hn
    rw [ha, Option.some.injEq] at e1
    rw [hb, Option.some.injEq] at e2
    rw [e1, e2]
  | some n =>
  obtain ⟨s, y, v, hs, hy, hv, he⟩ := (all1 i c hc).2.2 n hn
  obtain ⟨s', x, v', hs', hx, hv', he'⟩ := (all2 i c hc).2.2 n hn
  rw [withFrost_soil, hs, Except.ok.injEq] at hs'; subst hs'
  rw [ha, Option.some.injEq] at he
  rw [hb, Option.some.injEq] at he'
  subst he; subst he'
  show v' ≤ v
  cases hbt : c.toBottom with
  | true =>
    rw [dzdtVel, if_pos hbt, Except.ok.injEq] at hv hv'
    rw [← hv, ← hv']
  | false =>
  rw [dzdtVel, if_neg (by simp [hbt]), dzdtOne] at hv hv'
  have hcn : n.theta ≤ c.theta := not_lt.mp (hord i c n hc hn hbt)
  have hck : 0 ≤ c.K := not_lt.mp (hKneg c (List.mem_of_getElem? hc))
  simp only [bind_ok_iff] at hv hv'
  obtain ⟨bs, hbs, hv⟩ := hv
  obtain ⟨bs', hbs', hv'⟩ := hv'
  have : dzdtBottomSum g c = .ok bs' := hbs'
  rw [hbs, Except.ok.injEq] at this; subst this
  rw [if_neg (not_lt.mpr hcn)] at hv hv'
  simp only [bind_ok_iff, pure_eq_ok, Except.ok.injEq] at hv hv'
  obtain ⟨G, hG, w, hw, rfl⟩ := hv
  obtain ⟨G', hG', w', hw', rfl⟩ := hv'
  have hu := hsoil _ _ hs
  obtain ⟨p1, hd0, hdb⟩ := hdepth c (List.mem_of_getElem? hc)
  obtain ⟨x0, xy⟩ := hcold c.layer x y p1 hx hy
  rw [geff_frost x0 (x0.trans_le xy), hG, Except.ok.injEq] at hG'
  subst hG'
  have hns := htheta n (List.mem_of_getElem? hn) s (by rw [hlayer i c n hc hn hbt]; exact hs)
  have hcs := htheta c (List.mem_of_getElem? hc) s hs
  have hG0 : 0 ≤ G := geff_nonneg hu.phys.gap hns.1 hcn hcs.2 hu.lam hu.psib hG
  have k0 := hu.phys.ksat
  have y0 : 0 < y := x0.trans_le xy
  have hbs0 : 0 ≤ bs := by
    unfold dzdtBottomSum at hbs
    split at hbs
    · simp only [bind_ok_iff, idxPred_ok_iff, cdiv_ok, Except.ok.injEq] at hbs
      obtain ⟨base, ⟨_, hbase⟩, q, ⟨_, rfl⟩, rfl⟩ := hbs
      have := hdb base hbase
      rw [zero_add]
      exact div_nonneg (by linarith) hck
    · simp only [Except.ok.injEq] at hbs; exact hbs.le
  have hGp : 0 ≤ G + hp := add_nonneg hG0 hhp
  unfold dzdtRaw at hw hw'
  dsimp only at hw hw'
  by_cases e : c.layer = 1
  · rw [if_pos e] at hw hw'
    by_cases hd : 0 < c.theta - n.theta
    · rw [if_pos hd] at hw hw'
      simp only [bind_ok_iff, cdiv_ok, Except.ok.injEq] at hw hw'
      obtain ⟨inv, ⟨_, rfl⟩, q, ⟨_, rfl⟩, rfl⟩ := hw
      obtain ⟨inv', ⟨_, rfl⟩, q', ⟨_, rfl⟩, rfl⟩ := hw'
      refine clamp_mono (by positivity) (by gcongr) fun hz => ?_
      have i0 : 0 < 1 / (c.theta - n.theta) := by positivity
      have t1 : 0 ≤ s.Ksat * x * (G + hp) / c.depth := by positivity
      have z1 : s.Ksat * x * (G + hp) / c.depth + c.K = 0 := by
        rcases mul_eq_zero.mp hz with z | z
        · exact absurd z i0.ne'
        · exact z
      have z2 : s.Ksat * x * (G + hp) / c.depth = 0 := by linarith
      have z3 : c.K = 0 := by linarith
      have z4 : G + hp = 0 := by
        rcases div_eq_zero_iff.mp z2 with z | z
        · rcases mul_eq_zero.mp z with z | z
          · exact absurd z (mul_pos k0 x0).ne'
          · exact z
        · exact absurd z hd0.ne'
      rw [z3, z4]; simp
    · rw [if_neg hd, Except.ok.injEq] at hw hw'
      rw [← hw, ← hw']
  · rw [if_neg e] at hw hw'
    simp only [bind_ok_iff] at hw hw'
    obtain ⟨den, hden, hw⟩ := hw
    obtain ⟨den', hden', hw'⟩ := hw'
    by_cases hd : 0 < c.theta - n.theta
    · rw [if_pos hd] at hw hw'
      simp only [bind_ok_iff, cdiv_ok, Except.ok.injEq] at hw hw'
      obtain ⟨inv, ⟨_, rfl⟩, q1, ⟨nz, rfl⟩, q2, ⟨_, rfl⟩, rfl⟩ := hw
      obtain ⟨inv', ⟨_, rfl⟩, q1', ⟨nz', rfl⟩, q2', ⟨_, rfl⟩, rfl⟩ := hw'
      obtain ⟨r1, r2⟩ := dzdtDenom_frost hcold (fun k s hs => (hsoil k s hs).phys.ksat) hcum (by omega) (le_refl bs) hden hden'
      have dp : 0 < den := lt_of_le_of_ne (hbs0.trans r2) (Ne.symm nz)
      have dp' : 0 < den' := dp.trans_le r1
      refine clamp_mono (by positivity) (by gcongr) fun hz => ?_
      have : 0 < 1 / (c.theta - n.theta) * (c.depth / den' + s.Ksat * x * (G + hp) / c.depth) := by positivity
      exact absurd hz this.ne'
    · rw [if_neg hd, Except.ok.injEq] at hw hw'
      rw [← hw, ← hw']

section Free
variable {α : Type} [Add α] [Sub α] [Mul α] [Div α] [Neg α] [Zero α] [One α] [OfScientific α]
  [LT α] [LE α] [DecidableLT α] [DecidableLE α] [BEq α] [CMath α]

/-- Which factors count: when the front that takes the water is below the layer of the top front, the factors of its own layer
and of all layers below have no influence on the infiltration.  (lgar.cxx 1977 and 1995 take the conductivity of the front's
layer times the factor of the layer of the top front.) -/
theorem C80_own_layer_ignored (fuel : Nat) (closed : Bool) (nint : Int) (g : Geo α) (fz : List α)
    (dt aet ponded volin precip pondMax : α) (nFd : Nat) (l : List (Front α)) (fd h0 : Front α)
    (hfd : derefOpt l (listFindFront (Int.ofNat nFd) l []) = .ok fd) (hh0 : l[0]? = some h0) (hlt : h0.layer < fd.layer)
    (hsame : ∀ k, k < fd.layer → fz[k]? = g.frozen[k]?) :
    insertWater fuel closed nint (g.withFrost fz) dt aet ponded volin precip nFd pondMax l =
      insertWater fuel closed nint g dt aet ponded volin precip nFd pondMax l := by
  have hi : ∀ k, k < fd.layer → idx fz k = idx g.frozen k := fun k hk => by
    unfold idx; rw [hsame k hk]
  have hb : ∀ (n : Nat) (s : α), n < fd.layer → fpBottomSum (g.withFrost fz) n s = fpBottomSum g n s := by
    intro n
    induction n with
    | zero => intros; rfl
    | succ n ih =>
      intro s hn
      unfold fpBottomSum
      have e1 : idx (g.withFrost fz).frozen (n + 1) = idx g.frozen (n + 1) := hi _ hn
      rw [e1]
      simp only [withFrost_soil, ih _ (by omega)]
      rfl
  have hd : deref l 0 = .ok h0 := by rw [deref_ok_iff]; exact hh0
  have e1 : idx (g.withFrost fz).frozen h0.layer = idx g.frozen h0.layer := hi _ hlt
  unfold insertWater fpCapacity fpPotential
  simp only [hfd, hd, ok_bind, withFrost_soil, e1, maxStorage_frost, hb (fd.layer - 1) _ (by omega)]
  rfl

end Free

/- Cases meeting the hypotheses, and the failure. -/

attribute [-instance] Rat.instOfScientific

/-- Two layers of 10 cm, wet to 15 cm. -/
def geoFrost : Geo ℚ :=
  { numLayers := 2, cum := [0, 10, 20], soilType := [0, 1, 1], frozen := [1, 1, 1], soils := [Sample.soilA, Sample.soilA] }

def colFrost : List (Front ℚ) := [Sample.fr 10 (4/10) 1 1 true, Sample.fr 15 (4/10) 2 2 false, Sample.fr 20 (292/1000) 2 3 true]

/-- C80 fails in the strict sense: the front that takes the water stands 5 cm deep in layer 2.  Freezing that layer to a twentieth
of its conductivity leaves the infiltration as it is; freezing layer 1 as much reduces it. -/
theorem C80_own_layer_fails :
    derefOpt colFrost (listFindFront (Int.ofNat 2) colFrost []) = .ok (Sample.fr 15 (4/10) 2 2 false) ∧
    (∃ r v p, 0 < v ∧ insertWater 100 true 120 geoFrost (1/100) 0 3 0 10 2 1 colFrost = .ok (r, v, p) ∧
      insertWater 100 true 120 (geoFrost.withFrost [1, 1, 1/20]) (1/100) 0 3 0 10 2 1 colFrost = .ok (r, v, p) ∧
      ∃ r' v' p', v' < v ∧
        insertWater 100 true 120 (geoFrost.withFrost [1, 1/20, 1]) (1/100) 0 3 0 10 2 1 colFrost = .ok (r', v', p')) := by
  refine ⟨by decide +kernel, ?_⟩
  have h := Sample.okAnd_exists (x := insertWater 100 true 120 geoFrost (1/100) 0 3 0 10 2 1 colFrost)
    (p := fun a => 0 < a.2.1 ∧ insertWater 100 true 120 (geoFrost.withFrost [1, 1, 1/20]) (1/100) 0 3 0 10 2 1 colFrost = .ok a ∧
      Sample.okAnd (insertWater 100 true 120 (geoFrost.withFrost [1, 1/20, 1]) (1/100) 0 3 0 10 2 1 colFrost)
        (fun b => decide (b.2.1 < a.2.1)) = true) (by decide +kernel)
  obtain ⟨⟨r, v, p⟩, h1, h2, h3, h4⟩ := h
  obtain ⟨⟨r', v', p'⟩, h5, h6⟩ := Sample.okAnd_exists h4
  exact ⟨r, v, p, h2, h1, h3, r', v', p', h6, h5⟩

/-- The moist loam column takes water at every positive factor. -/
theorem frost_case (x : ℝ) (hx : 0 < x) : ∃ f, fpCapacity 0 true 120 (geoLoam.withFrost [1, x]) 1 0 3 1 1 movingPair = .ok f := by
  obtain ⟨G, hG, _, _⟩ := C23_closed_form 0 (1/4) loam.thetaE loam.thetaE loam.thetaR loam.vgAlpha loam.vgN loam.vgM
    (loam.Ksat * x) loam.bcLambda loam.bcPsib 120 loam_physical.gap (by norm_num [loam]) (by norm_num [loam]) (le_refl _)
    loam_usable.lam loam_usable.psib
  unfold fpCapacity fpPotential
  have e1 : derefOpt movingPair (listFindFront (Int.ofNat 1) movingPair []) =
      .ok { depth := 10, theta := 1/2, psi := 1, K := 1/10, layer := 1, front := 1, toBottom := false, dzdt := 0 } := rfl
  have e2 : derefOpt movingPair (listFindFront (Int.ofNat 1 + 1) movingPair []) =
      .ok { depth := 100, theta := 1/4, psi := 1, K := 1/100, layer := 1, front := 2, toBottom := true, dzdt := 0 } := rfl
  have e3 : deref movingPair 0 =
      .ok { depth := 10, theta := 1/2, psi := 1, K := 1/10, layer := 1, front := 1, toBottom := false, dzdt := 0 } := rfl
  have e4 : (geoLoam.withFrost [1, x]).soil 1 = .ok loam := rfl
  have e5 : idx (geoLoam.withFrost [1, x]).frozen 1 = .ok x := rfl
  have e6 : (geoLoam.withFrost [1, x]).numLayers = 1 := rfl
  have e7 : movingPair.length = 2 := rfl
  have e8 : massBal (geoLoam.withFrost [1, x]).cum movingPair = massBal geoLoam.cum movingPair := rfl
  have e9 : ∃ m, massBal geoLoam.cum movingPair = .ok m := ⟨_, rfl⟩
  have e10 : ∃ m, maxStorage geoLoam = .ok m := ⟨_, rfl⟩
  obtain ⟨m, e9⟩ := e9
  obtain ⟨mx, e10⟩ := e10
  simp only [e1, e2, e3, ok_bind, e4, e5, e6, e7, hG, e8, e9, maxStorage_frost, e10]
  simp only [OfNat.ofNat_ne_one, if_false, if_true, ok_bind, cdiv_ne (show (10 : ℝ) ≠ 0 by norm_num),
    cdiv_ne (show (1 : ℝ) ≠ 0 by norm_num)]
  simp [pure_eq_ok, ok_bind]

/-- C80_capacity: factor 1 against factor 1/20. -/
example : Colder [1, 1/20] geoLoam.frozen ∧ (∀ k s, geoLoam.soil k = .ok s → s.Usable) ∧
    (∀ f ∈ movingPair, 1 ≤ f.layer ∧ 0 < f.depth ∧ ∀ b, geoLoam.cum[f.layer - 1]? = some b → b ≤ f.depth) ∧
    (∃ f, fpCapacity 0 true 120 geoLoam 1 0 3 1 1 movingPair = .ok f) ∧
    ∃ f', fpCapacity 0 true 120 (geoLoam.withFrost [1, 1/20]) 1 0 3 1 1 movingPair = .ok f' := by
  refine ⟨?_, fun k s h => by rw [geoLoam_soils k s h]; exact loam_usable, ?_, frost_case 1 one_pos, frost_case _ (by norm_num)⟩
  · intro k x y hk hx hy
    rcases k with _ | _ | k
    · omega
    · simp [geoLoam] at hx hy; subst hx; subst hy; norm_num
    · simp at hx
  · intro f hf
    simp [movingPair] at hf
    rcases hf with rfl | rfl <;> refine ⟨le_refl _, by norm_num, fun b hb => ?_⟩ <;> simp [geoLoam] at hb <;> subst hb <;> norm_num

end LGAR
