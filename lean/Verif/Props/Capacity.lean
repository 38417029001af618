import Verif.Props.Frost
import Verif.Spec.GreenAmpt
import Verif.Props.Infil
import Verif.Props.Bounds
/-
C85: the infiltration capacity is that of Green and Ampt.  C86: infiltration into a saturated column.
-/
set_option linter.unusedSectionVars false
namespace LGAR

section Exact
variable {K : Type} [Field K] [LinearOrder K] [IsStrictOrderedRing K] [CMath K] [LawfulNum K]

theorem fpBottomSum_stack {g : Geo K} : ∀ {n : Nat} {s r : K}, fpBottomSum g n s = .ok r →
    r = s + slabsResist ((List.range' 1 n).filterMap g.slab) ∧
      slabsDepth ((List.range' 1 n).filterMap g.slab) = g.cum.getD n 0 - g.cum.getD 0 0
  | 0, s, r, h => by
    simp only [fpBottomSum, Except.ok.injEq] at h
    subst h
    simp [slabsResist, slabsDepth]
  | n + 1, s, r, h => by
    simp only [fpBottomSum, bind_ok_iff, idx_ok_iff, cdiv_ok] at h
    obtain ⟨sk, hs, ff, hf, c1, h1, c0, h0, q, ⟨_, rfl⟩, h⟩ := h
    obtain ⟨e1, e2⟩ := fpBottomSum_stack h
    have hsl : g.slab (n + 1) = some (c1 - c0, sk.Ksat * ff) := by
      simp only [Geo.slab, hs, hf, h1, Nat.add_sub_cancel, h0]
    rw [List.range'_concat, List.filterMap_append]
    simp only [one_mul, List.filterMap_cons, List.filterMap_nil, Nat.add_comm 1 n, hsl]
    constructor
    · rw [e1]
      simp only [slabsResist, List.map_append, List.sum_append, List.map_cons, List.map_nil, List.sum_cons, List.sum_nil]
      ring
    · simp only [slabsDepth, List.map_append, List.sum_append, List.map_cons, List.map_nil, List.sum_cons, List.sum_nil] at e2 ⊢
      rw [e2]
      simp only [List.getD_eq_getElem?_getD, h1, h0, Option.getD_some]
      ring

/-- Everything that goes into the potential rate. -/
theorem fpPotential_parts {fuel : Nat} {closed : Bool} {nint : Int} {g : Geo K} {dt aet ponded precip : K} {nFd : Nat}
    {l : List (Front K)} {f : K} (h : fpPotential fuel closed nint g dt aet ponded precip nFd l = .ok f) :
    ∃ fd h0 s ff G sT fp, derefOpt l (listFindFront (Int.ofNat nFd) l []) = .ok fd ∧ l[0]? = some h0 ∧ g.soil fd.layer = .ok s ∧
      g.frozen[h0.layer]? = some ff ∧
      ((l.length = g.numLayers ∧ G = 0) ∨ (l.length ≠ g.numLayers ∧ ∃ b, derefOpt l (listFindFront (Int.ofNat nFd + 1) l []) = .ok b ∧
        calcGeff fuel closed b.theta s.thetaE s.thetaE s.thetaR s.vgAlpha s.vgN s.vgM (s.Ksat * ff) nint s.bcLambda s.bcPsib
          = .ok G)) ∧
      fd.depth ≠ 0 ∧
      ((fd.layer = 1 ∧ fp = s.Ksat * ff * (1 + (G + max (ponded - precip * dt) 0) / fd.depth)) ∨
        (fd.layer ≠ 1 ∧ ∃ base bs, 0 < fd.layer ∧ g.cum[fd.layer - 1]? = some base ∧ s.Ksat * ff ≠ 0 ∧
          fpBottomSum g (fd.layer - 1) ((fd.depth - base) / (s.Ksat * ff)) = .ok bs ∧ bs ≠ 0 ∧
          fp = fd.depth / bs + (G + max (ponded - precip * dt) 0) * (s.Ksat * ff) / fd.depth)) ∧
      g.soil h0.layer = .ok sT ∧
      ((fd.layer = g.numLayers ∧ fd.theta = sT.thetaE ∧ g.numLayers = l.length ∧ f = min fp (aet / dt)) ∨
        (¬ (fd.layer = g.numLayers ∧ fd.theta = sT.thetaE ∧ g.numLayers = l.length) ∧ f = fp)) := by
  obtain ⟨fd, h0, s, ff, G, b, sT, a1, a2, a3, a4, a5, a6, a7, a8⟩ := fpPotential_inv h
  have key : fd.depth ≠ 0 ∧
      ((fd.layer = 1 ∧ b = s.Ksat * ff * (1 + (G + max (ponded - precip * dt) 0) / fd.depth)) ∨
        (fd.layer ≠ 1 ∧ ∃ base bs, 0 < fd.layer ∧ g.cum[fd.layer - 1]? = some base ∧ s.Ksat * ff ≠ 0 ∧
          fpBottomSum g (fd.layer - 1) ((fd.depth - base) / (s.Ksat * ff)) = .ok bs ∧ bs ≠ 0 ∧
          b = fd.depth / bs + (G + max (ponded - precip * dt) 0) * (s.Ksat * ff) / fd.depth)) := by
    unfold fpRaw at a6
    split at a6
    · rename_i e
      simp only [bind_ok_iff, cdiv_ok, Except.ok.injEq] at a6
      obtain ⟨q, ⟨hq, rfl⟩, rfl⟩ := a6
      exact ⟨hq, .inl ⟨e, rfl⟩⟩
    · rename_i e
      simp only [bind_ok_iff, cdiv_ok, idxPred_ok_iff, Except.ok.injEq] at a6
      obtain ⟨base, ⟨b0, hb⟩, b, ⟨hb1, rfl⟩, bs, hbs, q1, ⟨q1n, rfl⟩, q2, ⟨hq, rfl⟩, rfl⟩ := a6
      exact ⟨hq, .inr ⟨e, base, bs, b0, hb, hb1, hbs, q1n, rfl⟩⟩
  refine ⟨fd, h0, s, ff, G, sT, b, a1, a2, a3, a4, a5, key.1, key.2, a7, ?_⟩
  rcases a8 with ⟨e1, e2, e3, rfl⟩ | ⟨e, rfl⟩
  · exact .inl ⟨e1, by simpa using e2, e3, rfl⟩
  · exact .inr ⟨fun ⟨a, b, c⟩ => e ⟨a, by simpa using b, c⟩, rfl⟩

/-- C85: the potential rate is the Green-Ampt rate of the stack above the front that takes the water: unit gradient through every
layer above with its own thickness and conductivity, plus suction and ponded head (the water that stood on the surface before this
step's rain) at the front.  The suction is that of the soil at the front against the moisture below it, and nothing when every front is a
layer bottom; the AET limit only acts then.  Missing: the conductivity at the front carries the frost of the head's layer, not its own
(C85_frost_fails). -/
theorem C85_green_ampt_partial (fuel : Nat) (closed : Bool) (nint : Int) (g : Geo K) (dt aet ponded precip : K) (nFd : Nat)
    (l : List (Front K)) (fd h0 : Front K) (s : SoilProps K) (x f : K)
    (hfd : derefOpt l (listFindFront (Int.ofNat nFd) l []) = .ok fd) (hh : l[0]? = some h0) (hs : g.soil fd.layer = .ok s)
    (hx : g.frozen[h0.layer]? = some x) (hK : s.Ksat * x ≠ 0) (hz : g.cum[0]? = some 0) (h1 : 1 ≤ fd.layer)
    (h : fpPotential fuel closed nint g dt aet ponded precip nFd l = .ok f) :
    ∃ G, (l.length = g.numLayers → G = 0) ∧
      (l.length ≠ g.numLayers → ∃ b, derefOpt l (listFindFront (Int.ofNat nFd + 1) l []) = .ok b ∧
        calcGeff fuel closed b.theta s.thetaE s.thetaE s.thetaR s.vgAlpha s.vgN s.vgM (s.Ksat * x) nint s.bcLambda s.bcPsib
          = .ok G) ∧
      slabsDepth (g.stack fd.layer fd.depth (s.Ksat * x)) = fd.depth ∧
      (f = greenAmpt (g.stack fd.layer fd.depth (s.Ksat * x)) G (max (ponded - precip * dt) 0) (s.Ksat * x) ∨
        (l.length = g.numLayers ∧ f = min (greenAmpt (g.stack fd.layer fd.depth (s.Ksat * x)) G (max (ponded - precip * dt) 0)
          (s.Ksat * x)) (aet / dt))) := by
  obtain ⟨fd', h0', s', ff, G, sT, fp, e1, e2, e3, e4, hG, hd, hfp, _, hf⟩ := fpPotential_parts h
  rw [hfd, Except.ok.injEq] at e1; subst e1
  rw [hh, Option.some.injEq] at e2; subst e2
  rw [hs, Except.ok.injEq] at e3; subst e3
  rw [hx, Option.some.injEq] at e4; subst e4
  have key : slabsDepth (g.stack fd.layer fd.depth (s.Ksat * x)) = fd.depth ∧
      fp = greenAmpt (g.stack fd.layer fd.depth (s.Ksat * x)) G (max (ponded - precip * dt) 0) (s.Ksat * x) := by
    rcases hfp with ⟨e, rfl⟩ | ⟨e, base, bs, _, hb, _, hbs, _, rfl⟩
    · have : g.stack fd.layer fd.depth (s.Ksat * x) = [(fd.depth, s.Ksat * x)] := by
        simp [Geo.stack, e, layerTop, hz]
      rw [this]
      refine ⟨by simp [slabsDepth], ?_⟩
      simp only [greenAmpt, slabsDepth, slabsResist, List.map_cons, List.map_nil, List.sum_cons, List.sum_nil, add_zero]
      field_simp
    · obtain ⟨r1, r2⟩ := fpBottomSum_stack hbs
      have d : slabsDepth (g.stack fd.layer fd.depth (s.Ksat * x)) = fd.depth := by
        simp only [slabsDepth] at r2
        simp only [Geo.stack, slabsDepth, List.map_append, List.sum_append, r2, List.map_cons, List.map_nil, List.sum_cons,
          List.sum_nil, layerTop]
        simp [hz]
      refine ⟨d, ?_⟩
      unfold greenAmpt
      rw [d, r1]
      congr 2
      simp only [Geo.stack, slabsResist, List.map_append, List.sum_append, List.map_cons, List.map_nil, List.sum_cons,
        List.sum_nil, layerTop, List.getD_eq_getElem?_getD, hb, Option.getD_some]
      ring
  refine ⟨G, ?_, ?_, key.1, ?_⟩
  · intro e
    rcases hG with ⟨_, e'⟩ | ⟨e', _⟩
    · exact e'
    · exact absurd e e'
  · intro e
    rcases hG with ⟨e', _⟩ | ⟨_, e'⟩
    · exact absurd e' e
    · exact e'
  · rcases hf with ⟨_, _, c, rfl⟩ | ⟨_, rfl⟩
    · exact .inr ⟨c.symm, by rw [key.2]⟩
    · exact .inl key.2

/-- The unit-gradient part lies between the smallest and the largest conductivity of the stack. -/
theorem stack_between {l : List (K × K)} {a b : K} (ha : 0 < a) (hl : ∀ p ∈ l, 0 ≤ p.1 ∧ a ≤ p.2 ∧ p.2 ≤ b) :
    a * slabsResist l ≤ slabsDepth l ∧ slabsDepth l ≤ b * slabsResist l := by
  induction l with
  | nil => simp [slabsResist, slabsDepth]
  | cons p t ih =>
    obtain ⟨i1, i2⟩ := ih fun q hq => hl q (by simp [hq])
    obtain ⟨p1, p2, p3⟩ := hl p (by simp)
    have pk : 0 < p.2 := ha.trans_le p2
    have q0 : 0 ≤ p.1 / p.2 := by positivity
    have e : p.2 * (p.1 / p.2) = p.1 := by field_simp
    have s1 : a * (p.1 / p.2) ≤ p.1 := (mul_le_mul_of_nonneg_right p2 q0).trans_eq e
    have s2 : p.1 ≤ b * (p.1 / p.2) := e.symm.trans_le (mul_le_mul_of_nonneg_right p3 q0)
    simp only [slabsResist, slabsDepth, List.map_cons, List.sum_cons] at i1 i2 ⊢
    constructor <;> linarith

theorem stack_last {g : Geo K} {k : Nat} {d x : K} : (d - layerTop g.cum k, x) ∈ g.stack k d x := by simp [Geo.stack]

/-- C85, bounds: with conductivities between `a` and `b` in all layers down to the front, the potential rate is at least `a` and at
most `b` plus the suction and ponded head term.  Conditions: depths increase, the front is not above its layer. -/
theorem C85_bounds (fuel : Nat) (closed : Bool) (nint : Int) (g : Geo K) (dt aet ponded precip : K) (nFd : Nat)
    (l : List (Front K)) (fd h0 : Front K) (s : SoilProps K) (x f a b : K)
    (hfd : derefOpt l (listFindFront (Int.ofNat nFd) l []) = .ok fd) (hh : l[0]? = some h0) (hs : g.soil fd.layer = .ok s)
    (hx : g.frozen[h0.layer]? = some x) (hz : g.cum[0]? = some 0) (h1 : 1 ≤ fd.layer) (ha : 0 < a)
    (hk : a ≤ s.Ksat * x ∧ s.Ksat * x ≤ b) (hd : 0 < fd.depth) (htop : layerTop g.cum fd.layer ≤ fd.depth)
    (hl : ∀ k p, 1 ≤ k → k < fd.layer → g.slab k = some p → 0 ≤ p.1 ∧ a ≤ p.2 ∧ p.2 ≤ b)
    (hlen : l.length ≠ g.numLayers)
    (h : fpPotential fuel closed nint g dt aet ponded precip nFd l = .ok f) :
    ∃ G n, derefOpt l (listFindFront (Int.ofNat nFd + 1) l []) = .ok n ∧
      calcGeff fuel closed n.theta s.thetaE s.thetaE s.thetaR s.vgAlpha s.vgN s.vgM (s.Ksat * x) nint s.bcLambda s.bcPsib = .ok G ∧
      (0 ≤ G → a ≤ f ∧ f ≤ b * (1 + (G + max (ponded - precip * dt) 0) / fd.depth)) := by
  obtain ⟨G, _, hG, hD, hf⟩ := C85_green_ampt_partial fuel closed nint g dt aet ponded precip nFd l fd h0 s x f hfd hh hs hx
    (ha.trans_le hk.1).ne' hz h1 h
  obtain ⟨n, hn, hn'⟩ := hG hlen
  refine ⟨G, n, hn, hn', fun hG0 => ?_⟩
  have hf : f = greenAmpt (g.stack fd.layer fd.depth (s.Ksat * x)) G (max (ponded - precip * dt) 0) (s.Ksat * x) := by
    rcases hf with hf | ⟨hf, _⟩
    · exact hf
    · exact absurd hf hlen
  have hall : ∀ p ∈ g.stack fd.layer fd.depth (s.Ksat * x), 0 ≤ p.1 ∧ a ≤ p.2 ∧ p.2 ≤ b := by
    intro p hp
    simp only [Geo.stack, List.mem_append, List.mem_filterMap, List.mem_range'_1, List.mem_singleton] at hp
    rcases hp with ⟨k, ⟨k1, k2⟩, hk'⟩ | rfl
    · exact hl k p k1 (by omega) hk'
    · exact ⟨sub_nonneg.mpr htop, hk⟩
  obtain ⟨b1, b2⟩ := stack_between ha hall
  rw [hD] at b1 b2
  have R0 : 0 < slabsResist (g.stack fd.layer fd.depth (s.Ksat * x)) := by
    rcases lt_or_ge 0 (slabsResist (g.stack fd.layer fd.depth (s.Ksat * x))) with h | h
    · exact h
    · have : 0 ≤ b := (ha.trans_le (hk.1.trans hk.2)).le
      have := mul_nonpos_of_nonneg_of_nonpos this h
      linarith
  have q0 : 0 ≤ (G + max (ponded - precip * dt) 0) / fd.depth := by positivity
  rw [hf, greenAmpt, hD, mul_div_right_comm]
  constructor
  · have : a ≤ fd.depth / slabsResist (g.stack fd.layer fd.depth (s.Ksat * x)) := by rw [le_div_iff₀ R0]; exact b1
    have k0 := ha.trans_le hk.1
    have := mul_nonneg q0 k0.le
    linarith
  · have : fd.depth / slabsResist (g.stack fd.layer fd.depth (s.Ksat * x)) ≤ b := by rw [div_le_iff₀ R0]; exact b2
    have := mul_le_mul_of_nonneg_left hk.2 q0
    linarith

/-- C85, homogeneous soil: where all layers down to the front have the same conductivity, the layer boundaries play no part: the
potential rate is K (1 + (suction + ponded head) / depth), as in a single layer. -/
theorem C85_homogeneous (fuel : Nat) (closed : Bool) (nint : Int) (g : Geo K) (dt aet ponded precip : K) (nFd : Nat)
    (l : List (Front K)) (fd h0 : Front K) (s : SoilProps K) (x f : K)
    (hfd : derefOpt l (listFindFront (Int.ofNat nFd) l []) = .ok fd) (hh : l[0]? = some h0) (hs : g.soil fd.layer = .ok s)
    (hx : g.frozen[h0.layer]? = some x) (hz : g.cum[0]? = some 0) (h1 : 1 ≤ fd.layer) (hk : s.Ksat * x ≠ 0)
    (hd : fd.depth ≠ 0) (hl : ∀ k p, 1 ≤ k → k < fd.layer → g.slab k = some p → p.2 = s.Ksat * x)
    (hlen : l.length ≠ g.numLayers)
    (h : fpPotential fuel closed nint g dt aet ponded precip nFd l = .ok f) :
    ∃ G n, derefOpt l (listFindFront (Int.ofNat nFd + 1) l []) = .ok n ∧
      calcGeff fuel closed n.theta s.thetaE s.thetaE s.thetaR s.vgAlpha s.vgN s.vgM (s.Ksat * x) nint s.bcLambda s.bcPsib = .ok G ∧
      f = s.Ksat * x * (1 + (G + max (ponded - precip * dt) 0) / fd.depth) := by
  obtain ⟨G, _, hG, hD, hf⟩ := C85_green_ampt_partial fuel closed nint g dt aet ponded precip nFd l fd h0 s x f hfd hh hs hx
    hk hz h1 h
  obtain ⟨n, hn, hn'⟩ := hG hlen
  refine ⟨G, n, hn, hn', ?_⟩
  have hf : f = greenAmpt (g.stack fd.layer fd.depth (s.Ksat * x)) G (max (ponded - precip * dt) 0) (s.Ksat * x) := by
    rcases hf with hf | ⟨hf, _⟩
    · exact hf
    · exact absurd hf hlen
  have hall : ∀ p ∈ g.stack fd.layer fd.depth (s.Ksat * x), p.2 = s.Ksat * x := by
    intro p hp
    simp only [Geo.stack, List.mem_append, List.mem_filterMap, List.mem_range'_1, List.mem_singleton] at hp
    rcases hp with ⟨k, ⟨k1, k2⟩, hk'⟩ | rfl
    · exact hl k p k1 (by omega) hk'
    · rfl
  have gen : ∀ L : List (K × K), (∀ p ∈ L, p.2 = s.Ksat * x) → slabsResist L = slabsDepth L / (s.Ksat * x) := by
    intro L hL
    induction L with
    | nil => simp [slabsResist, slabsDepth]
    | cons p t ih =>
      have i := ih fun q hq => hL q (by simp [hq])
      simp only [slabsResist, slabsDepth, List.map_cons, List.sum_cons] at i ⊢
      rw [i, hL p (by simp), add_div]
  have hR := gen _ hall
  rw [hD] at hR
  rw [hf, greenAmpt, hD, hR]
  have hk1 : s.Ksat ≠ 0 := left_ne_zero_of_mul hk
  have hk2 : x ≠ 0 := right_ne_zero_of_mul hk
  field_simp

/-- C85, depth: in homogeneous soil the rate falls as the front goes deeper (same suction, same ponded head). -/
theorem C85_deeper (k G h z z' : K) (hk : 0 ≤ k) (hG : 0 ≤ G + h) (hz : 0 < z) (hzz : z ≤ z') :
    k * (1 + (G + h) / z') ≤ k * (1 + (G + h) / z) := by gcongr

/-- C86, the limit by free pore space comes last: the capacity is the smaller of the potential rate and the free space per time, whatever
the potential rate was. -/
theorem C86_limit (fuel : Nat) (closed : Bool) (nint : Int) (g : Geo K) (dt aet ponded precip : K) (nFd : Nat)
    (l : List (Front K)) (f : K) (h : fpCapacity fuel closed nint g dt aet ponded precip nFd l = .ok f) :
    ∃ p, fpPotential fuel closed nint g dt aet ponded precip nFd l = .ok p ∧ f = min p ((saturatedStorage g - water g.cum l) / dt) := by
  unfold fpCapacity at h
  simp only [bind_ok_iff, cdiv_ok, pure_eq_ok, Except.ok.injEq] at h
  obtain ⟨p, hp, m, hm, mx, hmx, cap, ⟨_, hcap⟩, h⟩ := h
  refine ⟨p, hp, ?_⟩
  have hmx' : mx = saturatedStorage g := by
    have := maxStorageGo_val hmx
    rw [this, zero_add]; rfl
  rw [water_eq_mass, ← massBal_val hm, ← hmx', ← hcap, ← h]
  split
  · rw [min_eq_right (le_of_lt ‹_›)]
  · rw [min_eq_left (not_lt.mp ‹_›)]

/-- C86: into a saturated column nothing infiltrates, however large the ET demand of the step is: the allowance for ET (line 2031,
"a little bit of water can still enter if AET is sufficiently large") has no effect. -/
theorem C86_closed (fuel : Nat) (closed : Bool) (nint : Int) (g : Geo K) (dt aet ponded precip pondMax : K) (nFd : Nat)
    (l : List (Front K)) (r v p : K) (hdt : 0 < dt) (hfull : saturatedStorage g ≤ water g.cum l)
    (h : insertWater fuel closed nint g dt aet ponded 0 precip nFd pondMax l = .ok (r, v, p)) : v ≤ 0 := by
  obtain ⟨fp, hf, h⟩ := insertWater_inv h
  obtain ⟨q, _, rfl⟩ := C86_limit fuel closed nint g dt aet ponded precip nFd l fp hf
  exact partitionPond_vol (c := 0) hdt ((min_le_right _ _).trans (by gcongr; linarith)) (le_refl _) h

/-- C86, what holds: water that ET took in earlier steps can be replaced: with free space `e`, at most what the soil conducts, the rate
is `e` per time.  Missing: the water that ET takes in the same step (C86_fails). -/
theorem C86_later_partial (fuel : Nat) (closed : Bool) (nint : Int) (g : Geo K) (dt aet ponded precip e p : K) (nFd : Nat)
    (l : List (Front K)) (f : K) (he : water g.cum l + e = saturatedStorage g)
    (hp : fpPotential fuel closed nint g dt aet ponded precip nFd l = .ok p) (hep : e / dt ≤ p)
    (h : fpCapacity fuel closed nint g dt aet ponded precip nFd l = .ok f) : f = e / dt := by
  obtain ⟨q, hq, rfl⟩ := C86_limit fuel closed nint g dt aet ponded precip nFd l f h
  rw [hp, Except.ok.injEq] at hq; subst hq
  rw [← he, add_sub_cancel_left, min_eq_right hep]

end Exact

/- Cases and counterexamples. -/

section Cases
attribute [-instance] Rat.instOfScientific

/-- Front that takes the water: 15 cm deep, in the second of two layers with soils A and B. -/
def colDeep : List (Front ℚ) := [Sample.fr 10 (4/10) 1 1 true, Sample.fr 15 (5/10) 2 2 false, Sample.fr 30 (3/10) 2 3 true]

/-- C85_green_ampt_partial and C85_bounds apply to `colDeep`: conductivities 1 and 2 cm/h in the layers, and the rate is between them
plus the suction term. -/
example : derefOpt colDeep (listFindFront (Int.ofNat 2) colDeep []) = .ok (Sample.fr 15 (5/10) 2 2 false) ∧
    Sample.geo2.slab 1 = some (10, 1) ∧ Sample.geo2.cum[0]? = some 0 ∧ layerTop Sample.geo2.cum 2 ≤ 15 ∧
    colDeep.length ≠ Sample.geo2.numLayers ∧
    Sample.okAnd (fpPotential 100 true 120 Sample.geo2 (1/10) 0 3 10 2 colDeep) (fun f => decide (1 < f)) = true := by
  decide +kernel

/-- C85_homogeneous applies to the column of C80. -/
example : derefOpt colFrost (listFindFront (Int.ofNat 2) colFrost []) = .ok (Sample.fr 15 (4/10) 2 2 false) ∧
    geoFrost.slab 1 = some (10, 1) ∧ colFrost.length ≠ geoFrost.numLayers ∧
    Sample.okAnd (fpPotential 100 true 120 geoFrost (1/10) 0 3 10 2 colFrost) (fun f => decide (1 < f)) = true := by decide +kernel

/-- C85 fails for soil frozen at the front: the second layer conducts a twentieth of what it conducts without frost, the rate is
computed as if it were not frozen. -/
theorem C85_frost_fails : ∃ G f : ℚ,
    calcGeff 100 true (292/1000) (4/10) (4/10) (Sample.soilA.thetaR) Sample.soilA.vgAlpha Sample.soilA.vgN Sample.soilA.vgM
      (Sample.soilA.Ksat * (1/20)) 120 Sample.soilA.bcLambda Sample.soilA.bcPsib = .ok G ∧
    fpPotential 100 true 120 (geoFrost.withFrost [1, 1, 1/20]) (1/10) 0 3 10 2 colFrost = .ok f ∧
    greenAmpt ((geoFrost.withFrost [1, 1, 1/20]).stack 2 15 (Sample.soilA.Ksat * (1/20))) G 2 (Sample.soilA.Ksat * (1/20)) < f / 5 := by
  have h := Sample.okAnd_exists (x := calcGeff 100 true (292/1000) (4/10) (4/10) (Sample.soilA.thetaR)
      Sample.soilA.vgAlpha Sample.soilA.vgN Sample.soilA.vgM (Sample.soilA.Ksat * (1/20)) 120 Sample.soilA.bcLambda Sample.soilA.bcPsib)
    (p := fun G => Sample.okAnd (fpPotential 100 true 120 (geoFrost.withFrost [1, 1, 1/20]) (1/10) 0 3 10 2 colFrost) (fun f =>
      decide (greenAmpt ((geoFrost.withFrost [1, 1, 1/20]).stack 2 15 (Sample.soilA.Ksat * (1/20))) G 2 (Sample.soilA.Ksat * (1/20))
        < f / 5)) = true) (by decide +kernel)
  obtain ⟨G, hG, h⟩ := h
  obtain ⟨f, hf, h⟩ := Sample.okAnd_exists h
  exact ⟨G, f, hG, hf, h⟩

/-- A saturated layer of 10 cm. -/
def colFull : List (Front ℚ) := [Sample.fr 10 (4/10) 1 1 true]

/-- The hypotheses of C86_closed: the column is full, the step ends. -/
example : saturatedStorage geo1 ≤ water geo1.cum colFull ∧
    Sample.okAnd (insertWater 100 true 120 geo1 (1/10) 1 3 0 10 1 1 colFull) (fun r => decide (r.2.1 = 0)) = true := by decide +kernel

/-- The hypotheses of C86_later_partial: 0.54 cm are free. -/
example : water geo1.cum col1 + 54/100 = saturatedStorage geo1 ∧
    Sample.okAnd (fpPotential 100 true 120 geo1 1 0 3 10 1 col1) (fun p => decide (54/100 / 1 ≤ p)) = true ∧
    fpCapacity 100 true 120 geo1 1 0 3 10 1 col1 = .ok (54/100) := by decide +kernel

/-- One layer of 30 cm, saturated at the start. -/
def cfgFull : List (List Char) :=
  ["layer_thickness=30[cm]".toList, "layer_soil_type=1".toList, "soil_params_file=x".toList,
   "max_valid_soil_types=2".toList, "initial_psi=0[cm]".toList, "timestep=60[min]".toList, "endtime=5[hr]".toList,
   "forcing_resolution=60[min]".toList, "ponded_depth_max=2[cm]".toList, "use_closed_form_G=true".toList,
   "wilting_point_psi=15495.0[cm]".toList, "field_capacity_psi=340.9[cm]".toList, "giuh_ordinates=0.7,0.3".toList]

/-- Test for C86_fails. -/
def FullTest (a : State Grid × List (State Grid)) : Prop :=
  saturatedStorage a.1.geo = water a.1.p.cum a.1.head ∧ a.2.length = 1 ∧
    ∀ x ∈ a.2, x.mb.volprecipT = 1/2 ∧ 9/100 < x.mb.volAETT ∧ x.mb.volinT = 0 ∧ x.mb.volon = 1/2

instance : DecidablePred FullTest := fun a => by unfold FullTest; infer_instance

theorem full_check : Sample.okAnd (Sample.play cfgFull 1000 true [(5, 1)]) (fun a => decide (FullTest a)) = true := by decide +kernel

attribute [local irreducible] Sample.env cfgFull Sample.play bmiInitialize in
/-- C86 fails: a saturated column, an hour with 5 mm of rain and 1 mm of PET.  ET takes 0.9 mm or more, none of the rain infiltrates,
all of it stands on the surface. -/
theorem C86_fails : ∃ (env : Env Grid) (lines : List (List Char)) (s0 s : State Grid) (hist : List (State Grid)),
    bmiInitialize env lines = .ok s0 ∧ saturatedStorage s0.geo = water s0.p.cum s0.head ∧ Run s0 hist s ∧ hist.length = 1 ∧
      s.mb.volprecipT = 1/2 ∧ 9/100 < s.mb.volAETT ∧ s.mb.volinT = 0 ∧ s.mb.volon = 1/2 := by
  obtain ⟨s0, hist, s, h1, h2, ⟨t1, t2, t3⟩, rfl⟩ := Sample.play_run full_check
  exact ⟨_, _, s0, _, hist, h1, t1, h2.run, t2, t3 _ (Sample.last1 t2)⟩

end Cases
end LGAR
