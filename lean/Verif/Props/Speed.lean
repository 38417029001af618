import Verif.Lemmas.Dzdt
import Verif.Props.Soil
/-
Properties C28, C29 and the front-speed part of C16.
-/
set_option linter.unusedSectionVars false
namespace LGAR
attribute [-instance] Rat.instOfScientific

section Free
variable {α : Type} [Add α] [Sub α] [Mul α] [Div α] [Neg α] [Zero α] [One α] [OfScientific α]
  [LT α] [LE α] [DecidableLT α] [DecidableLE α] [BEq α] [CMath α]

/-- C28, any arithmetic: only speeds change; the deepest front is unchanged altogether; a front at the bottom of its layer
gets speed 0; the call returns only if no conductivity is negative and no moving front is drier than the next one. -/
theorem C28_frame (fuel : Nat) (closed : Bool) (nint : Int) (hp : α) (g : Geo α) (l l' : List (Front α))
    (h : dzdtCalc fuel closed nint hp g l = .ok l') :
    l'.map Front.noSpeed = l.map Front.noSpeed ∧ l'.getLast? = l.getLast? ∧ (∀ f ∈ l, ¬ f.K < 0) ∧
    (∀ i c n, l[i]? = some c → l[i + 1]? = some n → c.toBottom = true → ∃ c', l'[i]? = some c' ∧ c'.dzdt = 0) ∧
    (∀ i c n, l[i]? = some c → l[i + 1]? = some n → c.toBottom = false → ¬ c.theta < n.theta) := by
  refine ⟨dzdtCalc_frame h, ?_, ?_, ?_, ?_⟩
  · obtain ⟨hne, h⟩ := dzdtCalc_go h
    obtain ⟨hlen, hall⟩ := dzdtGo_get h
    have hpos : 0 < l.length := List.length_pos_iff.mpr hne
    rw [List.getLast?_eq_getElem?, List.getLast?_eq_getElem?, hlen]
    cases hi : l[l.length - 1]? with
    | none => rw [List.getElem?_eq_none_iff] at hi; omega
    | some c =>
      exact (hall _ c hi).2.1 (by rw [List.getElem?_eq_none_iff]; omega)
  · intro f hf
    obtain ⟨_, hg⟩ := dzdtCalc_go h
    obtain ⟨i, hi⟩ := List.getElem?_of_mem hf
    exact ((dzdtGo_get hg).2 i f hi).1
  · intro i c n hc hn hb
    obtain ⟨_, hg⟩ := dzdtCalc_go h
    obtain ⟨_, _, v, _, _, hv, he⟩ := ((dzdtGo_get hg).2 i c hc).2.2 n hn
    rw [dzdtVel, if_pos hb, Except.ok.injEq] at hv
    exact ⟨_, he, hv.symm⟩
  · intro i c n hc hn hb hlt
    obtain ⟨_, hg⟩ := dzdtCalc_go h
    obtain ⟨_, _, v, _, _, hv, he⟩ := ((dzdtGo_get hg).2 i c hc).2.2 n hn
    rw [dzdtVel, if_neg (by simp [hb]), dzdtOne] at hv
    simp only [bind_ok_iff] at hv
    obtain ⟨_, _, hv⟩ := hv
    rw [if_pos hlt] at hv
    exact absurd hv (by simp)

/-- C16 for the speed computation: no NULL dereference and no index outside the layer arrays. -/
theorem C16_speed_safe (fuel : Nat) (closed : Bool) (nint : Int) (hp : α) (g : Geo α) (hg : g.Valid)
    (l : List (Front α)) (hr : ∀ f ∈ l, 1 ≤ f.layer ∧ f.layer ≤ g.numLayers) (w : String) :
    dzdtCalc fuel closed nint hp g l ≠ .error (.ub w) := by
  refine Spec.no_ub (Q := fun _ => True) (fb := .mem) ?_ w
  unfold dzdtCalc
  exact Spec.ite (fun _ => Spec.error (by simp [Err.bad])) (fun _ => spec_dzdtGo hg hr)
end Free

/-- A retention curve usable by both forms of the capillary drive. -/
structure SoilProps.Usable (s : SoilProps ℝ) : Prop where
  phys : s.Physical
  lam : 0 < s.bcLambda
  psib : 0 ≤ s.bcPsib

theorem geff_nonneg {fuel : Nat} {closed : Bool} {t1 t2 e r a n m Ks la ps G : ℝ} {nint : Int} (hre : r < e)
    (h1 : r ≤ t1) (h12 : t1 ≤ t2) (h2 : t2 ≤ e) (hla : 0 < la) (hps : 0 ≤ ps)
    (h : calcGeff fuel closed t1 t2 e r a n m Ks nint la ps = .ok G) : 0 ≤ G := by
  cases closed
  · unfold calcGeff at h
    simp only [Bool.not_false, if_true, bind_ok_iff, pure_eq_ok, Except.ok.injEq, fabs_eq] at h
    obtain ⟨_, _, _, _, _, _, _, _, _, _, _, _, _, _, _, _, rfl⟩ := h
    exact abs_nonneg _
  · obtain ⟨G', e, h0, _⟩ := C23_closed_form fuel t1 t2 e r a n m Ks la ps nint hre h1 h12 h2 hla hps
    rw [h, Except.ok.injEq] at e
    subst e; exact h0

theorem layerK_nonneg {g : Geo ℝ} {k : Nat} {psi kk : ℝ} (hK : ∀ s, g.soil k = .ok s → 0 ≤ s.Ksat)
    (hf : ∀ f, g.frozen[k]? = some f → 0 ≤ f) (h : layerK g k psi = .ok kk) : 0 ≤ kk := by
  unfold layerK calcKFromSe at h
  simp only [bind_ok_iff, idx_ok_iff, csqrt_ok_iff, cpow_ok_iff, pure_eq_ok, Except.ok.injEq] at h
  obtain ⟨s, hs, th, _, Se, _, ff, hff, q, ⟨_, rfl⟩, im, _, a, _, b, _, c, ⟨_, rfl⟩, rfl⟩ := h
  have h1 := hK s hs
  have h2 := hf ff hff
  have h3 : (0 : ℝ) ≤ CMath.sqrt Se := Real.sqrt_nonneg _
  have h4 : (0 : ℝ) ≤ CMath.pow (1 - b) 2.0 := by
    show (0 : ℝ) ≤ (1 - b) ^ (2.0 : ℝ)
    rw [show (2.0 : ℝ) = ((2 : ℕ) : ℝ) by norm_num, Real.rpow_natCast]
    exact sq_nonneg _
  positivity

theorem dzdtDenom_nonneg {g : Geo ℝ} {layer : Nat} {psi : ℝ} (hK : ∀ k s, g.soil k = .ok s → 0 ≤ s.Ksat)
    (hf : ∀ (k : Nat) f, g.frozen[k]? = some f → 0 ≤ f)
    (hc : ∀ k c1 c0, g.cum[k]? = some c1 → g.cum[k - 1]? = some c0 → c0 ≤ c1) :
    ∀ {n k : Nat} {b d : ℝ}, 0 ≤ b → dzdtDenom g layer psi n k b = .ok d → 0 ≤ d
  | 0, k, b, d, hb, h => by simp [dzdtDenom] at h; subst h; exact hb
  | n + 1, k, b, d, hb, h => by
    unfold dzdtDenom at h
    simp only [bind_ok_iff] at h
    obtain ⟨t, ht, h⟩ := h
    obtain ⟨kk, c1, c0, hk, _, hc1, h0, hc0, rfl⟩ := dzdtTerm_val ht
    refine dzdtDenom_nonneg hK hf hc ?_ h
    have := layerK_nonneg (hK _) (hf _) hk
    have := hc k c1 c0 hc1 hc0
    exact add_nonneg hb (div_nonneg (by linarith) ‹_›)

/-- C28: every moving front gets a speed in (0, 1e4] cm/h. -/
theorem C28_speed_range (fuel : Nat) (closed : Bool) (nint : Int) (hp : ℝ) (g : Geo ℝ) (l l' : List (Front ℝ))
    (hsoil : ∀ k s, g.soil k = .ok s → s.Usable) (hfrozen : ∀ (k : Nat) f, g.frozen[k]? = some f → 0 ≤ f)
    (hcum : ∀ k c1 c0, g.cum[k]? = some c1 → g.cum[k - 1]? = some c0 → c0 ≤ c1)
    (hdepth : ∀ f ∈ l, 0 < f.depth ∧ ∀ b, g.cum[f.layer - 1]? = some b → b ≤ f.depth)
    (htheta : ∀ f ∈ l, ∀ s, g.soil f.layer = .ok s → s.thetaR ≤ f.theta ∧ f.theta ≤ s.thetaE)
    (hlayer : ∀ i c n, l[i]? = some c → l[i + 1]? = some n → c.toBottom = false → n.layer = c.layer)
    (hhp : 0 ≤ hp) (h : dzdtCalc fuel closed nint hp g l = .ok l') :
    ∀ i c n, l[i]? = some c → l[i + 1]? = some n → c.toBottom = false →
      ∃ c', l'[i]? = some c' ∧ 0 < c'.dzdt ∧ c'.dzdt ≤ (1e4 : ℝ) := by
  intro i c n hc hn hb
  obtain ⟨_, _, hKneg, _, hord⟩ := C28_frame fuel closed nint hp g l l' h
  have hcn : n.theta ≤ c.theta := not_lt.mp (hord i c n hc hn hb)
  have hck : 0 ≤ c.K := not_lt.mp (hKneg c (List.mem_of_getElem? hc))
  obtain ⟨_, hg⟩ := dzdtCalc_go h
  obtain ⟨s, ff, v, hs, hff, hv, he⟩ := ((dzdtGo_get hg).2 i c hc).2.2 n hn
  refine ⟨_, he, ?_⟩
  rw [dzdtVel, if_neg (by simp [hb]), dzdtOne] at hv
  simp only [bind_ok_iff] at hv
  obtain ⟨bs, hbs, hv⟩ := hv
  rw [if_neg (not_lt.mpr hcn)] at hv
  simp only [bind_ok_iff, pure_eq_ok, Except.ok.injEq] at hv
  obtain ⟨G, hG, w, hw, rfl⟩ := hv
  have hu := hsoil _ _ hs
  obtain ⟨hd0, hdb⟩ := hdepth c (List.mem_of_getElem? hc)
  have hff0 := hfrozen _ _ hff
  have hns := htheta n (List.mem_of_getElem? hn) s (by rw [hlayer i c n hc hn hb]; exact hs)
  have hcs := htheta c (List.mem_of_getElem? hc) s hs
  have hG0 : 0 ≤ G := geff_nonneg hu.phys.gap hns.1 hcn hcs.2 hu.lam hu.psib hG
  have hKs : 0 ≤ s.Ksat * ff := mul_nonneg hu.phys.ksat.le hff0
  have hbs0 : 0 ≤ bs := by
    unfold dzdtBottomSum at hbs
    split at hbs
    · simp only [bind_ok_iff, idxPred_ok_iff, cdiv_ok, Except.ok.injEq] at hbs
      obtain ⟨base, ⟨_, hbase⟩, q, ⟨_, rfl⟩, rfl⟩ := hbs
      have := hdb base hbase
      rw [zero_add]
      exact div_nonneg (by linarith) hck
    · simp only [Except.ok.injEq] at hbs; exact hbs.le
  refine dzdtClamp_zero ?_
  unfold dzdtRaw at hw
  dsimp only at hw
  split at hw
  · split at hw
    · simp only [bind_ok_iff, cdiv_ok, Except.ok.injEq] at hw
      obtain ⟨inv, ⟨_, rfl⟩, q, ⟨_, rfl⟩, rfl⟩ := hw
      have : 0 < c.theta - n.theta := ‹_›
      positivity
    · simp only [Except.ok.injEq] at hw; exact hw.le
  · simp only [bind_ok_iff] at hw
    obtain ⟨den, hden, hw⟩ := hw
    have hden0 := dzdtDenom_nonneg (fun k s hs => (hsoil k s hs).phys.ksat.le) hfrozen hcum hbs0 hden
    split at hw
    · simp only [bind_ok_iff, cdiv_ok, Except.ok.injEq] at hw
      obtain ⟨inv, ⟨_, rfl⟩, q1, ⟨_, rfl⟩, q2, ⟨_, rfl⟩, rfl⟩ := hw
      have : 0 < c.theta - n.theta := ‹_›
      positivity
    · simp only [Except.ok.injEq] at hw; exact hw.le

/-- Two fronts in one layer of `loam`. -/
noncomputable def movingPair : List (Front ℝ) :=
  [{ depth := 10, theta := 1/2, psi := 1, K := 1/10, layer := 1, front := 1, toBottom := false, dzdt := 0 },
   { depth := 100, theta := 1/4, psi := 1, K := 1/100, layer := 1, front := 2, toBottom := true, dzdt := 0 }]

theorem loam_usable : loam.Usable := ⟨loam_physical, by norm_num [loam], by norm_num [loam]⟩

theorem geoLoam_soils (k : Nat) (s : SoilProps ℝ) (h : geoLoam.soil k = .ok s) : s = loam := by
  rcases k with _ | _ | k
  · simpa [Geo.soil, geoLoam, idx, idxI, ok_bind] using h.symm
  · simpa [Geo.soil, geoLoam, idx, idxI, ok_bind] using h.symm
  · simp [Geo.soil, geoLoam, idx, error_bind] at h

example : (∀ k s, geoLoam.soil k = .ok s → s.Usable) ∧ (∀ f ∈ movingPair, 0 < f.depth) ∧
    (∀ f ∈ movingPair, ∀ s, geoLoam.soil f.layer = .ok s → s.thetaR ≤ f.theta ∧ f.theta ≤ s.thetaE) := by
  refine ⟨fun k s h => by rw [geoLoam_soils k s h]; exact loam_usable, ?_, ?_⟩
  · intro f hf; simp [movingPair] at hf; rcases hf with rfl | rfl <;> norm_num
  · intro f hf s hs
    rw [geoLoam_soils _ _ hs]
    simp [movingPair] at hf; rcases hf with rfl | rfl <;> norm_num [loam]

section Pairing
variable {K : Type} [Field K] [LinearOrder K] [IsStrictOrderedRing K] [CMath K] [LawfulNum K]
open Finset

/-- Resistance of the layers 1, ..., m: each thickness over its own conductivity. -/
def stackResistance (T Kf : Nat → K) (m : Nat) : K := ∑ k ∈ range m, T (k + 1) / Kf (k + 1)

/-- C29 for infiltration: `bottom_sum` of lgar_insert_water pairs each layer's thickness with its own conductivity. -/
theorem C29_infiltration (g : Geo K) (T Kf : Nat → K) (m : Nat) (b d : K)
    (hT : ∀ k c1 c0, 0 < k → g.cum[k]? = some c1 → g.cum[k - 1]? = some c0 → T k = c1 - c0)
    (hK : ∀ k s ff, g.soil k = .ok s → g.frozen[k]? = some ff → Kf k = s.Ksat * ff)
    (h : fpBottomSum g m b = .ok d) : d = b + stackResistance T Kf m :=
  fpBottomSum_val hT hK h

/-- C29 for the speed of a front in layer 2: the denominator is right. -/
theorem C29_speed_two_layers_partial (g : Geo K) (psi : K) (T Kf : Nat → K) (b d : K)
    (hT : ∀ k c1 c0, 0 < k → g.cum[k]? = some c1 → g.cum[k - 1]? = some c0 → T k = c1 - c0)
    (hK : ∀ k kk, layerK g k psi = .ok kk → Kf k = kk)
    (h : dzdtDenom g 2 psi 1 1 b = .ok d) : d = b + stackResistance T Kf 1 := by
  rw [dzdtDenom_val hT hK h]; simp [stackResistance]

/-- C29 for layers of equal thickness: the mispairing is invisible. -/
theorem C29_speed_equal_thickness_partial (g : Geo K) (layer : Nat) (psi w : K) (T Kf : Nat → K) (b d : K)
    (hT : ∀ k c1 c0, 0 < k → g.cum[k]? = some c1 → g.cum[k - 1]? = some c0 → T k = c1 - c0) (hw : ∀ k, T k = w)
    (hK : ∀ k kk, layerK g k psi = .ok kk → Kf k = kk)
    (h : dzdtDenom g layer psi (layer - 1) 1 b = .ok d) : d = b + stackResistance T Kf (layer - 1) := by
  rw [dzdtDenom_val hT hK h, stackResistance]
  congr 1
  simp only [hw]
  rw [← Finset.sum_range_reflect]
  refine Finset.sum_congr rfl fun i hi => ?_
  rw [Finset.mem_range] at hi
  congr 2
  omega

/-- What the code computes: the thickness of layer `k` over the conductivity of layer `layer - k`. -/
theorem C29_speed_computed (g : Geo K) (layer : Nat) (psi : K) (T Kf : Nat → K) (b d : K)
    (hT : ∀ k c1 c0, 0 < k → g.cum[k]? = some c1 → g.cum[k - 1]? = some c0 → T k = c1 - c0)
    (hK : ∀ k kk, layerK g k psi = .ok kk → Kf k = kk)
    (h : dzdtDenom g layer psi (layer - 1) 1 b = .ok d) :
    d = b + ∑ k ∈ range (layer - 1), T (k + 1) / Kf (layer - (k + 1)) := by
  rw [dzdtDenom_val hT hK h]
  congr 1
  refine Finset.sum_congr rfl fun i _ => ?_
  rw [Nat.add_comm 1 i]
end Pairing

/-- Three layers of 10, 20 and 30 cm. -/
def geo3 : Geo ℚ :=
  { numLayers := 3, cum := [0, 10, 30, 60], soilType := [0, 1, 2, 1], frozen := [1, 1, 1, 1],
    soils := [Sample.soilA, Sample.soilA, Sample.soilB] }

/-- C29 fails for a front in layer 3: at saturation the conductivities are 1, 2 and 1, the right sum is 10/1 + 20/2 = 20,
the code computes 10/2 + 20/1 = 25. -/
theorem C29_speed_three_layers_fails :
    (∃ d, dzdtDenom geo3 3 0 2 1 0 = .ok d ∧ d = 25) ∧
    (∃ k1 k2, layerK geo3 1 0 = .ok k1 ∧ layerK geo3 2 0 = .ok k2 ∧ k1 = 1 ∧ k2 = 2) ∧
    stackResistance (fun k => [0, 10, 20, 30].getD k 0) (fun k => [1, 1, 2, 1].getD k 1) 2 = (20 : ℚ) := by
  refine ⟨Sample.okAnd_exists (by decide +kernel), ?_, ?_⟩
  · obtain ⟨a, ha, ha'⟩ := Sample.okAnd_exists (x := layerK geo3 1 0) (p := fun a => a = 1) (by decide +kernel)
    obtain ⟨b, hb, hb'⟩ := Sample.okAnd_exists (x := layerK geo3 2 0) (p := fun a => a = 2) (by decide +kernel)
    exact ⟨a, b, ha, hb, ha', hb'⟩
  · norm_num [stackResistance, Finset.sum_range_succ]

/-- Two layers: the hypotheses of the two-layer theorem hold. -/
example : ∃ d, dzdtDenom Sample.geo2 2 0 1 1 0 = .ok d ∧ d = 10 := Sample.okAnd_exists (by decide +kernel)
/-- Infiltration through three layers: right pairing. -/
example : ∃ d, fpBottomSum geo3 2 0 = .ok d ∧ d = 20 := Sample.okAnd_exists (by decide +kernel)

end LGAR
