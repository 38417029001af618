import Verif.Props.Soil
import Mathlib.Analysis.Calculus.MeanValue
import Mathlib.Analysis.SpecialFunctions.Pow.Deriv
/-
C102: the conductivity curve is the one that Mualem's theory gives for the retention curve of the code; the closed-form capillary drive
is that of Brooks and Corey; the depth of a new front is that of Green and Ampt.
-/
set_option linter.unusedSectionVars false
namespace LGAR
open Real Set

/-- `F` is an antiderivative, from 0, of one over the head that the code computes for a saturation. -/
structure SoilProps.IntegratesHead (s : SoilProps ℝ) (F : ℝ → ℝ) : Prop where
  zero : F 0 = 0
  cont : ContinuousOn F (Icc 0 1)
  deriv : ∀ x, 0 < x → x < 1 → ∃ h, s.headAt x = .ok h ∧ HasDerivAt F (1 / h) x

/-- The antiderivative in closed form. -/
noncomputable def mualemF (alpha m x : ℝ) : ℝ := alpha * (1 - (1 - x ^ (1 / m)) ^ m)

theorem vgH_inv {alpha m n x : ℝ} (ha : 0 < alpha) (hn : 1 < n) (hm : m = 1 - 1 / n) (h0 : 0 < x) (h1 : x < 1) :
    1 / vgH alpha m n x = alpha * (x ^ (1 / m - 1) * (1 - x ^ (1 / m)) ^ (m - 1)) := by
  have hn0 : 0 < n := by linarith
  have hmp : 0 < m := by rw [hm, sub_pos, div_lt_one hn0]; exact hn
  have hy : x ^ (1 / m) < 1 := rpow_lt_one h0.le h1 (by positivity)
  have hy0 : 0 < x ^ (1 / m) := rpow_pos_of_pos h0 _
  have e1 : x ^ (-1 / m) - 1 = x ^ (-1 / m) * (1 - x ^ (1 / m)) := by
    rw [mul_sub, mul_one, ← rpow_add h0, show -1 / m + 1 / m = 0 by ring, rpow_zero]
  unfold vgH
  rw [e1, mul_rpow (rpow_nonneg h0.le _) (by linarith), ← rpow_mul h0.le]
  have e2 : m - 1 = -(1 / n) := by rw [hm]; ring
  have e3 : 1 / m - 1 = -(-1 / m * (1 / n)) := by
    have : m * n = n - 1 := by rw [hm]; field_simp
    have hm' : m ≠ 0 := hmp.ne'
    field_simp
    linarith
  rw [e2, e3, rpow_neg h0.le, rpow_neg (by linarith)]
  have hA : x ^ (-1 / m * (1 / n)) ≠ 0 := (rpow_pos_of_pos h0 _).ne'
  have hB : (1 - x ^ (1 / m)) ^ (1 / n) ≠ 0 := (rpow_pos_of_pos (by linarith) _).ne'
  field_simp

theorem mualemF_deriv {alpha m n x : ℝ} (ha : 0 < alpha) (hn : 1 < n) (hm : m = 1 - 1 / n) (h0 : 0 < x) (h1 : x < 1) :
    HasDerivAt (mualemF alpha m) (1 / vgH alpha m n x) x := by
  have hn0 : 0 < n := by linarith
  have hmp : 0 < m := by rw [hm, sub_pos, div_lt_one hn0]; exact hn
  have hy : x ^ (1 / m) < 1 := rpow_lt_one h0.le h1 (by positivity)
  rw [vgH_inv ha hn hm h0 h1]
  have d1 : HasDerivAt (fun y : ℝ => y ^ (1 / m)) (1 / m * x ^ (1 / m - 1)) x := hasDerivAt_rpow_const (Or.inl h0.ne')
  have d2 : HasDerivAt (fun y : ℝ => 1 - y ^ (1 / m)) (-(1 / m * x ^ (1 / m - 1))) x := by
    exact d1.const_sub 1
  have d3 : HasDerivAt (fun y : ℝ => (1 - y ^ (1 / m)) ^ m) (-(1 / m * x ^ (1 / m - 1)) * m * (1 - x ^ (1 / m)) ^ (m - 1)) x :=
    d2.rpow_const (Or.inl (by linarith))
  have d4 := (d3.const_sub 1).const_mul alpha
  refine d4.congr_deriv ?_
  have hm' : m ≠ 0 := hmp.ne'
  field_simp

theorem mualemF_cont {alpha m : ℝ} (hm : 0 < m) : ContinuousOn (mualemF alpha m) (Icc 0 1) := by
  unfold mualemF
  have hi : 0 ≤ 1 / m := by positivity
  have c1 : Continuous fun x : ℝ => x ^ (1 / m) := continuous_id.rpow_const fun _ => Or.inr hi
  have c2 : Continuous fun x : ℝ => (1 - x ^ (1 / m)) ^ m := (continuous_const.sub c1).rpow_const fun _ => Or.inr hm.le
  exact (continuous_const.mul (continuous_const.sub c2)).continuousOn

/-- Two antiderivatives of the same function differ by a constant. -/
theorem anti_unique {F G f : ℝ → ℝ} {a b : ℝ} (cF : ContinuousOn F (Icc a b)) (cG : ContinuousOn G (Icc a b))
    (dF : ∀ x, a < x → x < b → HasDerivAt F (f x) x) (dG : ∀ x, a < x → x < b → HasDerivAt G (f x) x) {x : ℝ} (hx : x ∈ Icc a b) :
    F x - G x = F a - G a := by
  have hd : ∀ y ∈ Ico a b, a < y → HasDerivWithinAt (fun z => F z - G z) 0 (Ici y) y := fun y hy h => by
    have := (dF y h hy.2).sub (dG y h hy.2)
    rw [sub_self] at this
    exact this.hasDerivWithinAt
  rcases eq_or_lt_of_le hx.1 with rfl | hlt
  · rfl
  have key : ∀ e, a < e → e ≤ x → F x - G x = F e - G e := fun e he hex => by
    have hsub : Icc e b ⊆ Icc a b := Icc_subset_Icc_left he.le
    refine constant_of_has_deriv_right_zero (f := fun z => F z - G z) (a := e) (b := b) ((cF.sub cG).mono hsub)
      (fun y hy => hd y ⟨by linarith [hy.1], hy.2⟩ (by linarith [hy.1])) x ⟨hex, hx.2⟩
  have hc : ContinuousWithinAt (fun z => F z - G z) (Icc a b) a := (cF.sub cG) a ⟨le_rfl, hx.1.trans hx.2⟩
  have hc' : ContinuousWithinAt (fun z => F z - G z) (Ioc a x) a :=
    hc.mono fun z hz => ⟨hz.1.le, hz.2.trans hx.2⟩
  have hne : (nhdsWithin a (Ioc a x)).NeBot := by
    rw [nhdsWithin_Ioc_eq_nhdsGT hlt]; infer_instance
  have t1 : Filter.Tendsto (fun z => F z - G z) (nhdsWithin a (Ioc a x)) (nhds (F x - G x)) :=
    (tendsto_const_nhds).congr' (by
      filter_upwards [self_mem_nhdsWithin] with z hz using key z hz.1 hz.2)
  exact tendsto_nhds_unique t1 hc'

theorem headAt_eq {s : SoilProps ℝ} (hs : s.Physical) {x : ℝ} (h0 : 0 < x) (h1 : x < 1) :
    s.headAt x = .ok (vgH s.vgAlpha s.vgM s.vgN x) := calcHFromSe_real hs.alpha hs.m_pos hs.n_pos h0 h1.le

/-- C102: one over the head of the code's retention curve has an antiderivative from 0, up to saturation 1. -/
theorem C102_antiderivative (s : SoilProps ℝ) (hs : s.Physical) : ∃ F, s.IntegratesHead F := by
  refine ⟨mualemF s.vgAlpha s.vgM, ?_, mualemF_cont hs.m_pos, fun x h0 h1 =>
    ⟨_, headAt_eq hs h0 h1, mualemF_deriv hs.alpha hs.n hs.m h0 h1⟩⟩
  have : (1 / s.vgM) ≠ 0 := by have := hs.m_pos; positivity
  simp only [mualemF, zero_rpow this, sub_zero, one_rpow, sub_self, mul_zero]

/-- C102: the conductivity is that of Mualem for the code's own retention curve: with `F(Se)` the integral of `1/h` from 0 to `Se`,
`K(Se) = Ksat * sqrt(Se) * (F(Se) / F(1))^2`. -/
theorem C102_mualem (s : SoilProps ℝ) (hs : s.Physical) (F : ℝ → ℝ) (hF : s.IntegratesHead F) (Se : ℝ) (h0 : 0 ≤ Se) (h1 : Se ≤ 1) :
    0 < F 1 ∧ s.kAt Se = .ok (s.Ksat * √Se * (F Se / F 1) ^ 2) := by
  have hm := hs.m_pos
  have hi : (1 / s.vgM) ≠ 0 := by positivity
  have key : ∀ x ∈ Icc (0 : ℝ) 1, F x = mualemF s.vgAlpha s.vgM x := fun x hx => by
    have := anti_unique (f := fun x => 1 / vgH s.vgAlpha s.vgM s.vgN x) hF.cont (mualemF_cont (alpha := s.vgAlpha) hm) (fun y a b => by
      obtain ⟨h, e, d⟩ := hF.deriv y a b
      rw [headAt_eq hs a b, Except.ok.injEq] at e
      rw [e]; exact d) (fun y a b => mualemF_deriv hs.alpha hs.n hs.m a b) hx
    rw [hF.zero] at this
    simp only [mualemF, zero_rpow hi, sub_zero, one_rpow, sub_self, mul_zero] at this
    unfold mualemF
    linarith
  have e1 : F 1 = s.vgAlpha := by
    rw [key 1 ⟨zero_le_one, le_rfl⟩]
    simp only [mualemF, one_rpow, sub_self, zero_rpow hm.ne', sub_zero, mul_one]
  refine ⟨by rw [e1]; exact hs.alpha, ?_⟩
  rw [SoilProps.kAt, calcKFromSe_real hm h0 h1, e1, key Se ⟨h0, h1⟩, mualemF, mul_div_cancel_left₀ _ hs.alpha.ne', muK, mul_assoc]

/-- Saturation at head `psi` of a soil with Brooks-Corey parameters. -/
noncomputable def bcSe (psib lambda psi : ℝ) : ℝ := (psib / psi) ^ lambda
/-- Relative conductivity of Brooks and Corey at head `psi`. -/
noncomputable def bcK (psib lambda psi : ℝ) : ℝ := bcSe psib lambda psi ^ (3 + 2 / lambda)

theorem bcK_anti {psib lambda psi : ℝ} (hb : 0 < psib) (hl : 0 < lambda) (hp : 0 < psi) :
    HasDerivAt (fun p => -(psib / (1 + 3 * lambda)) * (psib / p) ^ (1 + 3 * lambda)) (bcK psib lambda psi) psi := by
  have hq : 0 < psib / psi := div_pos hb hp
  have d1 : HasDerivAt (fun p : ℝ => psib / p) (-(psib / psi ^ 2)) psi := by
    have := (hasDerivAt_inv hp.ne').const_mul psib
    refine (this.congr_deriv (by ring)).congr_of_eventuallyEq (Filter.Eventually.of_forall fun p => by simp [div_eq_mul_inv])
  have d2 := (d1.rpow_const (p := 1 + 3 * lambda) (Or.inl hq.ne')).const_mul (-(psib / (1 + 3 * lambda)))
  refine d2.congr_deriv ?_
  unfold bcK bcSe
  rw [← rpow_mul hq.le, show lambda * (3 + 2 / lambda) = 3 * lambda + 2 by field_simp,
    show (3 * lambda + 2 : ℝ) = 3 * lambda + (2 : ℕ) by norm_num, rpow_add_natCast hq.ne',
    show (1 + 3 * lambda - 1 : ℝ) = 3 * lambda by ring]
  have : (1 + 3 * lambda : ℝ) ≠ 0 := by positivity
  field_simp

/-- C102: the closed-form capillary drive between two moistures is the integral of the relative conductivity of Brooks and Corey between
the corresponding heads, divided by what this integral would be up to saturation and scaled to the total drive
`psib (2 + 3 lambda) / (1 + 3 lambda)`: here for any antiderivative `P`, and heads above the bubbling pressure. -/
theorem C102_brooks_corey (fuel : Nat) (t1 t2 e r a n m Ks la ps p1 p2 : ℝ) (nint : Int) (P : ℝ → ℝ) (hre : r < e) (hla : 0 < la)
    (hps : 0 < ps) (h2 : ps ≤ p2) (h12 : p2 < p1) (e1 : bcSe ps la p1 = (t1 - r) / (e - r)) (e2 : bcSe ps la p2 = (t2 - r) / (e - r))
    (hc : ContinuousOn P (Icc ps p1)) (hd : ∀ p, ps < p → p < p1 → HasDerivAt P (bcK ps la p) p) :
    ∃ G, calcGeff fuel true t1 t2 e r a n m Ks nint la ps = .ok G ∧ 0 < P p1 - P ps ∧
      G = ps * ((2 + 3 * la) / (1 + 3 * la)) * ((P p1 - P p2) / (P p1 - P ps)) := by
  have hg : 0 < e - r := by linarith
  have l2 : (2.0 : ℝ) = 2 := by norm_num
  have l3 : (3.0 : ℝ) = 3 := by norm_num
  have hp2 : 0 < p2 := by linarith
  have hp1 : 0 < p1 := by linarith
  have hE : (0 : ℝ) < 1 + 3 * la := by positivity
  -- the antiderivative
  let Q : ℝ → ℝ := fun p => -(ps / (1 + 3 * la)) * (ps / p) ^ (1 + 3 * la)
  have hQc : ContinuousOn Q (Icc ps p1) := fun p hp =>
    (bcK_anti hps hla (by linarith [hp.1])).continuousAt.continuousWithinAt
  have key : ∀ p ∈ Icc ps p1, P p - Q p = P ps - Q ps := fun p hp =>
    anti_unique hc hQc hd (fun y a b => bcK_anti hps hla (by linarith)) hp
  have k1 := key p1 ⟨by linarith, le_rfl⟩
  have k2 := key p2 ⟨h2, h12.le⟩
  have hQ : ∀ p, 0 < p → Q p = -(ps / (1 + 3 * la)) * bcSe ps la p ^ (3 + 1 / la) := fun p hp => by
    have hq : 0 < ps / p := div_pos hps hp
    simp only [Q, bcSe]
    rw [← rpow_mul hq.le, show la * (3 + 1 / la) = 1 + 3 * la by field_simp; ring]
  have hs0 : bcSe ps la ps = 1 := by rw [bcSe, div_self hps.ne', one_rpow]
  have q1 := hQ p1 hp1
  have q2 := hQ p2 hp2
  have q0 := hQ ps hps
  rw [hs0, one_rpow] at q0
  rw [e1] at q1
  rw [e2] at q2
  have s1 : 0 < bcSe ps la p1 := rpow_pos_of_pos (div_pos hps hp1) _
  have s2 : 0 < bcSe ps la p2 := rpow_pos_of_pos (div_pos hps hp2) _
  have s1' : bcSe ps la p1 < 1 := rpow_lt_one (div_pos hps hp1).le (by rw [div_lt_one hp1]; linarith) hla
  rw [e1] at s1 s1'
  rw [e2] at s2
  unfold calcGeff
  simp only [Bool.not_true, Bool.false_eq_true, if_false, l2, l3]
  rw [calcSeFromTheta_real hre, ok_bind, calcSeFromTheta_real hre, ok_bind, cdiv_ne (by positivity), ok_bind,
    cdiv_ne hla.ne', ok_bind]
  set F := (t1 - r) / (e - r) with hF
  set I := (t2 - r) / (e - r) with hI
  have hpow : (CMath.powOk I (3 + 1 / la) && CMath.powOk F (3 + 1 / la)) = true := by
    simp [CMath.powOk, s1, s2]
  have hlt : F ^ (3 + 1 / la) < 1 := rpow_lt_one s1.le s1' (by positivity)
  rw [if_pos hpow]
  have hfin : CMath.divFin (ps * ((2 + 3 * la) / (1 + 3 * la)) * (CMath.pow I (3 + 1 / la) - CMath.pow F (3 + 1 / la)))
      (1 - CMath.pow F (3 + 1 / la)) = true := by
    rw [divFin_iff]
    simp only [CMath.pow]
    linarith
  rw [if_pos hfin]
  refine ⟨_, rfl, ?_, ?_⟩
  · have : P p1 - P ps = ps / (1 + 3 * la) * (1 - F ^ (3 + 1 / la)) := by
      rw [show P p1 - P ps = Q p1 - Q ps by linarith, q1, q0]; ring
    rw [this]
    exact mul_pos (div_pos hps hE) (by linarith)
  · rw [show P p1 - P ps = Q p1 - Q ps by linarith, show P p1 - P p2 = Q p1 - Q p2 by linarith, q1, q0, q2]
    simp only [CMath.pow]
    have h1 : 1 - F ^ (3 + 1 / la) ≠ 0 := by linarith
    have h2 : -(ps / (1 + 3 * la)) * F ^ (3 + 1 / la) - -(ps / (1 + 3 * la)) * 1 ≠ 0 := by
      rw [show -(ps / (1 + 3 * la)) * F ^ (3 + 1 / la) - -(ps / (1 + 3 * la)) * 1 = ps / (1 + 3 * la) * (1 - F ^ (3 + 1 / la)) by ring]
      exact mul_ne_zero (by positivity) h1
    have h3 : ps / (1 + 3 * la) ≠ 0 := by positivity
    have h4 : (-(ps / (1 + 3 * la)) * F ^ (3 + 1 / la) - -(ps / (1 + 3 * la)) * I ^ (3 + 1 / la)) /
        (-(ps / (1 + 3 * la)) * F ^ (3 + 1 / la) - -(ps / (1 + 3 * la)) * 1) =
        (I ^ (3 + 1 / la) - F ^ (3 + 1 / la)) / (1 - F ^ (3 + 1 / la)) := by
      rw [div_eq_div_iff h2 h1]; ring
    rw [h4, mul_div_assoc]

/-- C102, at saturation: between a moisture below saturation and saturation the drive is the total drive. -/
example : ∃ (t1 e r la ps p1 : ℝ) (P : ℝ → ℝ), r < e ∧ 0 < la ∧ 0 < ps ∧ ps < p1 ∧ bcSe ps la p1 = (t1 - r) / (e - r) ∧
    bcSe ps la ps = (e - r) / (e - r) ∧ ContinuousOn P (Icc ps p1) ∧ ∀ p, ps < p → p < p1 → HasDerivAt P (bcK ps la p) p := by
  refine ⟨1 / 2, 1, 0, 1, 10, 20, fun p => -(10 / (1 + 3 * 1)) * (10 / p) ^ ((1 : ℝ) + 3 * 1), by norm_num, by norm_num, by norm_num,
    by norm_num, by norm_num [bcSe], by norm_num [bcSe], fun p hp => ?_, fun p hp _ => bcK_anti (by norm_num) (by norm_num) (by linarith)⟩
  exact (bcK_anti (psib := 10) (lambda := 1) (by norm_num) (by norm_num)
    (by linarith [hp.1])).continuousAt.continuousWithinAt

/-- C102: soils with such parameters exist. -/
example : loam.Physical ∧ (∃ F, loam.IntegratesHead F) := ⟨loam_physical, C102_antiderivative loam loam_physical⟩

/-- C30: the depth of a new front is the bottom of the layer or, if that is less, the depth `r` that a saturated front reaches in one
time step when water enters at the Green-Ampt rate: the water `r * (theta_e - theta)` below it is `dt * K * (1 + G / r)`, and this `r` is
the only positive one. -/
theorem C30_law (fuel : Nat) (closed : Bool) (nint : Int) (g : Geo ℝ) (dt : ℝ) (n : Front ℝ) (t : List (Front ℝ)) (dry delta : ℝ)
    (s : SoilProps ℝ) (ff bot : ℝ) (hg : g.soil n.layer = .ok s) (hff : g.frozen[n.layer]? = some ff) (hbot : g.cum[n.layer]? = some bot)
    (hdt : 0 < dt) (hK : 0 < s.Ksat * ff) (hth : n.theta < s.thetaE)
    (h : calcDryDepth fuel closed nint g dt (n :: t) = .ok (dry, delta)) :
    delta = s.thetaE - n.theta ∧ ∃ G r, calcGeff fuel closed n.theta s.thetaE s.thetaE s.thetaR s.vgAlpha s.vgN s.vgM (s.Ksat * ff) nint
      s.bcLambda s.bcPsib = .ok G ∧ 0 < r ∧ dry = min bot r ∧ r * (s.thetaE - n.theta) = dt * (s.Ksat * ff) * (1 + G / r) ∧
      (0 ≤ G → ∀ x, 0 < x → x * (s.thetaE - n.theta) = dt * (s.Ksat * ff) * (1 + G / x) → x = r) := by
  unfold calcDryDepth at h
  simp only [bind_ok_iff, deref_ok_iff, idx_ok_iff, List.getElem?_cons_zero, Option.some.injEq, cdiv_ok, csqrt_ok_iff] at h
  obtain ⟨c, rfl, s', hs, ff', hff', tau, ⟨hne, htau⟩, Ge, hG, q, ⟨hq0, hq⟩, bot', hb, h⟩ := h
  rw [hg, Except.ok.injEq] at hs
  subst hs
  rw [hff, Option.some.injEq] at hff'
  subst hff'
  rw [hbot, Option.some.injEq] at hb
  subst hb
  simp only [pure_eq_ok, Except.ok.injEq, Prod.mk.injEq, fmin_eq, lit_half] at h
  obtain ⟨rfl, rfl⟩ := h
  have hd : 0 < s.thetaE - n.theta := by linarith
  have htp : 0 < tau := by rw [htau]; exact div_pos (mul_pos hdt hK) hd
  have l4 : (4.0 : ℝ) = 4 := by norm_num
  rw [l4] at hq0 hq
  have hqn : 0 ≤ q := by rw [hq]; exact sqrt_nonneg _
  have hqq : q * q = tau * tau + 4 * tau * Ge := by
    rw [hq]
    exact mul_self_sqrt (by simpa [CMath.sqrtOk] using hq0)
  have hr : 0 < 1 / 2 * (tau + q) := by linarith
  have hT : tau * (s.thetaE - n.theta) = dt * (s.Ksat * ff) := by rw [htau]; field_simp
  have hroot : ∀ x : ℝ, 0 < x → (x * (s.thetaE - n.theta) = dt * (s.Ksat * ff) * (1 + Ge / x) ↔ x * x = tau * x + tau * Ge) := by
    intro x hx
    rw [← hT]
    constructor
    · intro e
      have e' : x * (s.thetaE - n.theta) * x = tau * (s.thetaE - n.theta) * (1 + Ge / x) * x := by rw [e]
      have : tau * (s.thetaE - n.theta) * (1 + Ge / x) * x = tau * (s.thetaE - n.theta) * (x + Ge) := by field_simp
      rw [this] at e'
      have : (s.thetaE - n.theta) * (x * x) = (s.thetaE - n.theta) * (tau * x + tau * Ge) := by linarith
      exact mul_left_cancel₀ hd.ne' this
    · intro e
      field_simp
      linear_combination e
  refine ⟨rfl, Ge, _, hG, hr, rfl, (hroot _ hr).mpr (by nlinarith), fun hG0 x hx e => ?_⟩
  have e1 := (hroot x hx).mp e
  have e2 : (1 / 2 * (tau + q)) * (1 / 2 * (tau + q)) = tau * (1 / 2 * (tau + q)) + tau * Ge := by nlinarith
  set r := 1 / 2 * (tau + q)
  have e3 : (x - r) * (x + r - tau) = 0 := by linear_combination e1 - e2
  rcases mul_eq_zero.mp e3 with h | h
  · linarith
  · have : tau ≤ r := by
      have : tau ≤ q := by
        by_contra hlt
        have hlt := not_le.mp hlt
        nlinarith [mul_nonneg htp.le hG0]
      simp only [r]; linarith
    exfalso
    linarith

/-- C30_law: a column of one loamy layer, half saturated. -/
example : ∃ (fuel : Nat) (g : Geo ℝ) (dt : ℝ) (n : Front ℝ) (dry delta : ℝ) (s : SoilProps ℝ) (ff bot : ℝ), g.soil n.layer = .ok s ∧
    g.frozen[n.layer]? = some ff ∧ g.cum[n.layer]? = some bot ∧ 0 < dt ∧ 0 < s.Ksat * ff ∧ n.theta < s.thetaE ∧
    calcDryDepth fuel false 120 g dt [n] = .ok (dry, delta) := by
  let g : Geo ℝ := { numLayers := 1, cum := [0, 100], soilType := [0, 1], frozen := [1, 1], soils := [loam, loam] }
  let n : Front ℝ := ⟨100, 1 / 2, 100, 1, 1, 1, true, 0⟩
  have hs : g.soil n.layer = .ok loam := rfl
  obtain ⟨f0, dry, _, _, h⟩ := C30_defined false 120 g 1 n [] loam 1 100 hs loam_physical rfl rfl one_pos (by norm_num) one_pos
    (by norm_num) (by norm_num [loam]) (by norm_num [loam]) (by norm_num [loam, n]) (by norm_num [loam, n])
  exact ⟨f0, g, 1, n, dry, _, loam, 1, 100, hs, rfl, rfl, one_pos, by norm_num [loam], by norm_num [loam, n], h f0 le_rfl⟩

end LGAR
