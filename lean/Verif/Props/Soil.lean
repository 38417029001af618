import Verif.Lemmas.SoilReal
import Verif.Spec.Physical
import Verif.Props.Passes
import Verif.Lemmas.Infil
/-
Properties C20-C25 and the real-number corollary of C08.
-/
set_option linter.unusedSectionVars false
namespace LGAR
open Real

/-- Moisture at head `h`, as computed for soil `s`. -/
noncomputable def SoilProps.thetaAt (s : SoilProps ℝ) (h : ℝ) : Res ℝ :=
  calcThetaFromH h s.vgAlpha s.vgM s.vgN s.thetaE s.thetaR
/-- Head at saturation `Se`. -/
noncomputable def SoilProps.headAt (s : SoilProps ℝ) (Se : ℝ) : Res ℝ := calcHFromSe Se s.vgAlpha s.vgM s.vgN
/-- Saturation at moisture `th`. -/
noncomputable def SoilProps.seOf (s : SoilProps ℝ) (th : ℝ) : Res ℝ := calcSeFromTheta th s.thetaE s.thetaR
/-- Saturation at head `h`. -/
noncomputable def SoilProps.seAt (s : SoilProps ℝ) (h : ℝ) : Res ℝ := calcSeFromH h s.vgAlpha s.vgM s.vgN
/-- Conductivity at saturation `Se`. -/
noncomputable def SoilProps.kAt (s : SoilProps ℝ) (Se : ℝ) : Res ℝ := calcKFromSe Se s.Ksat s.vgM

/-- C20: moisture at a head >= 0 is defined, above residual, at most saturated. -/
theorem C20_bounded (s : SoilProps ℝ) (hs : s.Physical) (h : ℝ) (hh : 0 ≤ h) :
    ∃ th, s.thetaAt h = .ok th ∧ s.thetaR < th ∧ th ≤ s.thetaE := by
  refine ⟨_, calcThetaFromH_real hs.alpha hs.n_pos hh, ?_, ?_⟩
  · have := vgSe_pos (m := s.vgM) (n := s.vgN) hs.alpha hh
    have := hs.gap
    have : 0 < vgSe s.vgAlpha s.vgM s.vgN h * (s.thetaE - s.thetaR) := mul_pos ‹_› (by linarith)
    linarith
  · have := vgSe_le_one (n := s.vgN) hs.alpha hs.m_pos.le hh
    have := hs.gap
    nlinarith

/-- C20: saturated at head 0. -/
theorem C20_saturated (s : SoilProps ℝ) (hs : s.Physical) : s.thetaAt 0 = .ok s.thetaE := by
  rw [SoilProps.thetaAt, calcThetaFromH_real hs.alpha hs.n_pos (le_refl 0), vgSe_zero hs.n_pos.ne']
  congr 1; ring

/-- C20: strictly drier at a larger head. -/
theorem C20_strict (s : SoilProps ℝ) (hs : s.Physical) (h1 h2 t1 t2 : ℝ) (hh : 0 ≤ h1) (hlt : h1 < h2)
    (e1 : s.thetaAt h1 = .ok t1) (e2 : s.thetaAt h2 = .ok t2) : t2 < t1 := by
  rw [SoilProps.thetaAt, calcThetaFromH_real hs.alpha hs.n_pos hh] at e1
  rw [SoilProps.thetaAt, calcThetaFromH_real hs.alpha hs.n_pos (by linarith)] at e2
  simp only [Except.ok.injEq] at e1 e2
  have := vgSe_lt hs.alpha hs.m_pos hs.n_pos hh hlt
  have := hs.gap
  rw [← e1, ← e2]
  nlinarith

example : loam.Physical := loam_physical

/-- C21: head to moisture to saturation to head is the identity for every head >= 0. -/
theorem C21_head_roundtrip (s : SoilProps ℝ) (hs : s.Physical) (h : ℝ) (hh : 0 ≤ h) :
    ∃ th Se, s.thetaAt h = .ok th ∧ s.seOf th = .ok Se ∧ s.headAt Se = .ok h := by
  have hg := hs.gap
  refine ⟨_, vgSe s.vgAlpha s.vgM s.vgN h, calcThetaFromH_real hs.alpha hs.n_pos hh, ?_, ?_⟩
  · rw [SoilProps.seOf, calcSeFromTheta_real hg]
    have : s.thetaE - s.thetaR ≠ 0 := by linarith
    congr 1; field_simp; ring
  · rw [SoilProps.headAt, calcHFromSe_real hs.alpha hs.m_pos hs.n_pos (vgSe_pos hs.alpha hh)
      (vgSe_le_one hs.alpha hs.m_pos.le hh), vgH_vgSe hs.alpha hs.m_pos hs.n_pos hh]

/-- C21: saturation to head to moisture to saturation is the identity on (0, 1]. -/
theorem C21_saturation_roundtrip (s : SoilProps ℝ) (hs : s.Physical) (Se : ℝ) (h0 : 0 < Se) (h1 : Se ≤ 1) :
    ∃ h th, s.headAt Se = .ok h ∧ 0 ≤ h ∧ s.thetaAt h = .ok th ∧ s.seOf th = .ok Se := by
  have hg := hs.gap
  have hh := vgH_nonneg (n := s.vgN) hs.alpha hs.m_pos h0 h1
  refine ⟨_, _, calcHFromSe_real hs.alpha hs.m_pos hs.n_pos h0 h1, hh, calcThetaFromH_real hs.alpha hs.n_pos hh, ?_⟩
  rw [SoilProps.seOf, calcSeFromTheta_real hg, vgSe_vgH hs.alpha hs.m_pos hs.n_pos h0 h1]
  have : s.thetaE - s.thetaR ≠ 0 := by linarith
  congr 1; field_simp; ring

/-- C21: calc_h_from_Se inverts calc_Se_from_h for heads from 1e-10 cm on. -/
theorem C21_se_roundtrip (s : SoilProps ℝ) (hs : s.Physical) (h : ℝ) (hh : 1e-10 ≤ h) :
    ∃ Se, s.seAt h = .ok Se ∧ s.headAt Se = .ok h := by
  have e : (1.0e-10 : ℝ) = 1e-10 := by norm_num
  have h0 : 0 ≤ h := le_trans (by norm_num) hh
  refine ⟨vgSe s.vgAlpha s.vgM s.vgN h, ?_, ?_⟩
  · rw [SoilProps.seAt, calcSeFromH_real hs.alpha hs.n_pos h0, if_neg (by rw [e]; linarith)]
  · rw [SoilProps.headAt, calcHFromSe_real hs.alpha hs.m_pos hs.n_pos (vgSe_pos hs.alpha h0)
      (vgSe_le_one hs.alpha hs.m_pos.le h0), vgH_vgSe hs.alpha hs.m_pos hs.n_pos h0]

/-- C21 fails below 1e-10 cm: every such head is sent to saturation 1, hence back to head 0. -/
theorem C21_tiny_head_lost (s : SoilProps ℝ) (hs : s.Physical) (h : ℝ) (h0 : 0 < h) (hh : h < 1e-10) :
    s.seAt h = .ok 1 ∧ s.headAt 1 = .ok 0 := by
  have e : (1.0e-10 : ℝ) = 1e-10 := by norm_num
  constructor
  · rw [SoilProps.seAt, calcSeFromH_real hs.alpha hs.n_pos h0.le, if_pos (by rw [e]; exact hh)]
  · rw [SoilProps.headAt, calcHFromSe_real hs.alpha hs.m_pos hs.n_pos one_pos (le_refl 1)]
    have hn : 1 / s.vgN ≠ 0 := by have := hs.n_pos; positivity
    simp [vgH, hs.n_pos.ne']

/-- C22: conductivity on [0,1] is defined and within [0, Ksat]. -/
theorem C22_bounded (s : SoilProps ℝ) (hs : s.Physical) (Se : ℝ) (h0 : 0 ≤ Se) (h1 : Se ≤ 1) :
    ∃ k, s.kAt Se = .ok k ∧ 0 ≤ k ∧ k ≤ s.Ksat := by
  refine ⟨_, calcKFromSe_real hs.m_pos h0 h1, mul_nonneg hs.ksat.le muK_nonneg, ?_⟩
  have := muK_le_one hs.m_pos h0 h1
  have := hs.ksat
  nlinarith

/-- C22: end points. -/
theorem C22_ends (s : SoilProps ℝ) (hs : s.Physical) : s.kAt 1 = .ok s.Ksat ∧ s.kAt 0 = .ok 0 := by
  constructor
  · rw [SoilProps.kAt, calcKFromSe_real hs.m_pos zero_le_one (le_refl 1), muK_one hs.m_pos, mul_one]
  · rw [SoilProps.kAt, calcKFromSe_real hs.m_pos (le_refl 0) zero_le_one, muK_zero hs.m_pos, mul_zero]

/-- C22: strictly increasing on [0,1]. -/
theorem C22_strict (s : SoilProps ℝ) (hs : s.Physical) (S1 S2 k1 k2 : ℝ) (h0 : 0 ≤ S1) (h12 : S1 < S2) (h1 : S2 ≤ 1)
    (e1 : s.kAt S1 = .ok k1) (e2 : s.kAt S2 = .ok k2) : k1 < k2 := by
  rw [SoilProps.kAt, calcKFromSe_real hs.m_pos h0 (by linarith)] at e1
  rw [SoilProps.kAt, calcKFromSe_real hs.m_pos (by linarith) h1] at e2
  simp only [Except.ok.injEq] at e1 e2
  rw [← e1, ← e2]
  exact mul_lt_mul_of_pos_left (muK_lt hs.m_pos h0 h12 h1) hs.ksat

/-- C23, closed form: defined and within [0, H_c] for fronts ordered dry below wet. -/
theorem C23_closed_form (fuel : Nat) (t1 t2 e r a n m Ks la ps : ℝ) (nint : Int) (hre : r < e) (h1 : r ≤ t1)
    (h12 : t1 ≤ t2) (h2 : t2 ≤ e) (hla : 0 < la) (hps : 0 ≤ ps) :
    ∃ G, calcGeff fuel true t1 t2 e r a n m Ks nint la ps = .ok G ∧ 0 ≤ G ∧
      G ≤ ps * ((2 + 3 * la) / (1 + 3 * la)) := by
  have hg : 0 < e - r := by linarith
  have l2 : (2.0 : ℝ) = 2 := by norm_num
  have l3 : (3.0 : ℝ) = 3 := by norm_num
  unfold calcGeff
  simp only [Bool.not_true, Bool.false_eq_true, if_false, l2, l3]
  rw [calcSeFromTheta_real hre, ok_bind, calcSeFromTheta_real hre, ok_bind, cdiv_ne (by positivity), ok_bind,
    cdiv_ne hla.ne', ok_bind]
  have hf0 : 0 ≤ (t1 - r) / (e - r) := div_nonneg (by linarith) hg.le
  have hfi : (t1 - r) / (e - r) ≤ (t2 - r) / (e - r) := div_le_div_of_nonneg_right (by linarith) hg.le
  have hi1 : (t2 - r) / (e - r) ≤ 1 := (div_le_one hg).mpr (by linarith)
  set F := (t1 - r) / (e - r) with hF
  set I := (t2 - r) / (e - r) with hI
  have hE : 0 ≤ 3 + 1 / la := by positivity
  have hHc : 0 ≤ ps * ((2 + 3 * la) / (1 + 3 * la)) := by positivity
  have pI : I ^ (3 + 1 / la) ≤ 1 := rpow_le_one (hf0.trans hfi) hi1 hE
  have pF : F ^ (3 + 1 / la) ≤ I ^ (3 + 1 / la) := rpow_le_rpow hf0 hfi hE
  split
  · split
    · rename_i hfin
      rw [divFin_iff] at hfin
      refine ⟨_, rfl, ?_⟩
      simp only [CMath.pow] at hfin ⊢
      have hden : 0 < 1 - F ^ (3 + 1 / la) := lt_of_le_of_ne (by linarith) (Ne.symm hfin)
      refine ⟨div_nonneg (mul_nonneg hHc (by linarith)) hden.le, ?_⟩
      rw [div_le_iff₀ hden]
      exact mul_le_mul_of_nonneg_left (by linarith) hHc
    · exact ⟨_, rfl, hHc, le_refl _⟩
  · exact ⟨_, rfl, hHc, le_refl _⟩

example : (0 : ℝ) < 1 ∧ (0 : ℝ) ≤ 1/4 ∧ (1/4 : ℝ) ≤ 1/2 ∧ (1/2 : ℝ) ≤ 1 := by norm_num

/-- C24: the adaptive integration ends: enough fuel exists, and any more fuel gives the same value.
C23, numeric form: the value is within [0, 11 (h_i - h_f)] (h_i, h_f the heads at the drier and the wetter moisture; the
factor is 10 larger than the interval because the last step may overshoot by ten times it). -/
theorem C24_terminates (s : SoilProps ℝ) (hs : s.Physical) (t1 t2 Ks la ps : ℝ) (nint : Int) (hKs : 0 < Ks)
    (hn : 0 < nint) (h1 : s.thetaR < t1) (h12 : t1 ≤ t2) (h2 : t2 ≤ s.thetaE) :
    ∃ fuel0 G Si Sf hi hf, s.seOf t1 = .ok Si ∧ s.headAt Si = .ok hi ∧ s.seOf t2 = .ok Sf ∧ s.headAt Sf = .ok hf ∧
      0 ≤ G ∧ G ≤ 11 * (hi - hf) ∧
      ∀ fuel, fuel0 ≤ fuel →
        calcGeff fuel false t1 t2 s.thetaE s.thetaR s.vgAlpha s.vgN s.vgM Ks nint la ps = .ok G := by
  have hg := hs.gap
  have hgp : 0 < s.thetaE - s.thetaR := by linarith
  have hi0 : 0 < (t1 - s.thetaR) / (s.thetaE - s.thetaR) := div_pos (by linarith) hgp
  have hif : (t1 - s.thetaR) / (s.thetaE - s.thetaR) ≤ (t2 - s.thetaR) / (s.thetaE - s.thetaR) :=
    div_le_div_of_nonneg_right (by linarith) hgp.le
  have hf1 : (t2 - s.thetaR) / (s.thetaE - s.thetaR) ≤ 1 := (div_le_one hgp).mpr (by linarith)
  set I := (t1 - s.thetaR) / (s.thetaE - s.thetaR) with hI
  set F := (t2 - s.thetaR) / (s.thetaE - s.thetaR) with hF
  have hI1 : I ≤ 1 := hif.trans hf1
  have hF0 : 0 < F := hi0.trans_le hif
  have eHi := calcHFromSe_real hs.alpha hs.m_pos hs.n_pos hi0 hI1
  have eHf := calcHFromSe_real hs.alpha hs.m_pos hs.n_pos hF0 hf1
  set hi := vgH s.vgAlpha s.vgM s.vgN I with hhi
  set hf := vgH s.vgAlpha s.vgM s.vgN F with hhf
  have hhf0 : 0 ≤ hf := vgH_nonneg hs.alpha hs.m_pos hF0 hf1
  have hfi : hf ≤ hi := by
    by_contra hlt
    rw [not_le] at hlt
    have := vgSe_lt hs.alpha hs.m_pos hs.n_pos (vgH_nonneg (n := s.vgN) hs.alpha hs.m_pos hi0 hI1) hlt
    rw [vgSe_vgH hs.alpha hs.m_pos hs.n_pos hi0 hI1, hhf, vgSe_vgH hs.alpha hs.m_pos hs.n_pos hF0 hf1] at this
    linarith
  have hnR : (0 : ℝ) < (nint : ℝ) := by exact_mod_cast hn
  have eK := calcKFromSe_real (Ks := Ks) hs.m_pos hi0.le hI1
  have hcalc : ∀ fuel G, geffLoop s.vgAlpha s.vgM s.vgN Ks hi fuel (hf + (hi - hf) / nint * 0.01)
      ((hi - hf) / nint * 0.01) (Ks * muK s.vgM I) 0 = .ok G → 0 ≤ G →
      calcGeff fuel false t1 t2 s.thetaE s.thetaR s.vgAlpha s.vgN s.vgM Ks nint la ps = .ok (G / Ks) := by
    intro fuel G hG hG0
    unfold calcGeff
    simp only [Bool.not_false, if_true]
    rw [calcSeFromTheta_real hg, ok_bind, calcSeFromTheta_real hg, ok_bind, eHi, ok_bind, eHf, ok_bind,
      ofInt_eq, cdiv_ne hnR.ne', ok_bind, eK, ok_bind, hG, ok_bind, cdiv_ne hKs.ne', ok_bind]
    simp only [pure_eq_ok, fabs_eq]
    rw [abs_of_nonneg (div_nonneg hG0 hKs.le)]
  have hK1 : Ks * muK s.vgM I ≤ Ks := by nlinarith [muK_le_one hs.m_pos hi0.le hI1]
  have hK0 : 0 ≤ Ks * muK s.vgM I := mul_nonneg hKs.le muK_nonneg
  rcases hfi.lt_or_eq with hlt | heq
  · have hdh : 0 < (hi - hf) / nint * 0.01 := by
      have : 0 < hi - hf := by linarith
      positivity
    obtain ⟨fuel0, G, hG⟩ := geffLoop_terminates (K1 := Ks * muK s.vgM I) (G := 0) (hi := hi)
      (h2 := hf + (hi - hf) / nint * 0.01) hs.alpha hs.m_pos hs.n_pos hKs (by linarith) hdh
    obtain ⟨b1, b2, b3⟩ := geffLoop_bounds hs.alpha hs.m_pos hs.n_pos (hf := hf) (B := hi - hf) hKs (le_refl _) fuel0
      (by linarith) hdh (le_refl _) hK0 hK1 hG
    refine ⟨fuel0, G / Ks, I, F, hi, hf, calcSeFromTheta_real hg, eHi, calcSeFromTheta_real hg, eHf, by positivity, ?_, ?_⟩
    · rw [div_le_iff₀ hKs]
      by_cases hc : hf + (hi - hf) / nint * 0.01 < hi
      · have := b2 hc; nlinarith
      · rw [b3 hc]; nlinarith
    · intro fuel hfu
      exact hcalc fuel G (geffLoop_mono hfu hG) b1
  · refine ⟨1, 0, I, F, hi, hf, calcSeFromTheta_real hg, eHi, calcSeFromTheta_real hg, eHf, le_refl _, ?_, ?_⟩
    · rw [heq]; simp
    · intro fuel hfu
      have : geffLoop s.vgAlpha s.vgM s.vgN Ks hi 1 (hf + (hi - hf) / nint * 0.01)
        ((hi - hf) / nint * 0.01) (Ks * muK s.vgM I) 0 = .ok 0 := by
        rw [geffLoop, if_neg]; rw [heq]; simp
      have := hcalc fuel 0 (geffLoop_mono hfu this) (le_refl _)
      rwa [zero_div] at this

example : loam.Physical ∧ loam.thetaR < 1/4 ∧ (1/4 : ℝ) ≤ 1/2 ∧ 1/2 ≤ loam.thetaE :=
  ⟨loam_physical, by norm_num [loam], by norm_num, by norm_num [loam]⟩

/-- More fuel does not change a result of `calcGeff`. -/
theorem calcGeff_mono {f f' : Nat} {t1 t2 e r a n m Ks la ps G : ℝ} {nint : Int} (hf : f ≤ f')
    (h : calcGeff f false t1 t2 e r a n m Ks nint la ps = .ok G) :
    calcGeff f' false t1 t2 e r a n m Ks nint la ps = .ok G := by
  unfold calcGeff at h ⊢
  simp only [Bool.not_false, if_true, bind_ok_iff] at h ⊢
  obtain ⟨a1, h1, a2, h2, a3, h3, a4, h4, a5, h5, a6, h6, a7, h7, a8, h8, h9⟩ := h
  exact ⟨a1, h1, a2, h2, a3, h3, a4, h4, a5, h5, a6, h6, a7, geffLoop_mono hf h7, a8, h8, h9⟩

/-- C23, numeric form: whatever `calcGeff` returns is within [0, 11 (h_i - h_f)]. -/
theorem C23_numeric_bounds (s : SoilProps ℝ) (hs : s.Physical) (t1 t2 Ks la ps G Si Sf hi hf : ℝ) (nint : Int)
    (fuel : Nat) (hKs : 0 < Ks) (hn : 0 < nint) (h1 : s.thetaR < t1) (h12 : t1 ≤ t2) (h2 : t2 ≤ s.thetaE)
    (eSi : s.seOf t1 = .ok Si) (eHi : s.headAt Si = .ok hi) (eSf : s.seOf t2 = .ok Sf) (eHf : s.headAt Sf = .ok hf)
    (h : calcGeff fuel false t1 t2 s.thetaE s.thetaR s.vgAlpha s.vgN s.vgM Ks nint la ps = .ok G) :
    0 ≤ G ∧ G ≤ 11 * (hi - hf) := by
  obtain ⟨f0, G', Si', Sf', hi', hf', e1, e2, e3, e4, b1, b2, hall⟩ :=
    C24_terminates s hs t1 t2 Ks la ps nint hKs hn h1 h12 h2
  rw [eSi, Except.ok.injEq] at e1; subst e1
  rw [eSf, Except.ok.injEq] at e3; subst e3
  rw [eHi, Except.ok.injEq] at e2; subst e2
  rw [eHf, Except.ok.injEq] at e4; subst e4
  have := calcGeff_mono (le_max_left fuel f0) h
  rw [hall _ (le_max_right fuel f0), Except.ok.injEq] at this
  subst this; exact ⟨b1, b2⟩

/-- C23: where the closed form is 0/0 (both moistures saturated) the value is H_c. -/
theorem C23_closed_form_saturated (fuel : Nat) (e r a n m Ks la ps : ℝ) (nint : Int) (hre : r < e) (hla : 0 < la) :
    calcGeff fuel true e e e r a n m Ks nint la ps = .ok (ps * ((2 + 3 * la) / (1 + 3 * la))) := by
  have l2 : (2.0 : ℝ) = 2 := by norm_num
  have l3 : (3.0 : ℝ) = 3 := by norm_num
  have hg : e - r ≠ 0 := by linarith
  unfold calcGeff
  simp only [Bool.not_true, Bool.false_eq_true, if_false, l2, l3]
  rw [calcSeFromTheta_real hre, ok_bind, ok_bind, cdiv_ne (by positivity), ok_bind,
    cdiv_ne hla.ne', ok_bind, div_self hg]
  split
  · rw [if_neg]
    · rfl
    · rw [divFin_iff]; simp [CMath.pow]
  · rfl

/-- C23 fails as an integral: near saturation, where the conductivity at the drier head is within 2 % of Ksat, every step
is enlarged tenfold, the last one far past the interval, and the result exceeds nine times the value `h_i - h_f` that
bounds the integral of K/Ksat (with 120 intervals, the value Initialize uses). -/
theorem C23_numeric_overestimates (s : SoilProps ℝ) (hs : s.Physical) (t1 t2 Ks la ps G Si Sf hi hf ki : ℝ)
    (fuel : Nat) (hKs : 0 < Ks) (h1 : s.thetaR < t1) (h12 : t1 < t2) (h2 : t2 ≤ s.thetaE)
    (eSi : s.seOf t1 = .ok Si) (eHi : s.headAt Si = .ok hi) (eSf : s.seOf t2 = .ok Sf) (eHf : s.headAt Sf = .ok hf)
    (eK : s.kAt Si = .ok ki) (hflat : s.Ksat ≤ 1.02 * ki)
    (h : calcGeff fuel false t1 t2 s.thetaE s.thetaR s.vgAlpha s.vgN s.vgM Ks 120 la ps = .ok G) :
    9 * (hi - hf) < G := by
  have hg := hs.gap
  have hgp : 0 < s.thetaE - s.thetaR := by linarith
  rw [SoilProps.seOf, calcSeFromTheta_real hg] at eSi eSf
  simp only [Except.ok.injEq] at eSi eSf
  have hi0 : 0 < Si := by rw [← eSi]; exact div_pos (by linarith) hgp
  have hif : Si < Sf := by rw [← eSi, ← eSf]; exact div_lt_div_of_pos_right (by linarith) hgp
  have hf1 : Sf ≤ 1 := by rw [← eSf]; exact (div_le_one hgp).mpr (by linarith)
  have hI1 : Si ≤ 1 := hif.le.trans hf1
  have hF0 : 0 < Sf := hi0.trans hif
  have eHi' := eHi
  have eHf' := eHf
  rw [SoilProps.headAt, calcHFromSe_real hs.alpha hs.m_pos hs.n_pos hi0 hI1] at eHi
  rw [SoilProps.headAt, calcHFromSe_real hs.alpha hs.m_pos hs.n_pos hF0 hf1] at eHf
  simp only [Except.ok.injEq] at eHi eHf
  have hSi : vgSe s.vgAlpha s.vgM s.vgN hi = Si := by rw [← eHi, vgSe_vgH hs.alpha hs.m_pos hs.n_pos hi0 hI1]
  have hSf : vgSe s.vgAlpha s.vgM s.vgN hf = Sf := by rw [← eHf, vgSe_vgH hs.alpha hs.m_pos hs.n_pos hF0 hf1]
  have hhi0 : 0 ≤ hi := by rw [← eHi]; exact vgH_nonneg hs.alpha hs.m_pos hi0 hI1
  have hhf0 : 0 ≤ hf := by rw [← eHf]; exact vgH_nonneg hs.alpha hs.m_pos hF0 hf1
  have hfi : hf < hi := by
    by_contra hlt
    rw [not_lt] at hlt
    have := vgSe_le hs.alpha hs.m_pos hs.n_pos hhi0 hlt
    rw [hSi, hSf] at this
    linarith
  rw [SoilProps.kAt, calcKFromSe_real hs.m_pos hi0.le hI1] at eK
  simp only [Except.ok.injEq] at eK
  have hk := hs.ksat
  have hmu : 1 ≤ 1.02 * muK s.vgM Si := by
    rw [← eK] at hflat
    norm_num at hflat ⊢
    nlinarith
  have hmuh : muK s.vgM Si ≤ muKh s.vgAlpha s.vgM s.vgN hi := by
    unfold muKh
    split
    · exact muK_le hs.m_pos hi0.le hI1 (le_refl 1)
    · rw [hSi]
  unfold calcGeff at h
  simp only [Bool.not_false, if_true] at h
  rw [calcSeFromTheta_real hg, ok_bind, calcSeFromTheta_real hg, ok_bind, eSi, eSf] at h
  rw [show calcHFromSe Si s.vgAlpha s.vgM s.vgN = .ok hi from eHi', ok_bind,
    show calcHFromSe Sf s.vgAlpha s.vgM s.vgN = .ok hf from eHf', ok_bind, ofInt_eq, cdiv_ne (by norm_num), ok_bind,
    calcKFromSe_real hs.m_pos hi0.le hI1, ok_bind] at h
  simp only [bind_ok_iff, cdiv_ok, pure_eq_ok, Except.ok.injEq, fabs_eq] at h
  obtain ⟨G0, hG0, g, ⟨_, rfl⟩, rfl⟩ := h
  have e12 : (hi - hf) / ((120 : ℤ) : ℝ) * 0.01 = (hi - hf) / 12000 := by norm_num; ring
  rw [e12] at hG0
  have hd : 0 < (hi - hf) / 12000 := by
    have : 0 < hi - hf := by linarith
    positivity
  cases fuel with
  | zero => simp [geffLoop] at hG0
  | succ f =>
    rw [geffLoop_succ hs.alpha hs.m_pos hs.n_pos hKs (by linarith), if_pos (by linarith)] at hG0
    dsimp only at hG0
    have hx0 : 0 ≤ hf + (hi - hf) / 12000 := by linarith
    have hp := muKh_pos (n := s.vgN) hs.alpha hs.m_pos hx0
    have hp1 := muKh_le_one (n := s.vgN) hs.alpha hs.m_pos hx0
    have han := muKh_anti hs.alpha hs.m_pos hs.n_pos hx0 (show hf + (hi - hf) / 12000 ≤ hi by linarith)
    rw [if_neg (by
      rw [not_lt, div_le_iff₀ (mul_pos hKs hp)]
      have : muK s.vgM Si ≤ muKh s.vgAlpha s.vgM s.vgN (hf + (hi - hf) / 12000) := hmuh.trans han
      norm_num
      nlinarith)] at hG0
    have e10 : (hi - hf) / 12000 * (10.0 : ℝ) = (hi - hf) / 1200 := by norm_num; ring
    rw [e10] at hG0
    have l2 : (2.0 : ℝ) = 2 := by norm_num
    rw [l2] at hG0
    have hgrow := geffLoop_grow hs.alpha hs.m_pos hs.n_pos hKs (hi := hi) (by
        norm_num at hmu ⊢; linarith) 3 f (by linarith) (show 0 < (hi - hf) / 1200 by linarith)
      (by nlinarith) (mul_le_mul_of_nonneg_left han hKs.le) (by norm_num; linarith) hG0
    have hKh : 0 < muKh s.vgAlpha s.vgM s.vgN hi := muKh_pos hs.alpha hs.m_pos hhi0
    have hbig : 9 * (hi - hf) * Ks < G0 := by
      refine lt_of_lt_of_le ?_ hgrow
      norm_num at hmu ⊢
      have hmu2 : 50 / 51 ≤ muKh s.vgAlpha s.vgM s.vgN hi := by linarith
      have h0 : 0 ≤ muK s.vgM Si := muK_nonneg
      have hD : 0 < hi - hf := by linarith
      have hDK : 0 < (hi - hf) * Ks := mul_pos hD hKs
      have t1 : 0 ≤ (Ks * muK s.vgM Si + Ks * muKh s.vgAlpha s.vgM s.vgN (hf + (hi - hf) / 12000)) *
          ((hi - hf) / 1200) / 2 := by positivity
      have t2 : Ks * (50 / 51) ≤ Ks * muKh s.vgAlpha s.vgM s.vgN hi := mul_le_mul_of_nonneg_left hmu2 hKs.le
      nlinarith
    have hG0' : 0 ≤ G0 := by
      have : 0 ≤ 9 * (hi - hf) * Ks := by nlinarith
      linarith
    rw [abs_of_nonneg (div_nonneg hG0' hKs.le), lt_div_iff₀ hKs]
    exact hbig

/-- The situation of the previous theorem occurs: for the soil above and saturation `sqrt (1 - 1e-6)`. -/
example : loam.Physical ∧ ∃ Si ki : ℝ, 0 < Si ∧ Si < 1 ∧ loam.seOf Si = .ok Si ∧ loam.kAt Si = .ok ki ∧
    loam.Ksat ≤ 1.02 * ki := by
  refine ⟨loam_physical, √(1 - 1/10^6), _, ?_, ?_, ?_, calcKFromSe_real loam_physical.m_pos (sqrt_nonneg _) ?_, ?_⟩
  · rw [sqrt_pos]; norm_num
  · rw [sqrt_lt' one_pos]; norm_num
  · rw [SoilProps.seOf, calcSeFromTheta_real loam_physical.gap]; norm_num [loam]
  · rw [sqrt_le_left zero_le_one]; norm_num
  · have hS1 : (99/100 : ℝ) ≤ √(1 - 1/10^6) := by
      rw [le_sqrt' (by norm_num)]; norm_num
    have hS2 : (99/100 : ℝ) ≤ √√(1 - 1/10^6) := by
      rw [le_sqrt' (by norm_num)]; exact le_trans (by norm_num) hS1
    have hS2' : (999/1000 : ℝ) ≤ √√(1 - 1/10^6) := by
      rw [le_sqrt' (by norm_num), le_sqrt' (by norm_num)]; norm_num
    have e1 : √(1 - 1/10^6 : ℝ) ^ (1 / loam.vgM) = 1 - 1/10^6 := by
      have : (1 / loam.vgM) = ((2 : ℕ) : ℝ) := by norm_num [loam]
      rw [this, rpow_natCast, sq_sqrt (by norm_num)]
    have e2 : (1 - (1 - 1/10^6) : ℝ) ^ loam.vgM = 1/1000 := by
      have : loam.vgM = 1/2 := rfl
      rw [this, ← sqrt_eq_rpow]
      rw [sqrt_eq_iff_mul_self_eq (by norm_num) (by norm_num)]
      norm_num
    simp only [muK, e1, e2]
    have : loam.Ksat = 1 := rfl
    rw [this]
    norm_num at hS2' ⊢
    nlinarith

section Aet
variable {K : Type} [Field K] [LinearOrder K] [IsStrictOrderedRing K] [CMath K] [LawfulNum K]

/-- C25: the ET demand is within [0, PET * dt]. -/
theorem C25_bounded (PET dt wp fc : K) (g : Geo K) (l : List (Front K)) (a : K) (hP : 0 ≤ PET) (hdt : 0 ≤ dt)
    (h : calcAet PET dt wp fc g l = .ok a) : 0 ≤ a ∧ a ≤ PET * dt := by
  unfold calcAet at h
  simp only [bind_ok_iff] at h
  obtain ⟨c, _, s, _, tf, _, tw, _, Se, _, pw, _, q, _, p, _, inv, _, h⟩ := h
  have hpd : 0 ≤ PET * dt := mul_nonneg hP hdt
  split at h
  · simp only [pure_eq_ok, Except.ok.injEq] at h; subst h; exact ⟨le_refl _, hpd⟩
  · split at h
    · simp only [pure_eq_ok, Except.ok.injEq] at h; subst h; exact ⟨hpd, le_refl _⟩
    · simp only [pure_eq_ok, Except.ok.injEq] at h; subst h
      exact ⟨not_lt.mp ‹_›, not_lt.mp ‹_›⟩
end Aet

/-- C25: the demand follows the documented reduction curve `PET dt / (1 + (psi/psi50)^3)`, where `psi50` is the head at
the moisture halfway between the moistures at the field-capacity and the wilting-point heads. -/
theorem C25_curve (PET dt wp fc : ℝ) (g : Geo ℝ) (c : Front ℝ) (t : List (Front ℝ)) (s : SoilProps ℝ)
    (hg : g.soil c.layer = .ok s) (hs : s.Physical) (hwp : 0 < wp) (hfc : 0 ≤ fc) (hP : 0 ≤ PET) (hdt : 0 ≤ dt)
    (h0 : 0 ≤ c.psi) :
    ∃ psi50 tf tw, 0 < psi50 ∧ s.thetaAt fc = .ok tf ∧ s.thetaAt wp = .ok tw ∧ s.thetaAt psi50 = .ok ((tf + tw) / 2) ∧
      calcAet PET dt wp fc g (c :: t) = .ok (PET * dt / (1 + (c.psi / psi50) ^ 3)) := by
  have l2 : (2.0 : ℝ) = 2 := by norm_num
  have l3 : (3.0 : ℝ) = ((3 : ℕ) : ℝ) := by norm_num
  have hgap := hs.gap
  have hgp : 0 < s.thetaE - s.thetaR := by linarith
  have ef := calcThetaFromH_real (m := s.vgM) (e := s.thetaE) (r := s.thetaR) hs.alpha hs.n_pos hfc
  have ew := calcThetaFromH_real (m := s.vgM) (e := s.thetaE) (r := s.thetaR) hs.alpha hs.n_pos hwp.le
  have pf := vgSe_pos (m := s.vgM) (n := s.vgN) hs.alpha hfc
  have pw := vgSe_pos (m := s.vgM) (n := s.vgN) hs.alpha hwp.le
  have pf1 := vgSe_le_one (n := s.vgN) hs.alpha hs.m_pos.le hfc
  have pw1 : vgSe s.vgAlpha s.vgM s.vgN wp < 1 := by
    have := vgSe_lt hs.alpha hs.m_pos hs.n_pos (le_refl 0) hwp
    rwa [vgSe_zero hs.n_pos.ne'] at this
  set F := vgSe s.vgAlpha s.vgM s.vgN fc
  set W := vgSe s.vgAlpha s.vgM s.vgN wp
  have hM0 : 0 < (F + W) / 2 := by positivity
  have hM1 : (F + W) / 2 < 1 := by linarith
  have eh := calcHFromSe_real hs.alpha hs.m_pos hs.n_pos hM0 hM1.le
  have eb := vgSe_vgH hs.alpha hs.m_pos hs.n_pos hM0 hM1.le
  have hn := vgH_nonneg (n := s.vgN) hs.alpha hs.m_pos hM0 hM1.le
  set P := vgH s.vgAlpha s.vgM s.vgN ((F + W) / 2)
  have hP0 : 0 < P := by
    rcases hn.lt_or_eq with h | h
    · exact h
    · rw [← h, vgSe_zero hs.n_pos.ne'] at eb; linarith
  refine ⟨P, _, _, hP0, ef, ew, ?_, ?_⟩
  · rw [SoilProps.thetaAt, calcThetaFromH_real hs.alpha hs.n_pos hP0.le, eb]
    congr 1; ring
  · have hq : 0 ≤ c.psi / P := div_nonneg h0 hP0.le
    have hr : 0 < 1 + (c.psi / P) ^ 3 := by positivity
    unfold calcAet
    have hd : deref (c :: t) 0 = .ok c := rfl
    simp only [hd, ok_bind, hg, ef, ew, l2, l3]
    rw [calcSeFromTheta_real hgap, ok_bind,
      show (((F * (s.thetaE - s.thetaR) + s.thetaR - (W * (s.thetaE - s.thetaR) + s.thetaR)) * 1 / 2 +
        (W * (s.thetaE - s.thetaR) + s.thetaR) - s.thetaR) / (s.thetaE - s.thetaR)) = (F + W) / 2 by
        field_simp; ring, eh, ok_bind, cdiv_ne hP0.ne', ok_bind, cpow_nonneg hq (by norm_num), ok_bind,
      rpow_natCast, cdiv_ne hr.ne', ok_bind]
    have ea : PET * (1 / (1 + (c.psi / P) ^ 3)) * dt = PET * dt / (1 + (c.psi / P) ^ 3) := by ring
    rw [ea]
    have hpd : 0 ≤ PET * dt := mul_nonneg hP hdt
    rw [if_neg (not_lt.mpr (div_nonneg hpd hr.le)), if_neg (not_lt.mpr (div_le_self hpd (by
      have : 0 ≤ (c.psi / P) ^ 3 := by positivity
      linarith)))]
    rfl

/-- C25: a drier top front (larger head, same layer) never has a larger demand, and a strictly smaller one when there is
potential ET. -/
theorem C25_antitone (PET dt wp fc : ℝ) (g : Geo ℝ) (c1 c2 : Front ℝ) (t1 t2 : List (Front ℝ)) (a1 a2 : ℝ)
    (s : SoilProps ℝ) (hg : g.soil c1.layer = .ok s) (hs : s.Physical) (hwp : 0 < wp) (hfc : 0 ≤ fc)
    (hP : 0 < PET) (hdt : 0 < dt) (hl : c1.layer = c2.layer) (h0 : 0 ≤ c1.psi) (h12 : c1.psi < c2.psi)
    (e1 : calcAet PET dt wp fc g (c1 :: t1) = .ok a1) (e2 : calcAet PET dt wp fc g (c2 :: t2) = .ok a2) : a2 < a1 := by
  obtain ⟨p1, f1, w1, hp1, ef1, ew1, em1, ea1⟩ :=
    C25_curve PET dt wp fc g c1 t1 s hg hs hwp hfc hP.le hdt.le h0
  obtain ⟨p2, f2, w2, hp2, ef2, ew2, em2, ea2⟩ :=
    C25_curve PET dt wp fc g c2 t2 s (hl ▸ hg) hs hwp hfc hP.le hdt.le (h0.trans h12.le)
  rw [e1] at ea1; rw [e2] at ea2
  rw [ef1] at ef2; rw [ew1] at ew2
  simp only [Except.ok.injEq] at ea1 ea2 ef2 ew2
  subst ef2 ew2
  have hp : p1 = p2 := by
    rcases lt_trichotomy p1 p2 with h | h | h
    · exact absurd (C20_strict s hs p1 p2 _ _ hp1.le h em1 em2) (lt_irrefl _)
    · exact h
    · exact absurd (C20_strict s hs p2 p1 _ _ hp2.le h em2 em1) (lt_irrefl _)
  subst hp
  rw [ea1, ea2]
  have hq : 0 ≤ c1.psi / p1 := div_nonneg h0 hp1.le
  have hq2 : c1.psi / p1 < c2.psi / p1 := div_lt_div_of_pos_right h12 hp1
  have : (c1.psi / p1) ^ 3 < (c2.psi / p1) ^ 3 := pow_lt_pow_left₀ hq2 hq (by norm_num)
  exact div_lt_div_of_pos_left (by positivity) (by positivity) (by linarith)

/-- One layer of the soil above. -/
noncomputable def geoLoam : Geo ℝ :=
  { numLayers := 1, cum := [0, 100], soilType := [0, 1], frozen := [1, 1], soils := [loam, loam] }

example : geoLoam.soil 1 = .ok loam := by
  rfl

/-- For a physical soil every head the code computes from a saturation is >= 0. -/
theorem headAt_nonneg (s : SoilProps ℝ) (hs : s.Physical) (Se psi : ℝ) (h : s.headAt Se = .ok psi) : 0 ≤ psi := by
  unfold SoilProps.headAt calcHFromSe at h
  simp only [bind_ok_iff, cdiv_ok, cpow_ok_iff, pure_eq_ok, Except.ok.injEq] at h
  obtain ⟨a, ⟨_, rfl⟩, b, ⟨_, rfl⟩, c, ⟨_, rfl⟩, d, ⟨_, rfl⟩, e, ⟨hok, rfl⟩, rfl⟩ := h
  have hn := hs.n
  have : 0 ≤ CMath.pow Se (-1 / s.vgM) - 1 := by
    simp only [CMath.powOk, decide_eq_true_eq] at hok
    rcases hok with h | ⟨h, _⟩ | ⟨_, k, hk⟩
    · exact h.le
    · exact h.ge
    · exfalso
      have h0 : 0 < 1 / s.vgN := by have := hs.n_pos; positivity
      have h1 : 1 / s.vgN < 1 := by rw [div_lt_one hs.n_pos]; exact hn
      rw [hk] at h0 h1
      have h0' : (0 : ℤ) < k := by exact_mod_cast h0
      have h1' : k < (1 : ℤ) := by exact_mod_cast h1
      omega
  have ha := hs.alpha
  exact mul_nonneg (by positivity) (rpow_nonneg this _)

/-- C08 for physical soils: crossing a layer boundary keeps the water; the condition on the curves in
`C08_cross_conserves` holds for every physical soil. -/
theorem C08_cross_conserves_physical (g : Geo ℝ) (l l' : List (Front ℝ)) (hcol : Column g.numLayers g.cum l)
    (hstray : NoStrayAtBottom g.numLayers g.cum l)
    (hphys : ∀ k s, g.soil k = .ok s → s.Physical)
    (hsat : ∀ f ∈ l, ∀ s, g.soil f.layer = .ok s → f.theta ≤ s.thetaE)
    (hthick : ∀ k b0 b1, g.cum[k]? = some b0 → g.cum[k + 1]? = some b1 → b0 + b1 / 1000 ≤ b1)
    (hne : ∀ i f n, l'[i]? = some f → l'[i + 1]? = some n → f.layer = n.layer → f.theta ≠ n.theta)
    (h : crossLayer g l = .ok l') : water g.cum l' = water g.cum l := by
  refine C08_cross_conserves g l l' hcol hstray hsat ?_ hthick hne h
  intro k s1 s2 Se psi th h1 h2 hpsi hth
  have hs2 := hphys _ _ h2
  obtain ⟨th', e, _, hle⟩ := C20_bounded s2 hs2 psi (headAt_nonneg s1 (hphys _ _ h1) Se psi hpsi)
  rw [SoilProps.thetaAt, hth, Except.ok.injEq] at e
  subst e; exact hle

/-- C30: the dry depth is defined, positive and within the top layer whenever the top front is above residual and below
saturated moisture. -/
theorem C30_defined (closed : Bool) (nint : Int) (g : Geo ℝ) (dt : ℝ) (n : Front ℝ) (t : List (Front ℝ))
    (s : SoilProps ℝ) (ff bot : ℝ) (hg : g.soil n.layer = .ok s) (hs : s.Physical) (hff : g.frozen[n.layer]? = some ff)
    (hbot : g.cum[n.layer]? = some bot) (hf0 : 0 < ff) (hb0 : 0 < bot) (hdt : 0 < dt) (hint : 0 < nint)
    (hla : 0 < s.bcLambda) (hpb : 0 ≤ s.bcPsib) (h1 : s.thetaR < n.theta) (h2 : n.theta < s.thetaE) :
    ∃ fuel0 dry, 0 < dry ∧ dry ≤ bot ∧ ∀ fuel, fuel0 ≤ fuel →
      calcDryDepth fuel closed nint g dt (n :: t) = .ok (dry, s.thetaE - n.theta) := by
  have hK : 0 < s.Ksat * ff := mul_pos hs.ksat hf0
  have hG : ∃ fuel0 G, 0 ≤ G ∧ ∀ fuel, fuel0 ≤ fuel → calcGeff fuel closed n.theta s.thetaE s.thetaE s.thetaR s.vgAlpha
      s.vgN s.vgM (s.Ksat * ff) nint s.bcLambda s.bcPsib = .ok G := by
    cases closed
    · obtain ⟨f0, G, _, _, _, _, _, _, _, _, hG0, _, hf⟩ := C24_terminates s hs n.theta s.thetaE (s.Ksat * ff) s.bcLambda
        s.bcPsib nint hK hint h1 h2.le (le_refl _)
      exact ⟨f0, G, hG0, hf⟩
    · have key : ∀ fuel, ∃ G, calcGeff fuel true n.theta s.thetaE s.thetaE s.thetaR s.vgAlpha
          s.vgN s.vgM (s.Ksat * ff) nint s.bcLambda s.bcPsib = .ok G ∧ 0 ≤ G := fun fuel => by
        obtain ⟨G, e, h0, _⟩ := C23_closed_form fuel n.theta s.thetaE s.thetaE s.thetaR s.vgAlpha s.vgN s.vgM
          (s.Ksat * ff) s.bcLambda s.bcPsib nint hs.gap h1.le h2.le (le_refl _) hla hpb
        exact ⟨G, e, h0⟩
      obtain ⟨G, e, h0⟩ := key 0
      exact ⟨0, G, h0, fun fuel _ => e⟩
  obtain ⟨f0, G, hG0, hGe⟩ := hG
  have hd : 0 < s.thetaE - n.theta := by linarith
  have htau : 0 < dt * (s.Ksat * ff) / (s.thetaE - n.theta) := by positivity
  have l4 : (4.0 : ℝ) = 4 := by norm_num
  have lh : (0.5 : ℝ) = 1 / 2 := by norm_num
  set tau := dt * (s.Ksat * ff) / (s.thetaE - n.theta)
  have hr : 0 ≤ tau * tau + 4 * tau * G := by positivity
  refine ⟨f0, min bot (1 / 2 * (tau + √(tau * tau + 4 * tau * G))), ?_, min_le_left _ _, fun fuel hfu => ?_⟩
  · exact lt_min hb0 (by positivity)
  · unfold calcDryDepth
    have hd0 : deref (n :: t) 0 = .ok n := rfl
    have hi1 : idx g.frozen n.layer = .ok ff := idx_ok_iff.mpr hff
    have hi2 : idx g.cum n.layer = .ok bot := idx_ok_iff.mpr hbot
    simp only [hd0, ok_bind, hg, hi1, hi2]
    rw [cdiv_ne hd.ne', ok_bind, hGe fuel hfu, ok_bind, l4, csqrt_nonneg hr, ok_bind, lh]
    rfl

example : ∃ s, geoLoam.soil 1 = .ok s ∧ s.Physical ∧ geoLoam.frozen[1]? = some 1 ∧ geoLoam.cum[1]? = some 100 ∧
    0 < s.bcLambda ∧ 0 ≤ s.bcPsib ∧ s.thetaR < 1/4 ∧ 1/4 < s.thetaE :=
  ⟨loam, rfl, loam_physical, rfl, rfl, by norm_num [loam]⟩

end LGAR
