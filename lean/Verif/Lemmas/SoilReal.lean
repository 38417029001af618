import Verif.Lemmas.Safe
import Verif.Num.Real
/-
Soil functions over the real numbers.
-/
set_option linter.unusedSectionVars false
namespace LGAR
open Real

theorem cpow_pos {a b : ℝ} (ha : 0 < a) : cpow a b = .ok (a ^ b) := by
  rw [cpow_ok_iff]; simp [CMath.powOk, CMath.pow, ha]

theorem cpow_nonneg {a b : ℝ} (ha : 0 ≤ a) (hb : 0 ≤ b) : cpow a b = .ok (a ^ b) := by
  rw [cpow_ok_iff]
  rcases ha.lt_or_eq with h | h
  · simp [CMath.powOk, CMath.pow, h]
  · simp [CMath.powOk, CMath.pow, h.symm, hb]

theorem cdiv_ne {a b : ℝ} (hb : b ≠ 0) : cdiv a b = .ok (a / b) := by
  rw [cdiv_ok]; exact ⟨hb, rfl⟩

theorem csqrt_nonneg {a : ℝ} (ha : 0 ≤ a) : csqrt a = .ok (√a) := by
  rw [csqrt_ok_iff]; simp [CMath.sqrtOk, CMath.sqrt, ha]

/-- van Genuchten saturation at head `h`. -/
noncomputable def vgSe (alpha m n h : ℝ) : ℝ := 1 / (1 + (alpha * h) ^ n) ^ m

/-- Mualem relative conductivity. -/
noncomputable def muK (m Se : ℝ) : ℝ := √Se * (1 - (1 - Se ^ (1 / m)) ^ m) ^ 2

/-- Head at saturation `Se`. -/
noncomputable def vgH (alpha m n Se : ℝ) : ℝ := 1 / alpha * (Se ^ (-1 / m) - 1) ^ (1 / n)

section
variable {alpha m n : ℝ}

theorem vg_base_pos (ha : 0 < alpha) {h : ℝ} (hh : 0 ≤ h) : 1 ≤ 1 + (alpha * h) ^ n := by
  have : 0 ≤ (alpha * h) ^ n := rpow_nonneg (by positivity) n
  linarith

theorem calcThetaFromH_real (ha : 0 < alpha) (hn : 0 < n) {h e r : ℝ} (hh : 0 ≤ h) :
    calcThetaFromH h alpha m n e r = .ok (vgSe alpha m n h * (e - r) + r) := by
  unfold calcThetaFromH
  have hb := vg_base_pos (n := n) ha hh
  rw [cpow_nonneg (by positivity) hn.le, ok_bind, cpow_pos (by linarith), ok_bind,
    cdiv_ne (rpow_pos_of_pos (by linarith) m).ne', ok_bind]
  rfl

theorem calcSeFromH_real (ha : 0 < alpha) (hn : 0 < n) {h : ℝ} (hh : 0 ≤ h) :
    calcSeFromH h alpha m n = .ok (if h < 1.0e-10 then 1 else vgSe alpha m n h) := by
  unfold calcSeFromH isEpsLess
  have hb := vg_base_pos (n := n) ha hh
  simp only [fabs_eq, abs_of_nonneg hh, decide_eq_true_eq]
  split
  · rfl
  · rw [cpow_nonneg (by positivity) hn.le, ok_bind, cpow_pos (by linarith), ok_bind,
      cdiv_ne (rpow_pos_of_pos (by linarith) m).ne']
    rfl

theorem calcKFromSe_real (hm : 0 < m) {Se Ks : ℝ} (h0 : 0 ≤ Se) (h1 : Se ≤ 1) :
    calcKFromSe Se Ks m = .ok (Ks * muK m Se) := by
  unfold calcKFromSe
  have hp : Se ^ (1 / m) ≤ 1 := rpow_le_one h0 h1 (by positivity)
  have hp0 : 0 ≤ 1 - Se ^ (1 / m) := by linarith
  have hq : (1 - Se ^ (1 / m)) ^ m ≤ 1 :=
    rpow_le_one hp0 (by have := rpow_nonneg h0 (1 / m); linarith) hm.le
  rw [csqrt_nonneg h0, ok_bind, cdiv_ne hm.ne', ok_bind, cpow_nonneg h0 (by positivity), ok_bind,
    cpow_nonneg hp0 hm.le, ok_bind, cpow_nonneg (by linarith) (by norm_num), ok_bind]
  simp only [pure_eq_ok, Except.ok.injEq]
  unfold muK
  have e : (2.0 : ℝ) = ((2 : ℕ) : ℝ) := by norm_num
  rw [e, rpow_natCast]
  ring

theorem calcHFromSe_real (ha : 0 < alpha) (hm : 0 < m) (hn : 0 < n) {Se : ℝ} (h0 : 0 < Se) (h1 : Se ≤ 1) :
    calcHFromSe Se alpha m n = .ok (vgH alpha m n Se) := by
  unfold calcHFromSe
  have hp : 1 ≤ Se ^ (-1 / m) := one_le_rpow_of_pos_of_le_one_of_nonpos h0 h1 (by
    have : 0 < 1 / m := by positivity
    rw [neg_div]; linarith)
  rw [cdiv_ne ha.ne', ok_bind, cdiv_ne hm.ne', ok_bind, cpow_pos h0, ok_bind, cdiv_ne hn.ne', ok_bind,
    cpow_nonneg (by linarith) (by positivity), ok_bind]
  rfl

theorem calcSeFromTheta_real {t e r : ℝ} (h : r < e) : calcSeFromTheta t e r = .ok ((t - r) / (e - r)) :=
  cdiv_ne (by linarith)

theorem vgSe_pos (ha : 0 < alpha) {h : ℝ} (hh : 0 ≤ h) : 0 < vgSe alpha m n h := by
  have hb := vg_base_pos (n := n) ha hh
  exact div_pos one_pos (rpow_pos_of_pos (by linarith) m)

theorem vgSe_le_one (ha : 0 < alpha) (hm : 0 ≤ m) {h : ℝ} (hh : 0 ≤ h) : vgSe alpha m n h ≤ 1 := by
  have hb := vg_base_pos (n := n) ha hh
  have : 1 ≤ (1 + (alpha * h) ^ n) ^ m := one_le_rpow hb hm
  exact (div_le_one (by linarith)).mpr this

theorem vgSe_zero (hn : n ≠ 0) : vgSe alpha m n 0 = 1 := by
  unfold vgSe; rw [mul_zero, zero_rpow hn]; simp

theorem vgSe_lt (ha : 0 < alpha) (hm : 0 < m) (hn : 0 < n) {h1 h2 : ℝ} (h0 : 0 ≤ h1) (hlt : h1 < h2) :
    vgSe alpha m n h2 < vgSe alpha m n h1 := by
  have hb := vg_base_pos (n := n) ha h0
  have h1' : (alpha * h1) ^ n < (alpha * h2) ^ n :=
    rpow_lt_rpow (by positivity) (mul_lt_mul_of_pos_left hlt ha) hn
  have h2' : (1 + (alpha * h1) ^ n) ^ m < (1 + (alpha * h2) ^ n) ^ m :=
    rpow_lt_rpow (by linarith) (by linarith) hm
  exact one_div_lt_one_div_of_lt (rpow_pos_of_pos (by linarith) m) h2'

theorem vgSe_le (ha : 0 < alpha) (hm : 0 < m) (hn : 0 < n) {h1 h2 : ℝ} (h0 : 0 ≤ h1) (hle : h1 ≤ h2) :
    vgSe alpha m n h2 ≤ vgSe alpha m n h1 := by
  rcases hle.lt_or_eq with h | rfl
  · exact (vgSe_lt ha hm hn h0 h).le
  · exact le_refl _

/-- Head of the saturation of a head. -/
theorem vgH_vgSe (ha : 0 < alpha) (hm : 0 < m) (hn : 0 < n) {h : ℝ} (hh : 0 ≤ h) :
    vgH alpha m n (vgSe alpha m n h) = h := by
  have hb := vg_base_pos (n := n) ha hh
  have hbp : 0 ≤ 1 + (alpha * h) ^ n := by linarith
  have e1 : vgSe alpha m n h = (1 + (alpha * h) ^ n) ^ (-m) := by
    unfold vgSe; rw [rpow_neg hbp, one_div]
  unfold vgH
  rw [e1, ← rpow_mul hbp]
  have e2 : -m * (-1 / m) = 1 := by field_simp
  rw [e2, rpow_one, add_sub_cancel_left, ← rpow_mul (by positivity)]
  have e3 : n * (1 / n) = 1 := by field_simp
  rw [e3, rpow_one]
  field_simp

/-- Saturation of the head of a saturation. -/
theorem vgSe_vgH (ha : 0 < alpha) (hm : 0 < m) (hn : 0 < n) {Se : ℝ} (h0 : 0 < Se) (h1 : Se ≤ 1) :
    vgSe alpha m n (vgH alpha m n Se) = Se := by
  have hp : 1 ≤ Se ^ (-1 / m) := one_le_rpow_of_pos_of_le_one_of_nonpos h0 h1 (by
    have : 0 < 1 / m := by positivity
    rw [neg_div]; linarith)
  unfold vgSe vgH
  have e1 : alpha * (1 / alpha * (Se ^ (-1 / m) - 1) ^ (1 / n)) = (Se ^ (-1 / m) - 1) ^ (1 / n) := by field_simp
  rw [e1, ← rpow_mul (by linarith)]
  have e3 : 1 / n * n = 1 := by field_simp
  rw [e3, rpow_one, add_sub_cancel, ← rpow_mul h0.le]
  have e2 : -1 / m * m = -1 := by field_simp
  rw [e2, rpow_neg_one, one_div, inv_inv]

theorem vgH_nonneg (ha : 0 < alpha) (hm : 0 < m) {Se : ℝ} (h0 : 0 < Se) (h1 : Se ≤ 1) : 0 ≤ vgH alpha m n Se := by
  have hp : 1 ≤ Se ^ (-1 / m) := one_le_rpow_of_pos_of_le_one_of_nonpos h0 h1 (by
    have : 0 < 1 / m := by positivity
    rw [neg_div]; linarith)
  unfold vgH
  exact mul_nonneg (by positivity) (rpow_nonneg (by linarith) _)

theorem muK_parts (hm : 0 < m) {Se : ℝ} (h0 : 0 ≤ Se) (h1 : Se ≤ 1) :
    0 ≤ 1 - (1 - Se ^ (1 / m)) ^ m ∧ 1 - (1 - Se ^ (1 / m)) ^ m ≤ 1 := by
  have hp : Se ^ (1 / m) ≤ 1 := rpow_le_one h0 h1 (by positivity)
  have hp' := rpow_nonneg h0 (1 / m)
  have hq : (1 - Se ^ (1 / m)) ^ m ≤ 1 := rpow_le_one (by linarith) (by linarith) hm.le
  have hq' := rpow_nonneg (show 0 ≤ 1 - Se ^ (1 / m) by linarith) m
  exact ⟨by linarith, by linarith⟩

theorem muK_nonneg {Se : ℝ} : 0 ≤ muK m Se := mul_nonneg (sqrt_nonneg _) (sq_nonneg _)

theorem muK_le (hm : 0 < m) {S1 S2 : ℝ} (h0 : 0 ≤ S1) (h12 : S1 ≤ S2) (h1 : S2 ≤ 1) : muK m S1 ≤ muK m S2 := by
  obtain ⟨a1, _⟩ := muK_parts hm h0 (h12.trans h1)
  have hp2 : S2 ^ (1 / m) ≤ 1 := rpow_le_one (h0.trans h12) h1 (by positivity)
  have hp : S1 ^ (1 / m) ≤ S2 ^ (1 / m) := rpow_le_rpow h0 h12 (by positivity)
  have hq : (1 - S2 ^ (1 / m)) ^ m ≤ (1 - S1 ^ (1 / m)) ^ m := rpow_le_rpow (by linarith) (by linarith) hm.le
  unfold muK
  exact mul_le_mul (sqrt_le_sqrt h12) (pow_le_pow_left₀ a1 (by linarith) 2) (sq_nonneg _) (sqrt_nonneg _)

theorem muK_lt (hm : 0 < m) {S1 S2 : ℝ} (h0 : 0 ≤ S1) (h12 : S1 < S2) (h1 : S2 ≤ 1) : muK m S1 < muK m S2 := by
  obtain ⟨a1, _⟩ := muK_parts hm h0 (h12.le.trans h1)
  have hp2 : S2 ^ (1 / m) ≤ 1 := rpow_le_one (h0.trans h12.le) h1 (by positivity)
  have hp : S1 ^ (1 / m) < S2 ^ (1 / m) := rpow_lt_rpow h0 h12 (by positivity)
  have hq : (1 - S2 ^ (1 / m)) ^ m < (1 - S1 ^ (1 / m)) ^ m := rpow_lt_rpow (by linarith) (by linarith) hm
  unfold muK
  have hs : √S1 < √S2 := sqrt_lt_sqrt h0 h12
  have hc : 0 < 1 - (1 - S2 ^ (1 / m)) ^ m := by linarith
  calc √S1 * (1 - (1 - S1 ^ (1 / m)) ^ m) ^ 2
      ≤ √S1 * (1 - (1 - S2 ^ (1 / m)) ^ m) ^ 2 :=
        mul_le_mul_of_nonneg_left (pow_le_pow_left₀ a1 (by linarith) 2) (sqrt_nonneg _)
    _ < √S2 * (1 - (1 - S2 ^ (1 / m)) ^ m) ^ 2 := mul_lt_mul_of_pos_right hs (by positivity)

theorem muK_zero (_hm : 0 < m) : muK m 0 = 0 := by simp [muK]

theorem muK_one (hm : 0 < m) : muK m 1 = 1 := by
  unfold muK
  rw [one_rpow, sub_self, zero_rpow hm.ne']; simp

theorem muK_le_one (hm : 0 < m) {Se : ℝ} (h0 : 0 ≤ Se) (h1 : Se ≤ 1) : muK m Se ≤ 1 := by
  have := muK_le hm h0 h1 (le_refl 1)
  rwa [muK_one hm] at this

theorem muK_pos (hm : 0 < m) {Se : ℝ} (h0 : 0 < Se) (h1 : Se ≤ 1) : 0 < muK m Se := by
  have := muK_lt hm (le_refl 0) h0 h1
  rwa [muK_zero hm] at this

/-- Conductivity at head `h` as the integration loop computes it (without the factor Ksat). -/
noncomputable def muKh (alpha m n h : ℝ) : ℝ := muK m (if h < 1.0e-10 then 1 else vgSe alpha m n h)

theorem seH_range (ha : 0 < alpha) (hm : 0 < m) {h : ℝ} (hh : 0 ≤ h) :
    0 < (if h < 1.0e-10 then 1 else vgSe alpha m n h) ∧ (if h < 1.0e-10 then 1 else vgSe alpha m n h) ≤ 1 := by
  split
  · exact ⟨one_pos, le_refl _⟩
  · exact ⟨vgSe_pos ha hh, vgSe_le_one ha hm.le hh⟩

theorem muKh_pos (ha : 0 < alpha) (hm : 0 < m) {h : ℝ} (hh : 0 ≤ h) : 0 < muKh alpha m n h :=
  muK_pos hm (seH_range ha hm hh).1 (seH_range ha hm hh).2

theorem muKh_le_one (ha : 0 < alpha) (hm : 0 < m) {h : ℝ} (hh : 0 ≤ h) : muKh alpha m n h ≤ 1 :=
  muK_le_one hm (seH_range ha hm hh).1.le (seH_range ha hm hh).2

theorem muKh_anti (ha : 0 < alpha) (hm : 0 < m) (hn : 0 < n) {h1 h2 : ℝ} (h0 : 0 ≤ h1) (h12 : h1 ≤ h2) :
    muKh alpha m n h2 ≤ muKh alpha m n h1 := by
  refine muK_le hm (seH_range ha hm (h0.trans h12)).1.le ?_ (seH_range ha hm h0).2
  split <;> split
  · exact le_refl _
  · exfalso; linarith
  · exact vgSe_le_one ha hm.le (h0.trans h12)
  · exact vgSe_le ha hm hn h0 h12

/-- One turn of the integration loop. -/
theorem geffLoop_succ (ha : 0 < alpha) (hm : 0 < m) (hn : 0 < n) {Ks hi h2 dh K1 G : ℝ} (hK : 0 < Ks) (hh : 0 ≤ h2)
    (fuel : Nat) :
    geffLoop alpha m n Ks hi (fuel + 1) h2 dh K1 G =
      if h2 < hi then
        let K2 := Ks * muKh alpha m n h2
        let dh' := if 0.02 < (K1 - K2) / K2 then dh * 0.5 else dh * 10.0
        geffLoop alpha m n Ks hi fuel (h2 + dh') dh' K2 (G + (K1 + K2) * dh' / 2.0)
      else .ok G := by
  rw [geffLoop]
  split
  · have hr := seH_range (n := n) ha hm hh
    rw [calcSeFromH_real ha hn hh, ok_bind, calcKFromSe_real hm hr.1.le hr.2, ok_bind,
      cdiv_ne (mul_pos hK (muK_pos hm hr.1 hr.2)).ne', ok_bind]
    rfl
  · rfl

/-- Termination of the integration loop once the conductivity at the current point bounds the number of halvings. -/
theorem geffLoop_terminates_aux (ha : 0 < alpha) (hm : 0 < m) (hn : 0 < n) {Ks hi D : ℝ} (hK : 0 < Ks) (hD : 0 < D)
    (hhi : 0 ≤ hi) (fuel : Nat) : ∀ {h2 dh K1 G : ℝ} (j : Nat), 0 ≤ h2 → hi - h2 < D * fuel →
      K1 ≤ Ks * muKh alpha m n hi * 1.02 ^ j → D * 2 ^ j ≤ dh →
      (∀ x, h2 ≤ x → Ks * muKh alpha m n x ≤ K1) →
      ∃ r, geffLoop alpha m n Ks hi (fuel + 1) h2 dh K1 G = .ok r := by
  induction fuel with
  | zero =>
    intro h2 dh K1 G j hh hlt hK1 hdh _
    rw [geffLoop_succ ha hm hn hK hh, if_neg (by simp at hlt; linarith)]
    exact ⟨_, rfl⟩
  | succ fuel ih =>
    intro h2 dh K1 G j hh hlt hK1 hdh hanti
    rw [geffLoop_succ ha hm hn hK hh]
    split
    swap
    · exact ⟨_, rfl⟩
    rename_i hcont
    have hpos := muKh_pos (n := n) ha hm hh
    have hK2 : 0 < Ks * muKh alpha m n h2 := mul_pos hK hpos
    have hmin : Ks * muKh alpha m n hi ≤ Ks * muKh alpha m n h2 :=
      mul_le_mul_of_nonneg_left (muKh_anti ha hm hn hh hcont.le) hK.le
    have hminpos : 0 < Ks * muKh alpha m n hi := mul_pos hK (muKh_pos ha hm hhi)
    have h2j : (1 : ℝ) ≤ 2 ^ j := one_le_pow₀ (by norm_num)
    dsimp only
    split
    · rename_i hr
      rw [lt_div_iff₀ hK2] at hr
      obtain ⟨i, rfl⟩ : ∃ i, j = i + 1 := by
        cases j with
        | zero => exfalso; rw [pow_zero, mul_one] at hK1; norm_num at hr; nlinarith
        | succ i => exact ⟨i, rfl⟩
      have e5 : dh * (0.5 : ℝ) = dh / 2 := by norm_num; ring
      have hdh' : D * 2 ^ i ≤ dh * 0.5 := by rw [e5]; rw [pow_succ] at hdh; linarith
      have h2i : (1 : ℝ) ≤ 2 ^ i := one_le_pow₀ (by norm_num)
      have hge : D ≤ dh * 0.5 := by nlinarith
      refine ih i (by linarith) ?_ ?_ hdh' ?_
      · push_cast at hlt; linarith
      · rw [pow_succ] at hK1; norm_num at hr hK1 ⊢; nlinarith
      · intro x hx
        exact mul_le_mul_of_nonneg_left (muKh_anti ha hm hn hh (by linarith)) hK.le
    · have e10 : dh * (10.0 : ℝ) = 10 * dh := by norm_num; ring
      have hDj : D ≤ D * 2 ^ j := by nlinarith
      refine ih j ?_ ?_ ?_ ?_ ?_
      · rw [e10]; linarith
      · push_cast at hlt; rw [e10]; linarith
      · exact (hanti h2 (le_refl _)).trans hK1
      · rw [e10]; linarith
      · intro x hx
        refine mul_le_mul_of_nonneg_left (muKh_anti ha hm hn hh ?_) hK.le
        rw [e10] at hx; linarith

/-- More fuel does not change a finished run. -/
theorem geffLoop_more {Ks hi : ℝ} {fuel : Nat} {h2 dh K1 G r : ℝ}
    (h : geffLoop alpha m n Ks hi fuel h2 dh K1 G = .ok r) :
    geffLoop alpha m n Ks hi (fuel + 1) h2 dh K1 G = .ok r := by
  induction fuel generalizing h2 dh K1 G with
  | zero => simp [geffLoop] at h
  | succ f ih =>
    rw [geffLoop] at h ⊢
    split at h
    · rename_i hc
      rw [if_pos hc]
      simp only [bind_ok_iff] at h ⊢
      obtain ⟨a, ha, b, hb, c, hc', h⟩ := h
      exact ⟨a, ha, b, hb, c, hc', ih h⟩
    · rename_i hc
      rw [if_neg hc]; exact h

theorem geffLoop_mono {Ks hi : ℝ} {fuel fuel' : Nat} (hf : fuel ≤ fuel') {h2 dh K1 G r : ℝ}
    (h : geffLoop alpha m n Ks hi fuel h2 dh K1 G = .ok r) :
    geffLoop alpha m n Ks hi fuel' h2 dh K1 G = .ok r := by
  induction hf with
  | refl => exact h
  | step _ ih => exact geffLoop_more ih

/-- The integration loop finishes from every starting point with a positive step. -/
theorem geffLoop_terminates (ha : 0 < alpha) (hm : 0 < m) (hn : 0 < n) {Ks hi h2 dh K1 G : ℝ} (hK : 0 < Ks)
    (hh : 0 ≤ h2) (hdh : 0 < dh) : ∃ fuel r, geffLoop alpha m n Ks hi fuel h2 dh K1 G = .ok r := by
  by_cases hc : h2 < hi
  swap
  · exact ⟨1, G, by rw [geffLoop, if_neg hc]⟩
  have hhi : 0 ≤ hi := by linarith
  have hminpos : 0 < muKh alpha m n hi := muKh_pos ha hm hhi
  obtain ⟨M, hM⟩ : ∃ M : ℕ, 1 / muKh alpha m n hi < 1.02 ^ M := pow_unbounded_of_one_lt _ (by norm_num)
  rw [div_lt_iff₀ hminpos] at hM
  have hK2 : Ks * muKh alpha m n h2 ≤ Ks * muKh alpha m n hi * 1.02 ^ M := by
    have := muKh_le_one (n := n) ha hm hh
    nlinarith
  have hanti : ∀ d, 0 ≤ d → ∀ x, h2 + d ≤ x → Ks * muKh alpha m n x ≤ Ks * muKh alpha m n h2 := by
    intro d hd x hx
    exact mul_le_mul_of_nonneg_left (muKh_anti ha hm hn hh (by linarith)) hK.le
  have h2M : (0 : ℝ) < 2 ^ M := by positivity
  obtain ⟨N, hN⟩ := exists_nat_gt ((hi - h2) / (dh / 2 / 2 ^ M))
  have hD : 0 < dh / 2 / 2 ^ M := by positivity
  rw [div_lt_iff₀ hD] at hN
  have e5 : dh * (0.5 : ℝ) = dh / 2 := by norm_num; ring
  have e10 : dh * (10.0 : ℝ) = 10 * dh := by norm_num; ring
  refine ⟨N + 1 + 1, ?_⟩
  rw [geffLoop_succ ha hm hn hK hh, if_pos hc]
  dsimp only
  split
  · refine geffLoop_terminates_aux ha hm hn hK hD hhi N M ?_ ?_ hK2 ?_ (hanti _ ?_)
    · rw [e5]; linarith
    · rw [e5]; linarith
    · rw [e5, div_mul_cancel₀ _ h2M.ne']
    · rw [e5]; linarith
  · refine geffLoop_terminates_aux ha hm hn hK hD hhi N M ?_ ?_ hK2 ?_ (hanti _ ?_)
    · rw [e10]; linarith
    · rw [e10]; linarith
    · rw [e10, div_mul_cancel₀ _ h2M.ne']; linarith
    · rw [e10]; linarith

/-- Bounds of the integral: each trapezoid is between 0 and Ksat times its width. -/
theorem geffLoop_bounds (ha : 0 < alpha) (hm : 0 < m) (hn : 0 < n) {Ks hi hf B : ℝ} (hK : 0 < Ks) (hB : hi - hf ≤ B) :
    ∀ (fuel : Nat) {h2 dh K1 G r : ℝ}, 0 ≤ h2 → 0 < dh → hf + dh ≤ h2 → 0 ≤ K1 → K1 ≤ Ks →
      geffLoop alpha m n Ks hi fuel h2 dh K1 G = .ok r →
      G ≤ r ∧ (h2 < hi → r ≤ G + Ks * (hi + 10 * B - h2)) ∧ (¬ h2 < hi → r = G) := by
  intro fuel
  induction fuel with
  | zero => intro h2 dh K1 G r _ _ _ _ _ h; simp [geffLoop] at h
  | succ f ih =>
    intro h2 dh K1 G r hh hdh hfd h0 h1 h
    rw [geffLoop_succ ha hm hn hK hh] at h
    split at h
    swap
    · rename_i hc
      simp at h; subst h
      exact ⟨le_refl _, fun h => absurd h hc, fun _ => rfl⟩
    rename_i hc
    dsimp only at h
    have hp := muKh_pos (n := n) ha hm hh
    have hp1 := muKh_le_one (n := n) ha hm hh
    have hk0 : 0 ≤ Ks * muKh alpha m n h2 := by positivity
    have hk1 : Ks * muKh alpha m n h2 ≤ Ks := by nlinarith
    have key : ∀ d, 0 < d → d ≤ 10 * dh → geffLoop alpha m n Ks hi f (h2 + d) d (Ks * muKh alpha m n h2)
        (G + (K1 + Ks * muKh alpha m n h2) * d / 2.0) = .ok r →
        G ≤ r ∧ (h2 < hi → r ≤ G + Ks * (hi + 10 * B - h2)) ∧ (¬ h2 < hi → r = G) := by
      intro d hd hd10 h
      obtain ⟨a, b, c⟩ := ih (by linarith) hd (by linarith) hk0 hk1 h
      have l2 : (2.0 : ℝ) = 2 := by norm_num
      rw [l2] at a b c
      have t0 : 0 ≤ (K1 + Ks * muKh alpha m n h2) * d / 2 := by positivity
      have t1 : (K1 + Ks * muKh alpha m n h2) * d / 2 ≤ Ks * d := by nlinarith
      refine ⟨by linarith, fun _ => ?_, fun h => absurd hc h⟩
      by_cases hc' : h2 + d < hi
      · have := b hc'; nlinarith
      · have := c hc'
        rw [this]
        have : d ≤ 10 * B := by linarith
        nlinarith
    split at h
    · have e5 : dh * (0.5 : ℝ) = dh / 2 := by norm_num; ring
      exact key _ (by rw [e5]; linarith) (by rw [e5]; linarith) h
    · have e10 : dh * (10.0 : ℝ) = 10 * dh := by norm_num; ring
      exact key _ (by rw [e10]; linarith) (by rw [e10]) h

/-- `n` turns of the loop that all multiply the step by 10. -/
theorem geffLoop_grow (ha : 0 < alpha) (hm : 0 < m) (hn : 0 < n) {Ks hi : ℝ} (hK : 0 < Ks)
    (hflat : 1 ≤ 1.02 * muKh alpha m n hi) :
    ∀ (k fuel : Nat) {h2 dh K1 G r : ℝ}, 0 ≤ h2 → 0 < dh → K1 ≤ Ks → Ks * muKh alpha m n hi ≤ K1 →
      h2 + dh * ((10 ^ k - 1) / 9 * 10) < hi →
      geffLoop alpha m n Ks hi fuel h2 dh K1 G = .ok r →
      G + Ks * muKh alpha m n hi * (dh * ((10 ^ (k + 1) - 1) / 9 * 10)) ≤ r := by
  intro k
  induction k with
  | zero =>
    intro fuel h2 dh K1 G r hh hdh hK1 hmin hlt h
    cases fuel with
    | zero => simp [geffLoop] at h
    | succ f =>
      rw [geffLoop_succ ha hm hn hK hh, if_pos (by simpa using hlt)] at h
      dsimp only at h
      have hlt' : h2 < hi := by simpa using hlt
      have hp := muKh_pos (n := n) ha hm hh
      have hK2 : 0 < Ks * muKh alpha m n h2 := mul_pos hK hp
      have hk1 : Ks * muKh alpha m n h2 ≤ Ks := by nlinarith [muKh_le_one (n := n) ha hm hh]
      have hmono : Ks * muKh alpha m n hi ≤ Ks * muKh alpha m n h2 :=
        mul_le_mul_of_nonneg_left (muKh_anti ha hm hn hh hlt'.le) hK.le
      have hflat' : Ks ≤ 1.02 * (Ks * muKh alpha m n hi) := by nlinarith
      rw [if_neg (by rw [not_lt, div_le_iff₀ hK2]; norm_num at hflat' ⊢; nlinarith)] at h
      have e10 : dh * (10.0 : ℝ) = 10 * dh := by norm_num; ring
      rw [e10] at h
      have := (geffLoop_bounds ha hm hn (hf := h2 - 100 * dh) (B := hi - (h2 - 100 * dh)) hK (le_refl _) f (by linarith)
        (by linarith) (by linarith) hK2.le hk1 h).1
      have l2 : (2.0 : ℝ) = 2 := by norm_num
      rw [l2] at this
      refine le_trans ?_ this
      norm_num
      nlinarith
  | succ k ih =>
    intro fuel h2 dh K1 G r hh hdh hK1 hmin hlt h
    have h10 : (1 : ℝ) ≤ 10 ^ k := one_le_pow₀ (by norm_num)
    have hlt' : h2 < hi := by
      rw [pow_succ] at hlt
      nlinarith
    cases fuel with
    | zero => simp [geffLoop] at h
    | succ f =>
      rw [geffLoop_succ ha hm hn hK hh, if_pos hlt'] at h
      dsimp only at h
      have hp := muKh_pos (n := n) ha hm hh
      have hK2 : 0 < Ks * muKh alpha m n h2 := mul_pos hK hp
      have hk1 : Ks * muKh alpha m n h2 ≤ Ks := by nlinarith [muKh_le_one (n := n) ha hm hh]
      have hmono : Ks * muKh alpha m n hi ≤ Ks * muKh alpha m n h2 :=
        mul_le_mul_of_nonneg_left (muKh_anti ha hm hn hh hlt'.le) hK.le
      have hflat' : Ks ≤ 1.02 * (Ks * muKh alpha m n hi) := by nlinarith
      rw [if_neg (by rw [not_lt, div_le_iff₀ hK2]; norm_num at hflat' ⊢; nlinarith)] at h
      have e10 : dh * (10.0 : ℝ) = 10 * dh := by norm_num; ring
      rw [e10] at h
      have := ih f (by linarith) (by linarith) hk1 hmono (by rw [pow_succ] at hlt; linarith) h
      have l2 : (2.0 : ℝ) = 2 := by norm_num
      rw [l2] at this
      refine le_trans ?_ this
      rw [pow_succ (10 : ℝ) (k + 1)]
      nlinarith
end

end LGAR
