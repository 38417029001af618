import Verif.Spec.Rounding
import Verif.Spec.Water
import Verif.Lemmas.Balance
/-
Water balance in rounded arithmetic: rounding errors of the surface partition and of one sub-timestep.
-/
set_option linter.unusedSectionVars false
namespace LGAR
open Rounded

variable {α : Type} [Add α] [Sub α] [Mul α] [Div α] [Neg α] [Zero α] [One α] [OfScientific α]
  [LT α] [LE α] [DecidableLT α] [DecidableLE α] [BEq α] [CMath α] [Rounded α]

theorem eps_small : (eps α) ≤ 1 / 1000 := (eps_le (α := α)).trans (by norm_num)

theorem eps_mul_le {x N : ℝ} (h : |x| ≤ N) : eps α * |x| ≤ eps α * N := mul_le_mul_of_nonneg_left h eps_nonneg

/-- A value that is its exact counterpart up to the relative error of the value. -/
theorem near_abs {y x : ℝ} (h : |y - x| ≤ eps α * |y|) : |y| ≤ 1.01 * |x| := by
  have h1 : |y| ≤ |x| + |y - x| := by
    have := abs_add_le x (y - x); rwa [add_sub_cancel] at this
  have h2 : eps α * |y| ≤ 1 / 1000 * |y| := mul_le_mul_of_nonneg_right eps_small (abs_nonneg _)
  linarith [abs_nonneg x]

theorem near_nonneg {y x : ℝ} (h : |y - x| ≤ eps α * |y|) (hx : 0 ≤ x) : 0 ≤ y := by
  by_contra hy
  rw [not_le] at hy
  have h2 : eps α * |y| ≤ 1 / 1000 * |y| := mul_le_mul_of_nonneg_right eps_small (abs_nonneg _)
  rw [abs_of_neg hy] at h h2
  have := neg_abs_le (y - x)
  linarith

/-- The exact counterpart is bounded by the rounded value. -/
theorem near_abs' {y x : ℝ} (h : |y - x| ≤ eps α * |y|) : |x| ≤ 1.01 * |y| := by
  have h1 : |x| ≤ |y| + |y - x| := by
    have := abs_add_le y (x - y); rw [add_sub_cancel, abs_sub_comm x y] at this; exact this
  have h2 : eps α * |y| ≤ 1 / 1000 * |y| := mul_le_mul_of_nonneg_right eps_small (abs_nonneg _)
  linarith [abs_nonneg y]

/-- An addend is bounded by the two totals. -/
theorem addend_abs {T T' x M : ℝ} (h : |T' - (T + x)| ≤ eps α * |T'|) (h1 : |T| ≤ M) (h2 : |T'| ≤ M) : |x| ≤ 2.01 * M := by
  have h3 : eps α * |T'| ≤ 1 / 1000 * |T'| := mul_le_mul_of_nonneg_right eps_small (abs_nonneg _)
  have h4 := abs_le.mp h
  have h5 := abs_le.mp h1
  have h6 := abs_le.mp h2
  rw [abs_le]
  constructor <;> linarith [h4.1, h4.2, h5.1, h5.2, h6.1, h6.2]

/-- What partitionPond returns, in rounded arithmetic. -/
theorem partitionPond_rounded {dt ponded volin pondMax fp r v p : α} {M : ℝ} (hv0 : val volin = 0) (hpm : 0 ≤ val pondMax)
    (hq : 0 < val ponded) (h : partitionPond dt ponded volin pondMax fp = .ok (r, v, p)) (hr : |val r| ≤ 2.01 * M)
    (hvm : |val v| ≤ 2.01 * M) (hw : |val p| ≤ M) :
    |val ponded - val v - val r - val p| ≤ 14 * (eps α * M) ∧ 0 ≤ val p := by
  have hM : 0 ≤ M := le_trans (abs_nonneg _) hw
  have hE : 0 ≤ eps α * M := mul_nonneg eps_nonneg hM
  unfold partitionPond at h
  simp only [bind_ok_iff] at h
  obtain ⟨z, hz, h⟩ := h
  have hz0 : val z = 0 := by
    unfold cdiv at hz
    split at hz
    · simp only [Except.ok.injEq] at hz; rw [← hz]; exact zero_div _ _ val_zero
    · simp at hz
  split at h
  · rename_i hpos
    rw [lt_iff, val_zero] at hpos
    split at h
    · simp only [pure_eq_ok, Except.ok.injEq, Prod.mk.injEq] at h
      obtain ⟨rfl, rfl, rfl⟩ := h
      have e1 := sub_err ponded (CMath.fmin ponded (fp * dt + z))
      have hx : val (CMath.fmin ponded (fp * dt + z)) ≤ val ponded := by rw [fmin_val]; exact min_le_left _ _
      have e2 := e1.trans (eps_mul_le hw)
      refine ⟨?_, near_nonneg e1 (by linarith)⟩
      rw [val_zero]
      rw [abs_le] at e2 ⊢
      constructor <;> linarith [e2.1, e2.2]
    · split at h
      · rename_i hlt
        simp only [pure_eq_ok, Except.ok.injEq, Prod.mk.injEq] at h
        obtain ⟨h1, h2, h3⟩ := h
        rw [← h3] at hw ⊢
        refine ⟨?_, hpm⟩
        rw [lt_iff] at hlt
        -- the head left if everything infiltrates
        have eT : val (CMath.fmax (ponded - fp * dt - 0 * 0) 0) = val (ponded - fp * dt - 0 * 0) := by
          rw [fmax_val, val_zero]
          rw [fmax_val, val_zero] at hlt
          rcases le_total (val (ponded - fp * dt - 0 * 0)) 0 with hc | hc
          · rw [max_eq_right hc] at hlt; linarith
          · exact max_eq_left hc
        have e0 : val ((0 : α) * 0) = 0 := zero_mul _ _ val_zero
        have eR := sub_err (CMath.fmax (ponded - fp * dt - 0 * 0) 0) pondMax
        rw [h1, eT] at eR
        have bT : |val (ponded - fp * dt - 0 * 0)| ≤ 3.1 * M := by
          have k1 := abs_le.mp (eR.trans ((eps_mul_le hr).trans (mul_le_mul_of_nonneg_right eps_small (by linarith))))
          have k2 := abs_le.mp hr
          have k3 := abs_le.mp hw
          rw [abs_le]; constructor <;> linarith [k1.1, k1.2, k2.1, k2.2, k3.1, k3.2]
        have eT2 := sub_err (ponded - fp * dt) ((0 : α) * 0)
        rw [e0, sub_zero] at eT2
        have bT2 : |val (ponded - fp * dt)| ≤ 3.2 * M := (near_abs' eT2).trans (by linarith)
        have eT3 := sub_err ponded (fp * dt)
        have eV := add_err (fp * dt) z
        rw [hz0, add_zero, h2] at eV
        have k1 := abs_le.mp (eR.trans (eps_mul_le hr))
        have k2 := abs_le.mp (eT2.trans (eps_mul_le bT))
        have k3 := abs_le.mp (eT3.trans (eps_mul_le bT2))
        have k4 := abs_le.mp (eV.trans (eps_mul_le hvm))
        rw [abs_le]
        constructor <;> linarith [k1.1, k1.2, k2.1, k2.2, k3.1, k3.2, k4.1, k4.2]
      · simp only [pure_eq_ok, Except.ok.injEq, Prod.mk.injEq] at h
        obtain ⟨rfl, rfl, rfl⟩ := h
        refine ⟨?_, hq.le⟩
        rw [hv0, val_zero, sub_zero, sub_zero, sub_self, abs_zero]
        linarith
  · simp only [pure_eq_ok, Except.ok.injEq, Prod.mk.injEq] at h
    obtain ⟨h1, h2, rfl⟩ := h
    rw [val_zero]
    refine ⟨?_, le_refl _⟩
    split at h1
    · rename_i hlt
      rw [lt_iff] at hlt
      rw [← h1, ← h2, val_zero, fmin_val, min_eq_left hlt.le]
      simp only [sub_self, sub_zero, abs_zero]
      linarith
    · have e1 := sub_err ponded (CMath.fmin ponded (fp * dt + z))
      rw [h1, h2] at e1
      have k1 := abs_le.mp (e1.trans (eps_mul_le hr))
      rw [abs_le]
      constructor <;> linarith [k1.1, k1.2]

theorem surficialSplit_rounded {g : Geo α} {ponded dry theta1 pd v : α} {l l1 : List (Front α)}
    (h : createFront g ponded dry theta1 l = .ok (pd, v, l1)) :
    (v = ponded ∧ pd = 0) ∨ (pd = ponded - v ∧ ¬ ponded < v) := by
  unfold createFront at h
  simp only [bind_ok_iff] at h
  obtain ⟨s, _, ⟨v0, p0, th⟩, hsp, h⟩ := h
  simp only [bind_ok_iff] at h
  obtain ⟨_, _, _, _, _, _, _, _, _, _, h⟩ := h
  simp only [pure_eq_ok, Except.ok.injEq, Prod.mk.injEq] at h
  obtain ⟨rfl, rfl, _⟩ := h
  unfold surficialSplit at hsp
  split at hsp
  · simp only [bind_ok_iff, pure_eq_ok, Except.ok.injEq, Prod.mk.injEq] at hsp
    obtain ⟨_, _, rfl, rfl, _⟩ := hsp
    exact .inl ⟨rfl, rfl⟩
  · rename_i hlt
    simp only [pure_eq_ok, Except.ok.injEq, Prod.mk.injEq] at hsp
    obtain ⟨rfl, rfl, _⟩ := hsp
    exact .inr ⟨rfl, hlt⟩

/-- How the totals change in the water movement, in any arithmetic. -/
theorem subFlow_totals {c : StepCfg α} {s : SubSt α} {b : Bool} {prev : List (Front α)} {nFd : Nat} {rate ponded aet : α}
    {f : SubFlow α} (h : subFlow c s b prev nFd rate ponded aet = .ok f) :
    (f.volinT = s.volinT + f.volin ∨ f.volinT = s.volinT ∧ f.volin = 0) ∧ f.runoffT = s.runoffT + f.runoff ∧
      (f.rechT = s.rechT + f.rech ∨ f.rechT = s.rechT ∧ f.rech = 0) := by
  unfold subFlow at h
  split at h
  · obtain ⟨l, flux, dry, d, h0, pd, _, _, _, hc, _, hvT, hre, hrT, ho⟩ := flowCreate_inv h
    refine ⟨.inl hvT, hrT, ?_⟩
    rcases hre with ⟨_, h1, h2⟩ | ⟨_, h1, h2⟩
    · exact .inr ⟨h2, h1⟩
    · left; rw [h2, h1]
  · obtain ⟨hs, _, _, hvT, hrT, hre⟩ := flowMove_inv h
    refine ⟨?_, hrT, .inl hre⟩
    split at hvT
    · exact .inl hvT
    · rename_i hp
      refine .inr ⟨hvT, ?_⟩
      unfold surfaceFlow at hs
      rw [if_neg hp] at hs
      split at hs <;> · simp only [Except.ok.injEq, Prod.mk.injEq] at hs; exact hs.2.1.symm

/-- Surface partition of a sub-timestep in rounded arithmetic. -/
theorem subFlow_rounded {c : StepCfg α} {s : SubSt α} {b : Bool} {prev : List (Front α)} {nFd : Nat} {rate ponded aet : α}
    {f : SubFlow α} {M : ℝ} (hpm : 0 ≤ val c.pondMax) (hq : 0 ≤ val ponded)
    (h : subFlow c s b prev nFd rate ponded aet = .ok f) (hr : |val f.runoff| ≤ 2.01 * M) (hvm : |val f.volin| ≤ 2.01 * M)
    (hw : |val f.volon| ≤ M) :
    |val ponded - val f.volin - val f.runoff - val f.volon| ≤ 14 * (eps α * M) ∧ 0 ≤ val f.volon ∧ 0 ≤ val f.runoff := by
  have hM : 0 ≤ M := le_trans (abs_nonneg _) hw
  have hE : 0 ≤ eps α * M := mul_nonneg eps_nonneg hM
  unfold subFlow at h
  split at h
  · obtain ⟨l, flux, dry, d, h0, pd, _, _, _, hc, _, _, _, _, ho⟩ := flowCreate_inv h
    obtain ⟨l1, hcf, _⟩ := createSurficial_steps hc
    simp only at hcf
    have hsp := surficialSplit_rounded hcf
    have hpd : |val pd - (val ponded - val f.volin)| ≤ eps α * |val pd| ∧ 0 ≤ val pd := by
      rcases hsp with ⟨h1, h2⟩ | ⟨h1, h2⟩
      · rw [h1, h2, val_zero]; simp
      · rw [lt_iff, not_lt] at h2
        have := sub_err ponded f.volin
        rw [h1]
        exact ⟨this, near_nonneg this (by linarith)⟩
    rcases ho with ⟨h1, h2, h3, _⟩ | ⟨h1, h2, h3, _⟩
    · rw [h2, h3, val_zero]
      rw [h3] at hw
      have k1 := abs_le.mp (hpd.1.trans (eps_mul_le hw))
      refine ⟨?_, hpd.2, le_refl _⟩
      rw [abs_le]; constructor <;> linarith [k1.1, k1.2]
    · rw [lt_iff, not_lt] at h1
      have e1 := sub_err pd c.pondMax
      rw [h3] at hw
      rw [h2] at hr
      rw [h2, h3]
      have bT : |val pd| ≤ 3.1 * M := by
        have k1 := abs_le.mp (e1.trans ((eps_mul_le hr).trans (mul_le_mul_of_nonneg_right eps_small (by linarith))))
        have k2 := abs_le.mp hr
        have k3 := abs_le.mp hw
        rw [abs_le]; constructor <;> linarith [k1.1, k1.2, k2.1, k2.2, k3.1, k3.2]
      have k1 := abs_le.mp (hpd.1.trans (eps_mul_le bT))
      have k2 := abs_le.mp (e1.trans (eps_mul_le hr))
      refine ⟨?_, hpm, near_nonneg e1 (by linarith)⟩
      rw [abs_le]; constructor <;> linarith [k1.1, k1.2, k2.1, k2.2]
  · obtain ⟨hs, _, _, _, _, _⟩ := flowMove_inv h
    unfold surfaceFlow at hs
    split at hs
    · rename_i hpos
      rw [lt_iff, val_zero] at hpos
      simp only [bind_ok_iff, Prod.exists] at hs
      obtain ⟨r, v, pd, hi, hs⟩ := hs
      split at hs
      · simp at hs
      · rename_i hneg
        rw [lt_iff, val_zero, not_lt] at hneg
        simp only [Except.ok.injEq, Prod.mk.injEq] at hs
        obtain ⟨h1, h2, h3, _⟩ := hs
        unfold insertWater at hi
        simp only [bind_ok_iff] at hi
        obtain ⟨fp, _, hi⟩ := hi
        rw [h1, h2, h3] at hi
        rw [h1] at hneg
        obtain ⟨k1, k2⟩ := partitionPond_rounded val_zero hpm hpos hi hr hvm hw
        exact ⟨k1, k2, hneg⟩
    · rename_i hpos
      rw [lt_iff, val_zero, not_lt] at hpos
      have hp0 : val ponded = 0 := le_antisymm hpos hq
      split at hs
      · simp only [Except.ok.injEq, Prod.mk.injEq] at hs
        obtain ⟨h1, h2, h3, _⟩ := hs
        rw [← h1, ← h2, ← h3, val_zero]
        simp only [sub_zero, sub_self, abs_zero]
        exact ⟨by linarith, hq, le_refl _⟩
      · rename_i hlt
        rw [lt_iff, not_lt] at hlt
        simp only [Except.ok.injEq, Prod.mk.injEq] at hs
        obtain ⟨h1, h2, h3, _⟩ := hs
        rw [← h1] at hr
        rw [← h1, ← h2, ← h3, val_zero]
        have e1 := sub_err ponded c.pondMax
        have k1 := abs_le.mp (e1.trans (eps_mul_le hr))
        refine ⟨?_, hpm, near_nonneg e1 (by linarith)⟩
        rw [abs_le]; constructor <;> linarith [k1.1, k1.2]

/-- A decimal constant up to 1 is stored with an error below 1e-15 times its size, roughly. -/
theorem lit_val (m : Nat) (s : Bool) (e : Nat) {x : ℝ} (hx : (OfScientific.ofScientific m s e : ℝ) = x) (h0 : 0 ≤ x) :
    |val (OfScientific.ofScientific m s e : α) - x| ≤ x / 2 ^ 51 + 1 / 2 ^ 99 := by
  have h := lit_err (α := α) m s e
  rw [hx] at h
  generalize val (OfScientific.ofScientific m s e : α) = y at h
  have h1 : |y| ≤ x + |y - x| := by
    have := abs_add_le x (y - x); rw [add_sub_cancel, abs_of_nonneg h0] at this; exact this
  have h2 : eps α * |y| ≤ 1 / 2 ^ 52 * |y| := mul_le_mul_of_nonneg_right eps_le (abs_nonneg _)
  have h3 := tiny_le (α := α)
  norm_num at h2 h3 ⊢
  linarith

theorem lit_4 : val (1.0e-4 : α) ≤ 1e-4 + 5e-13 := by
  have h := abs_le.mp (lit_val (α := α) 10 true 5 (x := 1e-4) (by norm_num) (by norm_num))
  have : val (1.0e-4 : α) = val (OfScientific.ofScientific 10 true 5 : α) := rfl
  norm_num at h ⊢
  linarith [h.2]

theorem lit_12 : val (1.0e-12 : α) ≤ 1.1e-12 := by
  have h := abs_le.mp (lit_val (α := α) 10 true 13 (x := 1e-12) (by norm_num) (by norm_num))
  have : val (1.0e-12 : α) = val (OfScientific.ofScientific 10 true 13 : α) := rfl
  norm_num at h ⊢
  linarith [h.2]

theorem lit_01 : 0 ≤ val (0.1 : α) := by
  have h := abs_le.mp (lit_val (α := α) 1 true 1 (x := 0.1) (by norm_num) (by norm_num))
  have : val (0.1 : α) = val (OfScientific.ofScientific 1 true 1 : α) := rfl
  norm_num at h ⊢
  linarith [h.1]

theorem volonClean_rounded {v : α} (hv : 0 ≤ val v) : |val (volonClean v) - val v| ≤ 1.1e-12 ∧ |val (volonClean v)| ≤ |val v| := by
  unfold volonClean
  have e : val (CMath.fmax v 0) = val v := by rw [fmax_val, val_zero, max_eq_left hv]
  split
  · rw [e]; simp only [sub_self, abs_zero, le_refl, and_true]; norm_num
  · rename_i h
    rw [lt_iff, e, not_lt] at h
    rw [val_zero, zero_sub, abs_neg, abs_of_nonneg hv, abs_zero]
    exact ⟨h.trans lit_12, hv⟩

theorem fmax_zero_nonneg (x : α) : 0 ≤ val (CMath.fmax x 0) := by rw [fmax_val, val_zero]; exact le_max_right _ _

/-- One sub-timestep in rounded arithmetic. -/
theorem subStep_rounded {c : StepCfg α} {s s' : SubSt α} {M : ℝ} (hdt : 0 ≤ val c.dt) (hpm : 0 ≤ val c.pondMax)
    (hv : 0 ≤ val s.volon) (he : massBal c.geo.cum s.head = .ok s.volend) (hb : SubBooksIn M s) (hb' : SubBooksIn M s')
    (h : subStep c s = .ok s') :
    0 ≤ val s'.volon ∧ massBal c.geo.cum s'.head = .ok s'.volend ∧ s'.timesteps = s.timesteps + 1 ∧
      |val s.volon + (val s'.precipT - val s.precipT) - (val s'.volinT - val s.volinT) - (val s'.runoffT - val s.runoffT) -
        val s'.volon| ≤ 24 * (eps α * M) ∧
      |val s.volend + val s.volon + (val s'.precipT - val s.precipT) - (val s'.runoffT - val s.runoffT) -
        (val s'.aetT - val s.aetT) - (val s'.rechT - val s.rechT) - val s'.volon - val s'.volend| ≤
        1e-4 + 2e-12 + 120 * (eps α * M) := by
  obtain ⟨aet, vs, h0, hs, f, l, ve, h1, _, hvs, _, _, hf, _, hve, hmb, _, _, rfl⟩ := subStep_inv h
  rw [he, Except.ok.injEq] at hvs
  subst hvs
  have hM : 0 ≤ M := le_trans (abs_nonneg _) hb.pond
  have hE : 0 ≤ eps α * M := mul_nonneg eps_nonneg hM
  obtain ⟨bP, bI, bR, bA, bG, bW, bS⟩ := hb
  obtain ⟨bP', bI', bR', bA', bG', bW', bS'⟩ := hb'
  simp only at bP' bI' bR' bA' bG' bW' bS' ⊢
  have hp0 : 0 ≤ val (CMath.fmax s.precipMm 0 * 0.1 * c.dt) :=
    mul_nonneg _ _ (mul_nonneg _ _ (fmax_zero_nonneg _) lit_01) hdt
  generalize CMath.fmax s.precipMm 0 * 0.1 * c.dt = p at hf hmb bP' hp0 ⊢
  have eP := add_err s.precipT p
  have bp := addend_abs eP bP bP'
  have eQ := add_err p s.volon
  have bQ : |val (p + s.volon)| ≤ 3.1 * M := by
    have := near_abs eQ
    have := abs_add_le (val p) (val s.volon)
    linarith
  have hq : 0 ≤ val (p + s.volon) := near_nonneg eQ (by linarith)
  obtain ⟨hvT, hrT, hgT⟩ := subFlow_totals hf
  rw [hrT] at bR' ⊢
  have eR := add_err s.runoffT f.runoff
  have br := addend_abs eR bR bR'
  have eI : |val f.volinT - (val s.volinT + val f.volin)| ≤ eps α * |val f.volinT| := by
    rcases hvT with h | ⟨h1, h2⟩
    · rw [h]; exact add_err _ _
    · rw [h1, h2, val_zero, add_zero, sub_self, abs_zero]; exact _root_.mul_nonneg eps_nonneg (abs_nonneg _)
  have bv := addend_abs eI bI bI'
  have eG : |val f.rechT - (val s.rechT + val f.rech)| ≤ eps α * |val f.rechT| := by
    rcases hgT with h | ⟨h1, h2⟩
    · rw [h]; exact add_err _ _
    · rw [h1, h2, val_zero, add_zero, sub_self, abs_zero]; exact _root_.mul_nonneg eps_nonneg (abs_nonneg _)
  have bg := addend_abs eG bG bG'
  have eA := add_err s.aetT f.aet
  have ba := addend_abs eA bA bA'
  obtain ⟨hsurf, hw0, hr0⟩ := subFlow_rounded hpm hq hf br bv bW'
  obtain ⟨hc1, hc2⟩ := volonClean_rounded hv
  refine ⟨hw0, hve, trivial, ?_, ?_⟩
  · have k1 := abs_le.mp (eP.trans (eps_mul_le bP'))
    have k2 := abs_le.mp (eQ.trans (eps_mul_le bQ))
    have k3 := abs_le.mp (eR.trans (eps_mul_le bR'))
    have k4 := abs_le.mp (eI.trans (eps_mul_le bI'))
    have k5 := abs_le.mp hsurf
    rw [abs_le]
    constructor <;> linarith [k1.1, k1.2, k2.1, k2.2, k3.1, k3.2, k4.1, k4.2, k5.1, k5.2]
  · generalize volonClean s.volon = w at hf hmb hc1 hc2 ⊢
    rw [lt_iff, not_lt, fabs_val] at hmb
    have x1 := add_err s.volend p
    have b1 : |val (s.volend + p)| ≤ 3.1 * M := by
      have := near_abs x1
      have := abs_add_le (val s.volend) (val p)
      linarith
    generalize s.volend + p = y1 at x1 b1 hmb
    have x2 := add_err y1 w
    have b2 : |val (y1 + w)| ≤ 4.2 * M := by
      have := near_abs x2
      have := abs_add_le (val y1) (val w)
      linarith
    generalize y1 + w = y2 at x2 b2 hmb
    have x3 := sub_err y2 f.runoff
    have b3 : |val (y2 - f.runoff)| ≤ 6.4 * M := by
      have := near_abs x3
      have := abs_sub (val y2) (val f.runoff)
      linarith
    generalize y2 - f.runoff = y3 at x3 b3 hmb
    have x4 := sub_err y3 f.aet
    have b4 : |val (y3 - f.aet)| ≤ 8.6 * M := by
      have := near_abs x4
      have := abs_sub (val y3) (val f.aet)
      linarith
    generalize y3 - f.aet = y4 at x4 b4 hmb
    have x5 := sub_err y4 f.volon
    have b5 : |val (y4 - f.volon)| ≤ 9.8 * M := by
      have := near_abs x5
      have := abs_sub (val y4) (val f.volon)
      linarith
    generalize y4 - f.volon = y5 at x5 b5 hmb
    have x6 := sub_err y5 f.rech
    have b6 : |val (y5 - f.rech)| ≤ 12.1 * M := by
      have := near_abs x6
      have := abs_sub (val y5) (val f.rech)
      linarith
    generalize y5 - f.rech = y6 at x6 b6 hmb
    have x7 := sub_err y6 ve
    have b7 : |val (y6 - ve)| ≤ 13.4 * M := by
      have := near_abs x7
      have := abs_sub (val y6) (val ve)
      linarith
    generalize y6 - ve = y7 at x7 b7 hmb
    have k1 := abs_le.mp (x1.trans (eps_mul_le b1))
    have k2 := abs_le.mp (x2.trans (eps_mul_le b2))
    have k3 := abs_le.mp (x3.trans (eps_mul_le b3))
    have k4 := abs_le.mp (x4.trans (eps_mul_le b4))
    have k5 := abs_le.mp (x5.trans (eps_mul_le b5))
    have k6 := abs_le.mp (x6.trans (eps_mul_le b6))
    have k7 := abs_le.mp (x7.trans (eps_mul_le b7))
    have j1 := abs_le.mp (eP.trans (eps_mul_le bP'))
    have j3 := abs_le.mp (eR.trans (eps_mul_le bR'))
    have j4 := abs_le.mp (eA.trans (eps_mul_le bA'))
    have j5 := abs_le.mp (eG.trans (eps_mul_le bG'))
    have j6 := abs_le.mp (hmb.trans lit_4)
    have j7 := abs_le.mp hc1
    norm_num at j6 j7 ⊢
    rw [abs_le]
    constructor <;> linarith [k1.1, k1.2, k2.1, k2.2, k3.1, k3.2, k4.1, k4.2, k5.1, k5.2, k6.1, k6.2, k7.1, k7.2, j1.1, j1.2,
      j3.1, j3.2, j4.1, j4.2, j5.1, j5.2, j6.1, j6.2, j7.1, j7.2]

/-- The sub-timesteps of an Update in rounded arithmetic. -/
theorem subLoop_rounded {c : StepCfg α} {M : ℝ} (hdt : 0 ≤ val c.dt) (hpm : 0 ≤ val c.pondMax) :
    ∀ {n : Nat} {s s' : SubSt α}, 0 ≤ val s.volon → massBal c.geo.cum s.head = .ok s.volend →
    (∀ u ∈ loopStates c n s, SubBooksIn M u) → subLoop c n s = .ok s' →
    SubBooksIn M s' ∧ 0 ≤ val s'.volon ∧ massBal c.geo.cum s'.head = .ok s'.volend ∧ s.timesteps ≤ s'.timesteps ∧
      |val s.volon + (val s'.precipT - val s.precipT) - (val s'.volinT - val s.volinT) - (val s'.runoffT - val s.runoffT) -
        val s'.volon| ≤ ((s'.timesteps - s.timesteps : Int) : ℝ) * (24 * (eps α * M)) ∧
      |val s.volend + val s.volon + (val s'.precipT - val s.precipT) - (val s'.runoffT - val s.runoffT) -
        (val s'.aetT - val s.aetT) - (val s'.rechT - val s.rechT) - val s'.volon - val s'.volend| ≤
        ((s'.timesteps - s.timesteps : Int) : ℝ) * (1e-4 + 2e-12 + 120 * (eps α * M))
  | 0, s, s', hv, he, hb, h => by
    simp only [subLoop, Except.ok.injEq] at h
    subst h
    refine ⟨hb _ (by simp [loopStates]), hv, he, le_refl _, ?_, ?_⟩ <;> simp
  | n + 1, s, s', hv, he, hb, h => by
    unfold subLoop at h
    simp only [bind_ok_iff] at h
    obtain ⟨s1, h1, h⟩ := h
    have hb0 : SubBooksIn M s := hb s (by simp [loopStates])
    have hb1 : SubBooksIn M s1 := by
      apply hb
      simp only [loopStates, h1, List.mem_cons]
      split
      · simp
      · right; cases n <;> simp [loopStates]
    obtain ⟨j1, j2, j3, j4, j5⟩ := subStep_rounded hdt hpm hv he hb0 hb1 h1
    split at h
    · simp only [pure_eq_ok, Except.ok.injEq] at h
      subst h
      have e : ((s1.timesteps - s.timesteps : Int) : ℝ) = 1 := by rw [j3]; push_cast; ring
      rw [e, one_mul, one_mul]
      exact ⟨hb1, j1, j2, by omega, j4, j5⟩
    · rename_i hstop
      have hb' : ∀ u ∈ loopStates c n s1, SubBooksIn M u := by
        intro u hu
        apply hb
        simp only [loopStates, h1, if_neg hstop, List.mem_cons]
        exact .inr hu
      obtain ⟨i0, i1, i2, i3, i4, i5⟩ := subLoop_rounded hdt hpm j1 j2 hb' h
      refine ⟨i0, i1, i2, by omega, ?_, ?_⟩
      · have e : val s.volon + (val s'.precipT - val s.precipT) - (val s'.volinT - val s.volinT) -
            (val s'.runoffT - val s.runoffT) - val s'.volon =
            (val s.volon + (val s1.precipT - val s.precipT) - (val s1.volinT - val s.volinT) -
              (val s1.runoffT - val s.runoffT) - val s1.volon) +
            (val s1.volon + (val s'.precipT - val s1.precipT) - (val s'.volinT - val s1.volinT) -
              (val s'.runoffT - val s1.runoffT) - val s'.volon) := by ring
        rw [e]
        refine (abs_add_le _ _).trans ((add_le_add j4 i4).trans (le_of_eq ?_))
        rw [j3]; push_cast; ring
      · have e : val s.volend + val s.volon + (val s'.precipT - val s.precipT) - (val s'.runoffT - val s.runoffT) -
            (val s'.aetT - val s.aetT) - (val s'.rechT - val s.rechT) - val s'.volon - val s'.volend =
            (val s.volend + val s.volon + (val s1.precipT - val s.precipT) - (val s1.runoffT - val s.runoffT) -
              (val s1.aetT - val s.aetT) - (val s1.rechT - val s.rechT) - val s1.volon - val s1.volend) +
            (val s1.volend + val s1.volon + (val s'.precipT - val s1.precipT) - (val s'.runoffT - val s1.runoffT) -
              (val s'.aetT - val s1.aetT) - (val s'.rechT - val s1.rechT) - val s'.volon - val s'.volend) := by ring
        rw [e]
        refine (abs_add_le _ _).trans ((add_le_add j5 i5).trans (le_of_eq ?_))
        rw [j3]; push_cast; ring

/-- Time steps are not negative. -/
structure TimesOk (p : Params α) : Prop where
  dt : 0 ≤ val p.timestepH
  mn : 0 ≤ val p.minTimestepH
  res : 0 ≤ val p.forcingResH

theorem lit_2 : 0 ≤ val (2.0 : α) := by
  have h := abs_le.mp (lit_val (α := α) 20 true 1 (x := 2) (by norm_num) (by norm_num))
  have : val (2.0 : α) = val (OfScientific.ofScientific 20 true 1 : α) := rfl
  norm_num at h ⊢
  linarith [h.1]

theorem TimesOk.choose {p : Params α} (h : TimesOk p) (pr v : α) : 0 ≤ val (chooseTimestep p pr v) := by
  unfold chooseTimestep
  split
  · simp only [fmin_val]
    refine le_min ?_ h.res
    split
    · exact h.mn
    · split
      · exact mul_nonneg _ _ h.mn lit_2
      · exact h.res
  · exact h.dt

/-- The books between Updates in rounded arithmetic, after `k` Updates. -/
structure RBal (M : ℝ) (k : Nat) (s : State α) : Prop where
  valid : s.p.invalidSoil = false
  times : TimesOk s.p
  pond : 0 ≤ val s.mb.volonT
  steps : 0 ≤ s.p.timesteps
  books : 0 ≤ M → BooksIn M s.mb
  bal : ∃ v, massBal s.p.cum s.head = .ok v ∧
    (0 ≤ M → |val s.mb.volstart + val s.mb.volprecip + val s.mb.volcalib - val s.mb.volrunoff - val s.mb.volAET -
      val s.mb.volonT - val s.mb.volrech - val v| ≤
      (s.p.timesteps : ℝ) * (1e-4 + 2e-12 + 120 * (eps α * M)) + (k : ℝ) * (8 * (eps α * M)))
  surface : 0 ≤ M → |val s.mb.volprecip - val s.mb.volin - val s.mb.volrunoff - val s.mb.volonT| ≤
    (s.p.timesteps : ℝ) * (24 * (eps α * M)) + (k : ℝ) * (3 * (eps α * M))

theorem RBal.inputs {M : ℝ} {k : Nat} {s s' : State α} (hb : RBal M k s) (h : Inputs s s') : RBal M k s' := by
  obtain ⟨pr, pet, temp, cal, rfl⟩ := h
  exact ⟨hb.valid, ⟨hb.times.dt, hb.times.mn, hb.times.res⟩, hb.pond, hb.steps, hb.books, hb.bal, hb.surface⟩

theorem RBal.update {M : ℝ} {k : Nat} {fuel : Nat} {sa : Bool} {s s' : State α} (hb : RBal M k s)
    (hin : ∀ u ∈ innerStates fuel sa s, SubBooksIn M u) (hbk : BooksIn M s'.mb) (hp : 0 ≤ val s'.p.pondMax)
    (h : LGAR.update fuel sa s = .ok s') :
    RBal M (k + 1) s' ∧ s'.mb.volon = s'.mb.volonT ∧ massBal s'.p.cum s'.head = .ok s'.mb.volend ∧
      s'.mb.volstart = s.mb.volstart := by
  have hM : 0 ≤ M := le_trans (abs_nonneg _) hbk.precip
  have hE : 0 ≤ eps α * M := _root_.mul_nonneg eps_nonneg hM
  rcases update_inv h with ⟨hi, _⟩ | ⟨_, s1, d, v, u, h1, hv, hu, h2⟩
  · rw [hb.valid] at hi; simp at hi
  obtain ⟨giuh, queue, _, hh, _, _, _, _, _, _, _, _, hpp, hmb, _⟩ := updatePost_inv h2
  have hin' : ∀ u ∈ loopStates (stepCfg fuel sa s1) s1.p.forcingInterval.toNat (subInit s1 v), SubBooksIn M u := by
    intro u hu; apply hin; simp only [innerStates, h1, hv]; exact hu
  obtain ⟨hpr, _, fs, soils, l, fc, pm, q, _, rfl, _, hcal⟩ := updatePre_inv h1
  simp only at hv hu h2 hpp hmb
  have hpm : s'.p.pondMax = pm := by rw [hpp]
  have hloop := subLoop_rounded (M := M) (hb.times.choose s.precipMm s.mb.volonT) (by rw [hpm] at hp; exact hp) hb.pond
    (by exact hv) hin' hu
  simp only [subInit, stepCfg, State.geo, val_zero, sub_zero] at hloop
  obtain ⟨i0, i1, i2, i3, i4, i5⟩ := hloop
  obtain ⟨v0, hv0, hbal⟩ := hb.bal
  have hbal := hbal hM
  obtain ⟨cP, cI, cR, cA, cG, cC⟩ := hb.books hM
  obtain ⟨dP, dI, dR, dA, dG, dC⟩ := hbk
  rw [hmb] at dP dI dR dA dG dC
  simp only at dP dI dR dA dG dC
  have hcum : s'.p.cum = s.p.cum := by rw [hpp]
  have hd : |val d - (val v - val v0)| ≤ eps α * |val d| := by
    rcases hcal with ⟨_, _, _, _, m0, m1, h0, h1, hd⟩ | ⟨_, _, _, hl, _, hd⟩
    · rw [hv0, Except.ok.injEq] at h0
      rw [hv, Except.ok.injEq] at h1
      subst h0; subst h1
      rw [hd]; exact sub_err _ _
    · rw [hl, hv0, Except.ok.injEq] at hv
      subst hv
      rw [hd, val_zero]; simp
  have k1 := add_err s.mb.volprecip u.precipT
  have k2 := add_err s.mb.volin u.volinT
  have k3 := add_err s.mb.volrunoff u.runoffT
  have k4 := add_err s.mb.volAET u.aetT
  have k5 := add_err s.mb.volrech u.rechT
  have k6 := add_err s.mb.volcalib d
  have bd := addend_abs k6 cC dC
  have j1 := abs_le.mp (k1.trans (eps_mul_le dP))
  have j2 := abs_le.mp (k2.trans (eps_mul_le dI))
  have j3 := abs_le.mp (k3.trans (eps_mul_le dR))
  have j4 := abs_le.mp (k4.trans (eps_mul_le dA))
  have j5 := abs_le.mp (k5.trans (eps_mul_le dG))
  have j6 := abs_le.mp (k6.trans (eps_mul_le dC))
  have j7 := abs_le.mp (hd.trans (eps_mul_le bd))
  have hbal := abs_le.mp hbal
  have hsf := abs_le.mp (hb.surface hM)
  have i4 := abs_le.mp i4
  have i5 := abs_le.mp i5
  have ets : s'.p.timesteps = u.timesteps := by rw [hpp]
  push_cast at i4 i5
  refine ⟨⟨by rw [hpp]; exact hb.valid, ⟨by rw [hpp]; exact hb.times.choose _ _, by rw [hpp]; exact hb.times.mn,
    by rw [hpp]; exact hb.times.res⟩, by rw [hmb]; exact i1, by rw [ets]; exact hb.steps.trans i3, fun _ => ?_,
    ⟨u.volend, by rw [hcum, hh]; exact i2, fun _ => ?_⟩, fun _ => ?_⟩, by rw [hmb], by rw [hcum, hh, hmb]; exact i2, by rw [hmb]⟩
  · rw [hmb]; exact ⟨dP, dI, dR, dA, dG, dC⟩
  · rw [hmb, ets]
    simp only
    push_cast
    rw [abs_le]
    constructor <;> linarith [j1.1, j1.2, j3.1, j3.2, j4.1, j4.2, j5.1, j5.2, j6.1, j6.2, j7.1, j7.2, hbal.1, hbal.2, i5.1, i5.2]
  · rw [hmb, ets]
    simp only
    push_cast
    rw [abs_le]
    constructor <;> linarith [j1.1, j1.2, j2.1, j2.2, j3.1, j3.2, hsf.1, hsf.2, i4.1, i4.2]

/-- Books after Initialize. -/
theorem init_rbal {M : ℝ} {env : Env α} {lines : List (List Char)} {s : State α} (h : bmiInitialize env lines = .ok s) :
    massBal s.p.cum s.head = .ok s.mb.volstart ∧ s.mb.volprecip = 0 ∧ s.mb.volrunoff = 0 ∧ s.p.timesteps = 0 ∧
      (s.p.invalidSoil = false → RBal M 0 s) := by
  obtain ⟨c, hc, h, _⟩ := bmiInitialize_inv h
  obtain ⟨p1, p2⟩ := readConfig_pos hc (by simp) (by simp)
  obtain ⟨ts, file, fl, soils, cnt, thick, psi, dt, endt, wp, fc, res, ords, inv, giuh, soilZ, q, depth, vs, cs, _, _, _, _, _,
    hthick, _, _, hdt, _, _, _, hres, _, _, _, _, _, _, hgeo, hhead, hm, hlen, _, hs⟩ := lgarInit_inv h
  have hcum : s.p.cum = cumThickness thick := by rw [hs]
  rw [← hcum] at hm
  have e1 : s.mb.volstart = vs := by rw [hs]
  have e2 : s.mb.volprecip = 0 := by rw [hs]
  have e3 : s.mb.volrunoff = 0 := by rw [hs]
  have e9 : s.p.timesteps = 0 := by rw [hs]
  refine ⟨by rw [e1]; exact hm, e2, e3, e9, fun hv => ?_⟩
  have e4 : s.mb.volonT = 0 := by rw [hs]
  have e5 : s.mb.volAET = 0 := by rw [hs]
  have e6 : s.mb.volrech = 0 := by rw [hs]
  have e7 : s.mb.volcalib = 0 := by rw [hs]
  have e8 : s.mb.volin = 0 := by rw [hs]
  have q1 := p1 _ hdt
  have q2 := p2 _ hres
  rw [lt_iff, val_zero] at q1 q2
  have ht : TimesOk s.p := by rw [hs]; exact ⟨q1.le, q1.le, q2.le⟩
  refine ⟨hv, ht, by rw [e4, val_zero], by rw [e9], fun hM => ?_, ⟨vs, hm, fun hM => ?_⟩, fun hM => ?_⟩
  · refine ⟨?_, ?_, ?_, ?_, ?_, ?_⟩ <;> simp only [e2, e3, e5, e6, e7, e8, val_zero, abs_zero, hM]
  · rw [e1, e2, e3, e4, e5, e6, e7, e9, val_zero]; simp
  · rw [e2, e3, e4, e8, e9, val_zero]; simp

/-- The books over a run in rounded arithmetic. -/
theorem run_rbal {M : ℝ} {env : Env α} {lines : List (List Char)} {s0 s : State α} {hist : List (State α)}
    (h0 : bmiInitialize env lines = .ok s0) (hr : RunIn M s0 hist s) :
    (RBal M hist.length s ∨ s.p.invalidSoil = true ∧ s.mb.volprecip = s.mb.volrunoff ∧ s.head = s0.head ∧ s.p.cum = s0.p.cum ∧
        0 ≤ s.p.timesteps) ∧
      s.mb.volstart = s0.mb.volstart ∧
      (hist ≠ [] → 0 ≤ M ∧ massBal s.p.cum s.head = .ok s.mb.volend ∧
        |val s.mb.volprecip - val s.mb.volin - val s.mb.volrunoff - val s.mb.volon| ≤
          (s.p.timesteps : ℝ) * (24 * (eps α * M)) + (hist.length : ℝ) * (3 * (eps α * M)) ∧
        |val s.mb.volstart + val s.mb.volprecip - val s.mb.volrunoff - val s.mb.volAET - val s.mb.volon - val s.mb.volrech -
          val s.mb.volend + val s.mb.volcalib| ≤
          (s.p.timesteps : ℝ) * (1e-4 + 2e-12 + 120 * (eps α * M)) + (hist.length : ℝ) * (8 * (eps α * M))) := by
  obtain ⟨b1, b2, b3, b4, b5⟩ := init_rbal (M := M) h0
  induction hr with
  | nil =>
    refine ⟨?_, rfl, fun h => absurd rfl h⟩
    by_cases hv : s0.p.invalidSoil = true
    · exact .inr ⟨hv, by rw [b2, b3], rfl, rfl, by rw [b4]⟩
    · exact .inl (b5 (by simpa using hv))
  | @step hist s s1 s2 fuel sa _ hi hu hin hbk hpm ih =>
    obtain ⟨ih1, ih2, _⟩ := ih
    have hM : 0 ≤ M := le_trans (abs_nonneg _) hbk.precip
    have hE : 0 ≤ eps α * M := _root_.mul_nonneg eps_nonneg hM
    obtain ⟨i1, _, i3, _, _, _, _, _, _, ip⟩ := hi.frame
    rcases ih1 with hb | ⟨hb, hsame, hh, hc, ht⟩
    · obtain ⟨hb', e1, e2, e3⟩ := (hb.inputs hi).update hin hbk hpm hu
      rw [List.length_append, List.length_singleton]
      refine ⟨.inl hb', by rw [e3, i3, ih2], fun _ => ⟨hM, e2, ?_, ?_⟩⟩
      · rw [e1]; exact hb'.surface hM
      · obtain ⟨v, hv, hbal⟩ := hb'.bal
        rw [e2, Except.ok.injEq] at hv
        subst hv
        rw [e1]
        refine le_trans (le_of_eq ?_) (hbal hM)
        congr 1; ring
    · rcases update_inv hu with ⟨_, rfl⟩ | ⟨hi', _⟩
      · have et : (updateInvalid s1).p.timesteps = s.p.timesteps := by show s1.p.timesteps = _; rw [ip]
        have hts : (0 : ℝ) ≤ ((updateInvalid s1).p.timesteps : ℝ) := by rw [et]; exact_mod_cast ht
        refine ⟨.inr ⟨?_, ?_, ?_, ?_, by rw [et]; exact ht⟩, ?_, fun _ => ⟨hM, ?_, ?_, ?_⟩⟩
        · show s1.p.invalidSoil = true; rw [ip]; exact hb
        · simp only [updateInvalid]; rw [i3, hsame]
        · show s1.head = _; rw [i1, hh]
        · show s1.p.cum = _; rw [ip]; exact hc
        · show s1.mb.volstart = _; rw [i3, ih2]
        · show massBal s1.p.cum s1.head = .ok s1.mb.volstart
          rw [i3, ih2, i1, hh, ip]
          simp only [hc]; exact b1
        · simp only [updateInvalid] at hts ⊢
          rw [i3, hsame, val_zero]
          simp only [sub_zero, sub_self, abs_zero]
          positivity
        · simp only [updateInvalid] at hts ⊢
          rw [i3, hsame, val_zero]
          have e : ∀ x y : ℝ, x + y - y - 0 - 0 - 0 - x + 0 = 0 := by intro x y; ring
          rw [e, abs_zero]
          positivity
      · rw [ip] at hi'; simp only at hi'; rw [hb] at hi'; simp at hi'

theorem SubBooksIn.mono {M M' : ℝ} {u : SubSt α} (h : SubBooksIn M u) (hM : M ≤ M') : SubBooksIn M' u :=
  ⟨h.precip.trans hM, h.infil.trans hM, h.runoff.trans hM, h.aet.trans hM, h.rech.trans hM, h.pond.trans hM, h.store.trans hM⟩

theorem BooksIn.mono {M M' : ℝ} {m : MassVars α} (h : BooksIn M m) (hM : M ≤ M') : BooksIn M' m :=
  ⟨h.precip.trans hM, h.infil.trans hM, h.runoff.trans hM, h.aet.trans hM, h.rech.trans hM, h.calib.trans hM⟩

theorem RunIn.mono {M M' : ℝ} {s0 s : State α} {hist : List (State α)} (h : RunIn M s0 hist s) (hM : M ≤ M') :
    RunIn M' s0 hist s := by
  induction h with
  | nil => exact .nil
  | step _ hi hu h1 h2 h3 ih => exact .step ih hi hu (fun u hu => (h1 u hu).mono hM) (h2.mono hM) h3

theorem books_bound (m : MassVars α) : ∃ M, BooksIn M m := by
  refine ⟨|val m.volprecip| + |val m.volin| + |val m.volrunoff| + |val m.volAET| + |val m.volrech| + |val m.volcalib|, ?_, ?_, ?_,
    ?_, ?_, ?_⟩ <;>
  linarith [abs_nonneg (val m.volprecip), abs_nonneg (val m.volin), abs_nonneg (val m.volrunoff), abs_nonneg (val m.volAET),
    abs_nonneg (val m.volrech), abs_nonneg (val m.volcalib)]

theorem subBooks_bound : ∀ l : List (SubSt α), ∃ M, ∀ u ∈ l, SubBooksIn M u
  | [] => ⟨0, by simp⟩
  | u :: t => by
    obtain ⟨M, hM⟩ := subBooks_bound t
    have h : ∃ N, SubBooksIn N u := by
      refine ⟨|val u.precipT| + |val u.volinT| + |val u.runoffT| + |val u.aetT| + |val u.rechT| + |val u.volon| + |val u.volend|, ?_, ?_,
        ?_, ?_, ?_, ?_, ?_⟩ <;>
      linarith [abs_nonneg (val u.precipT), abs_nonneg (val u.volinT), abs_nonneg (val u.runoffT), abs_nonneg (val u.aetT),
        abs_nonneg (val u.rechT), abs_nonneg (val u.volon), abs_nonneg (val u.volend)]
    obtain ⟨N, hN⟩ := h
    refine ⟨max M N, fun x hx => ?_⟩
    rcases List.mem_cons.mp hx with rfl | hx
    · exact hN.mono (le_max_right _ _)
    · exact (hM x hx).mono (le_max_left _ _)

end LGAR
