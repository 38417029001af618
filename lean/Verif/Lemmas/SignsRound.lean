import Verif.Lemmas.Rounding
import Verif.Lemmas.MoistRound
/-
Signs and order of the surface fluxes in correctly rounded arithmetic.
-/
set_option linter.unusedSectionVars false
namespace LGAR
open Rounded

section Queue
variable {α : Type} [Add α] [Sub α] [Mul α] [Div α] [Neg α] [Zero α] [One α] [OfScientific α]
  [LT α] [LE α] [DecidableLT α] [DecidableLE α] [BEq α] [CMath α] {P : α → Prop}

theorem setIdx_all {a a' : List α} {i : Nat} {v : α} (hv : P v) (ha : ∀ x ∈ a, P x) (h : setIdx a i v = .ok a') : ∀ x ∈ a', P x := by
  unfold setIdx at h
  split at h
  · simp only [Except.ok.injEq] at h
    subst h
    intro x hx
    rcases List.mem_or_eq_of_mem_set hx with hx | rfl
    · exact ha x hx
    · exact hv
  · simp at h

theorem setPred_all {a a' : List α} {i : Nat} {v : α} (hv : P v) (ha : ∀ x ∈ a, P x) (h : setPred a i v = .ok a') : ∀ x ∈ a', P x := by
  unfold setPred at h
  split at h
  · simp at h
  · exact setIdx_all hv ha h

theorem giuhAdd_all {r : α} {ord : List α} (hadd : ∀ a, ∀ o ∈ ord, P a → P (a + o * r)) : ∀ {n i : Nat} {q q' : List α},
    (∀ x ∈ q, P x) → giuhAdd r ord n i q = .ok q' → ∀ x ∈ q', P x
  | 0, _, _, _, hq, h => by simp only [giuhAdd, Except.ok.injEq] at h; subst h; exact hq
  | n + 1, i, q, q', hq, h => by
    simp only [giuhAdd, bind_ok_iff, idx_ok_iff] at h
    obtain ⟨qi, hqi, oi, hoi, q1, h1, h⟩ := h
    exact giuhAdd_all hadd (setIdx_all (hadd _ _ (List.mem_of_getElem? hoi) (hq _ (List.mem_of_getElem? hqi))) hq h1) h

theorem giuhShift_all : ∀ {n i : Nat} {q q' : List α}, (∀ x ∈ q, P x) → giuhShift n i q = .ok q' → ∀ x ∈ q', P x
  | 0, _, _, _, hq, h => by simp only [giuhShift, Except.ok.injEq] at h; subst h; exact hq
  | n + 1, i, q, q', hq, h => by
    simp only [giuhShift, bind_ok_iff, idx_ok_iff] at h
    obtain ⟨qi, hqi, q1, h1, h⟩ := h
    exact giuhShift_all (setPred_all (hq _ (List.mem_of_getElem? hqi)) hq h1) h

/-- What holds of zero and of every entry after adding a share of the runoff holds of the outflow and of the whole queue. -/
theorem giuhConv_all {r now : α} {N : Nat} {ord q q' : List α} (h0 : P 0) (hadd : ∀ a, ∀ o ∈ ord, P a → P (a + o * r))
    (hq : ∀ x ∈ q, P x) (h : giuhConv r N ord q = .ok (now, q')) : P now ∧ ∀ x ∈ q', P x := by
  simp only [giuhConv, bind_ok_iff, idx_ok_iff, pure_eq_ok, Except.ok.injEq, Prod.mk.injEq] at h
  obtain ⟨q0, e0, q1, e1, n, en, q2, e2, q3, e3, rfl, rfl⟩ := h
  have a1 := giuhAdd_all hadd (setIdx_all h0 hq e0) e1
  exact ⟨a1 _ (List.mem_of_getElem? en), setPred_all h0 (giuhShift_all a1 e2) e3⟩

end Queue

variable {α : Type} [Add α] [Sub α] [Mul α] [Div α] [Neg α] [Zero α] [One α] [OfScientific α]
  [LT α] [LE α] [DecidableLT α] [DecidableLE α] [BEq α] [CMath α] [Rounded α] [Correct α]

/-- A number of the arithmetic. -/
def IsNum (a : α) : Prop := Correct.Rounds α (val a) (val a)

theorem isNum_zero : IsNum (0 : α) := by
  have := Correct.zero (α := α)
  unfold IsNum
  rw [val_zero]
  exact this

theorem isNum_add (a b : α) : IsNum (a + b) := Correct.again (Correct.add a b)

theorem add_nonneg_val {a b : α} (ha : 0 ≤ val a) (hb : 0 ≤ val b) : 0 ≤ val (a + b) :=
  cr_nonneg (Correct.add a b) (by linarith)

theorem le_add_val {a b : α} (ha : IsNum a) (hb : 0 ≤ val b) : val a ≤ val (a + b) :=
  Correct.mono ha (Correct.add a b) (by linarith)

theorem rounds_eq {x y y' : ℝ} (h : Correct.Rounds α x y) (h' : Correct.Rounds α x y') : y = y' :=
  le_antisymm (Correct.mono h h' (le_refl _)) (Correct.mono h' h (le_refl _))

theorem sub_zero_val (a b c : α) (hc : val c = 0) : val (a - b - c) = val (a - b) := by
  have h1 := Correct.sub (a - b) c
  rw [hc, sub_zero] at h1
  exact rounds_eq h1 (Correct.again (Correct.sub a b))

theorem mul_add_zero_val (a b c : α) (hc : val c = 0) : val (a * b + c) = val (a * b) := by
  have h1 := Correct.add (a * b) c
  rw [hc, add_zero] at h1
  exact rounds_eq h1 (Correct.again (Correct.mul a b))

/-- The water left on the surface by lgar_insert_water is at most the maximum, or the computed rest is exactly the maximum and
nothing is assigned. -/
theorem partitionPond_le {dt ponded volin pondMax fp r v p : α} (hpm : 0 ≤ val pondMax)
    (h : partitionPond dt ponded volin pondMax fp = .ok (r, v, p)) :
    val p ≤ val pondMax ∨ 0 < val pondMax ∧ val (CMath.fmax (ponded - fp * dt) 0) = val pondMax ∧ r = 0 ∧ v = volin ∧ p = ponded := by
  unfold partitionPond at h
  simp only [bind_ok_iff, cdiv_ok_iff] at h
  obtain ⟨z, ⟨_, rfl⟩, h⟩ := h
  have e1 : val (ponded - fp * dt - 0 * 0) = val (ponded - fp * dt) := sub_zero_val _ _ _ (Rounded.zero_mul _ _ val_zero)
  have e2 : val (fp * dt + 0 / dt) = val (fp * dt) := mul_add_zero_val _ _ _ (Rounded.zero_div _ _ val_zero)
  have e3 : val (CMath.fmax (ponded - fp * dt - 0 * 0) 0) = val (CMath.fmax (ponded - fp * dt) 0) := by
    rw [fmax_val, fmax_val, e1]
  split at h
  · rename_i h0
    rw [lt_iff, val_zero] at h0
    split at h
    · rename_i h1
      rw [lt_iff, fmax_val, e1] at h1
      simp only [pure_eq_ok, Except.ok.injEq, Prod.mk.injEq] at h
      obtain ⟨rfl, rfl, rfl⟩ := h
      left
      have hs := Correct.sub ponded (CMath.fmin ponded (fp * dt + 0 / dt))
      rw [fmin_val, e2] at hs
      rcases min_choice (val ponded) (val (fp * dt)) with e | e
      · rw [e, sub_self] at hs
        rw [rounds_eq hs Correct.zero]; exact hpm
      · rw [e] at hs
        rw [rounds_eq hs (Correct.sub ponded (fp * dt))]
        exact ((le_max_left _ _).trans_lt h1).le
    · rename_i h1
      split at h
      · simp only [pure_eq_ok, Except.ok.injEq, Prod.mk.injEq] at h
        obtain ⟨rfl, rfl, rfl⟩ := h
        exact .inl (le_refl _)
      · rename_i h2
        rw [lt_iff, e3] at h1 h2
        simp only [pure_eq_ok, Except.ok.injEq, Prod.mk.injEq] at h
        obtain ⟨rfl, rfl, rfl⟩ := h
        exact .inr ⟨h0, le_antisymm (not_lt.mp h2) (not_lt.mp h1), rfl, rfl, rfl⟩
  · simp only [pure_eq_ok, Except.ok.injEq, Prod.mk.injEq] at h
    obtain ⟨rfl, rfl, rfl⟩ := h
    exact .inl (by rw [val_zero]; exact hpm)

/-- The parts of a subcycle that have a sign. -/
theorem subStep_signs {c : StepCfg α} {s s' : SubSt α} (hdt : 0 ≤ val c.dt) (hpm : 0 ≤ val c.pondMax) (hv : 0 ≤ val s.volon)
    (h : subStep c s = .ok s') :
    ∃ pr pet ro : α, 0 ≤ val pr ∧ 0 ≤ val pet ∧ 0 ≤ val ro ∧ s'.precipT = s.precipT + pr ∧ s'.petT = s.petT + pet ∧
      s'.runoffT = s.runoffT + ro ∧ s'.qgwT = s.qgwT + 0 ∧ 0 ≤ val s'.volon ∧ 0 ≤ val s'.precipMm ∧ 0 ≤ val s'.petMm := by
  obtain ⟨aet, vs, h0, hs, f, l, ve, h1, ha, hvs, _, _, hf, _, hve, hmb, _, _, rfl⟩ := subStep_inv h
  have hp : 0 ≤ val (CMath.fmax s.precipMm 0 * 0.1 * c.dt) :=
    Rounded.mul_nonneg _ _ (Rounded.mul_nonneg _ _ (fmax_zero_nonneg _) lit_01) hdt
  have hq : 0 ≤ val (CMath.fmax s.precipMm 0 * 0.1 * c.dt + s.volon) := add_nonneg_val hp hv
  obtain ⟨_, k1, k2⟩ := subFlow_rounded (M := |val f.runoff| + |val f.volin| + |val f.volon|) hpm hq hf
    (by linarith [abs_nonneg (val f.runoff), abs_nonneg (val f.volin), abs_nonneg (val f.volon)])
    (by linarith [abs_nonneg (val f.runoff), abs_nonneg (val f.volin), abs_nonneg (val f.volon)])
    (by linarith [abs_nonneg (val f.runoff), abs_nonneg (val f.volin), abs_nonneg (val f.volon)])
  obtain ⟨_, t2, _⟩ := subFlow_totals hf
  exact ⟨_, _, _, hp, fmax_zero_nonneg _, k2, rfl, rfl, t2, rfl, k1, fmax_zero_nonneg _, fmax_zero_nonneg _⟩

/-- What the subcycles keep. -/
structure SubSigned (s : SubSt α) : Prop where
  pond : 0 ≤ val s.volon
  precip : 0 ≤ val s.precipT
  pet : 0 ≤ val s.petT
  runoff : 0 ≤ val s.runoffT
  qgw : val s.qgwT = 0

theorem SubSigned.step {c : StepCfg α} {s s' : SubSt α} (hdt : 0 ≤ val c.dt) (hpm : 0 ≤ val c.pondMax) (hs : SubSigned s)
    (h : subStep c s = .ok s') : SubSigned s' := by
  obtain ⟨pr, pet, ro, a1, a2, a3, e1, e2, e3, e4, a4, _⟩ := subStep_signs hdt hpm hs.pond h
  refine ⟨a4, by rw [e1]; exact add_nonneg_val hs.precip a1, by rw [e2]; exact add_nonneg_val hs.pet a2,
    by rw [e3]; exact add_nonneg_val hs.runoff a3, ?_⟩
  rw [e4]
  have := Correct.add s.qgwT 0
  rw [hs.qgw, val_zero, add_zero] at this
  exact rounds_eq this Correct.zero

/-- What the Updates keep. -/
structure Signed (s : State α) : Prop where
  valid : s.p.invalidSoil = false
  times : TimesOk s.p
  pond : 0 ≤ val s.mb.volonT
  ord : ∀ o ∈ s.giuhOrd, 0 ≤ val o
  queue : ∀ q ∈ s.giuhQueue, 0 ≤ val q
  numPrecip : IsNum s.mb.volprecip
  numPet : IsNum s.mb.volPET
  numRunoff : IsNum s.mb.volrunoff
  numGiuh : IsNum s.mb.volgiuh
  numQ : IsNum s.mb.volQ

theorem Signed.inputs {s s' : State α} (hs : Signed s) (h : Inputs s s') : Signed s' := by
  obtain ⟨pr, pet, temp, cal, rfl⟩ := h
  exact ⟨hs.valid, ⟨hs.times.dt, hs.times.mn, hs.times.res⟩, hs.pond, hs.ord, hs.queue, hs.numPrecip, hs.numPet, hs.numRunoff,
    hs.numGiuh, hs.numQ⟩

/-- Signs of what an Update reports, and order of the totals before and after it. -/
structure Reported (s s' : State α) : Prop where
  pond : 0 ≤ val s'.mb.volonT ∧ s'.mb.volon = s'.mb.volonT
  precip : 0 ≤ val s'.conv.precip
  pet : 0 ≤ val s'.conv.pet
  runoff : 0 ≤ val s'.conv.runoff
  giuh : 0 ≤ val s'.conv.giuh
  discharge : 0 ≤ val s'.conv.Q
  groundwater : val s'.conv.Qgw = 0
  queue : ∀ q ∈ s'.giuhQueue, 0 ≤ val q
  totPrecip : val s.mb.volprecip ≤ val s'.mb.volprecip
  totPet : val s.mb.volPET ≤ val s'.mb.volPET
  totRunoff : val s.mb.volrunoff ≤ val s'.mb.volrunoff
  totGiuh : val s.mb.volgiuh ≤ val s'.mb.volgiuh
  totQ : val s.mb.volQ ≤ val s'.mb.volQ

theorem lit_001 : 0 ≤ val (0.01 : α) := by
  have h := abs_le.mp (lit_val (α := α) 1 true 2 (x := 0.01) (by norm_num) (by norm_num))
  have : val (0.01 : α) = val (OfScientific.ofScientific 1 true 2 : α) := rfl
  norm_num at h ⊢
  linarith [h.1]

theorem Signed.update {fuel : Nat} {sa : Bool} {s s' : State α} (hs : Signed s) (hp : 0 ≤ val s'.p.pondMax)
    (h : LGAR.update fuel sa s = .ok s') : Signed s' ∧ Reported s s' := by
  rcases update_inv h with ⟨hi, _⟩ | ⟨_, s1, d, v, u, h1, hv, hu, h2⟩
  · rw [hs.valid] at hi; simp at hi
  obtain ⟨giuh, queue, hg, _, _, _, _, _, hq, _, _, ho, hpp, hmb, hconv⟩ := updatePost_inv h2
  obtain ⟨_, _, fs, soils, l, fc, pm, q, _, rfl, _, _⟩ := updatePre_inv h1
  simp only at hv hu hg ho hpp hmb
  have hdt := hs.times.choose s.precipMm s.mb.volonT
  have hpm : s'.p.pondMax = pm := by rw [hpp]
  rw [hpm] at hp
  have hsub : SubSigned u := subLoop_ind (P := SubSigned) (fun a b ha hb => ha.step (by exact hdt) (by exact hp) hb)
    ⟨hs.pond, by show 0 ≤ val (0 : α); rw [val_zero], by show 0 ≤ val (0 : α); rw [val_zero],
      by show 0 ≤ val (0 : α); rw [val_zero], val_zero⟩ hu
  obtain ⟨g1, g2⟩ := giuhConv_all (P := fun x : α => 0 ≤ val x) (by rw [val_zero])
    (fun a o hoo ha => add_nonneg_val ha (Rounded.mul_nonneg _ _ (hs.ord o hoo) hsub.runoff)) hs.queue hg
  refine ⟨⟨by rw [hpp]; exact hs.valid, ⟨by rw [hpp]; exact hdt, by rw [hpp]; exact hs.times.mn, by rw [hpp]; exact hs.times.res⟩,
    by rw [hmb]; exact hsub.pond, by rw [ho]; exact hs.ord, by rw [hq]; exact g2, by rw [hmb]; exact isNum_add _ _,
    by rw [hmb]; exact isNum_add _ _, by rw [hmb]; exact isNum_add _ _, by rw [hmb]; exact isNum_add _ _,
    by rw [hmb]; exact isNum_add _ _⟩, ?_⟩
  constructor
  · rw [hmb]; exact ⟨hsub.pond, rfl⟩
  · rw [hconv]; exact Rounded.mul_nonneg _ _ hsub.precip lit_001
  · rw [hconv]; exact Rounded.mul_nonneg _ _ hsub.pet lit_001
  · rw [hconv]; exact Rounded.mul_nonneg _ _ hsub.runoff lit_001
  · rw [hconv]; exact Rounded.mul_nonneg _ _ g1 lit_001
  · rw [hconv]; exact Rounded.mul_nonneg _ _ g1 lit_001
  · rw [hconv]; exact Rounded.zero_mul _ _ hsub.qgw
  · rw [hq]; exact g2
  · rw [hmb]; exact le_add_val hs.numPrecip hsub.precip
  · rw [hmb]; exact le_add_val hs.numPet hsub.pet
  · rw [hmb]; exact le_add_val hs.numRunoff hsub.runoff
  · rw [hmb]; exact le_add_val hs.numGiuh g1
  · rw [hmb]; exact le_add_val hs.numQ g1

theorem Signed.initialize {env : Env α} {lines : List (List Char)} {s0 : State α} (h0 : bmiInitialize env lines = .ok s0)
    (ho : ∀ o ∈ s0.giuhOrd, 0 ≤ val o) : Signed s0 := by
  obtain ⟨c, hc, h, _⟩ := bmiInitialize_inv h0
  have hv := lgarInit_valid h
  obtain ⟨p1, p2⟩ := readConfig_pos hc (by simp) (by simp)
  obtain ⟨ts, file, fl, soils, cnt, thick, psi, dt, endt, wp, fc, res, ords, inv, giuh, soilZ, q, depth, vs, cs, _, _, _, _, _,
    hthick, _, _, hdt, _, _, _, hres, _, _, _, _, _, _, hgeo, hhead, hm, hlen, _, hs⟩ := lgarInit_inv h
  have q1 : 0 ≤ val dt := by have := p1 _ hdt; rw [lt_iff, val_zero] at this; exact this.le
  have q2 : 0 ≤ val res := by have := p2 _ hres; rw [lt_iff, val_zero] at this; exact this.le
  refine ⟨hv, by rw [hs]; exact ⟨q1, q1, q2⟩, by rw [hs]; show 0 ≤ val (0 : α); rw [val_zero], ho, ?_, by rw [hs]; exact isNum_zero,
    by rw [hs]; exact isNum_zero, by rw [hs]; exact isNum_zero, by rw [hs]; exact isNum_zero, by rw [hs]; exact isNum_zero⟩
  rw [hs]
  intro x hx
  rw [(List.mem_replicate.mp hx).2, val_zero]

end LGAR
