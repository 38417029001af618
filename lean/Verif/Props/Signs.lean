import Verif.Lemmas.SignsRound
import Verif.Props.Rounding
/-
Property C90: signs and bounds of the surface fluxes in correctly rounded arithmetic.
-/
set_option linter.unusedSectionVars false
namespace LGAR
open Rounded

section Signs
variable {α : Type} [Add α] [Sub α] [Mul α] [Div α] [Neg α] [Zero α] [One α] [OfScientific α]
  [LT α] [LE α] [DecidableLT α] [DecidableLE α] [BEq α] [CMath α] [Rounded α] [Correct α]

theorem run_signed {env : Env α} {lines : List (List Char)} {s0 s : State α} {hist : List (State α)}
    (h0 : bmiInitialize env lines = .ok s0) (ho : ∀ o ∈ s0.giuhOrd, 0 ≤ val o) (hr : Run s0 hist s)
    (hp : ∀ x ∈ hist, 0 ≤ val x.p.pondMax) : Signed s := by
  induction hr with
  | nil => exact Signed.initialize h0 ho
  | @step hist s s1 s2 fuel sa _ hi hu ih =>
    exact (((ih fun x hx => hp x (List.mem_append_left _ hx)).inputs hi).update (hp s2 (by simp)) hu).1

/-- C90: in every run, with correctly rounded arithmetic, non-negative ordinates and non-negative ponding maxima, every Update
reports rain, PET, runoff, routed runoff, discharge and ponded water that are not negative, no groundwater discharge, leaves no
negative entry in the routing queue, and does not decrease the totals of rain, PET, runoff, routed runoff and discharge. -/
theorem C90_run (env : Env α) (lines : List (List Char)) (s0 s s1 s2 : State α) (hist : List (State α)) (fuel : Nat) (sa : Bool)
    (h0 : bmiInitialize env lines = .ok s0) (ho : ∀ o ∈ s0.giuhOrd, 0 ≤ val o) (hr : Run s0 hist s)
    (hp : ∀ x ∈ hist, 0 ≤ val x.p.pondMax) (hi : Inputs s s1) (hu : update fuel sa s1 = .ok s2) (hp2 : 0 ≤ val s2.p.pondMax) :
    (0 ≤ val s2.mb.volonT ∧ 0 ≤ val s2.conv.precip ∧ 0 ≤ val s2.conv.pet ∧ 0 ≤ val s2.conv.runoff ∧ 0 ≤ val s2.conv.giuh ∧
      0 ≤ val s2.conv.Q ∧ val s2.conv.Qgw = 0 ∧ ∀ q ∈ s2.giuhQueue, 0 ≤ val q) ∧
    val s.mb.volprecip ≤ val s2.mb.volprecip ∧ val s.mb.volPET ≤ val s2.mb.volPET ∧ val s.mb.volrunoff ≤ val s2.mb.volrunoff ∧
      val s.mb.volgiuh ≤ val s2.mb.volgiuh ∧ val s.mb.volQ ≤ val s2.mb.volQ := by
  obtain ⟨_, r⟩ := ((run_signed h0 ho hr hp).inputs hi).update hp2 hu
  obtain ⟨pr, pet, temp, cal, rfl⟩ := hi
  exact ⟨⟨r.pond.1, r.precip, r.pet, r.runoff, r.giuh, r.discharge, r.groundwater, r.queue⟩, r.totPrecip, r.totPet, r.totRunoff,
    r.totGiuh, r.totQ⟩

/-- C90, one subcycle: the water left on the surface is between 0 and the maximum, exactly, without a rounding error.  The
exception is that of C04: the computed rest of the surface water equals the positive maximum, and then all of the water stays. -/
theorem C90_pond (c : StepCfg α) (s s' : SubSt α) (hdt : 0 ≤ val c.dt) (hpm : 0 ≤ val c.pondMax) (hv : 0 ≤ val s.volon)
    (h : subStep c s = .ok s') :
    0 ≤ val s'.volon ∧ (val s'.volon ≤ val c.pondMax ∨ ∃ aet fp,
      aetDemand c (CMath.fmax s.petMm 0 * 0.1) s.head = .ok aet ∧
      fpCapacity c.fuel c.closed c.nint c.geo c.dt aet (CMath.fmax s.precipMm 0 * 0.1 * c.dt + s.volon)
        (CMath.fmax s.precipMm 0 * 0.1) (wettingFrontFreeDrainage s.head) s.head = .ok fp ∧ 0 < val c.pondMax ∧
      max (val (CMath.fmax s.precipMm 0 * 0.1 * c.dt + s.volon - fp * c.dt)) 0 = val c.pondMax ∧
      s'.volon = CMath.fmax s.precipMm 0 * 0.1 * c.dt + s.volon) := by
  obtain ⟨_, _, _, _, _, _, _, _, _, _, h1, _⟩ := subStep_signs hdt hpm hv h
  refine ⟨h1, ?_⟩
  obtain ⟨aet, vs, h0, hs, f, l, ve, h1, ha, hvs, _, _, hf, _, hve, hmb, _, _, rfl⟩ := subStep_inv h
  show val f.volon ≤ _ ∨ ∃ _ _, _ ∧ _ ∧ _ ∧ _ ∧ f.volon = _
  unfold subFlow at hf
  split at hf
  · obtain ⟨_, _, _, _, _, _, _, _, _, _, _, _, _, _, ho⟩ := flowCreate_inv hf
    rcases ho with ⟨h1, _, h3, _⟩ | ⟨_, _, h3, _⟩
    · rw [lt_iff] at h1
      exact .inl (by rw [h3]; exact h1.le)
    · exact .inl (by rw [h3])
  · obtain ⟨hsf, _⟩ := flowMove_inv hf
    unfold surfaceFlow at hsf
    split at hsf
    · simp only [bind_ok_iff, Prod.exists] at hsf
      obtain ⟨r, v, pd, hi, hsf⟩ := hsf
      split at hsf
      · simp at hsf
      · simp only [Except.ok.injEq, Prod.mk.injEq] at hsf
        obtain ⟨h1, h2, h3, _⟩ := hsf
        unfold insertWater at hi
        simp only [bind_ok_iff] at hi
        obtain ⟨fp, hfp, hi⟩ := hi
        rcases partitionPond_le hpm hi with k | ⟨k1, k2, _, _, k5⟩
        · exact .inl (by rw [← h3]; exact k)
        · rw [fmax_val, val_zero] at k2
          exact .inr ⟨aet, fp, ha, hfp, k1, k2, by rw [← h3, k5]⟩
    · split at hsf
      · rename_i hlt
        rw [lt_iff] at hlt
        simp only [Except.ok.injEq, Prod.mk.injEq] at hsf
        exact .inl (by rw [← hsf.2.2.1]; exact hlt.le)
      · simp only [Except.ok.injEq, Prod.mk.injEq] at hsf
        exact .inl (by rw [← hsf.2.2.1])

/-- C90, the default maximum 0: no water is left on the surface, not even a rounding error. -/
theorem C90_zero (env : Env α) (lines : List (List Char)) (s0 s : State α) (hist : List (State α))
    (h0 : bmiInitialize env lines = .ok s0) (ho : ∀ o ∈ s0.giuhOrd, 0 ≤ val o) (hr : Run s0 hist s)
    (hz : ∀ x ∈ hist, val x.p.pondMax = 0) : ∀ x ∈ hist, val x.mb.volonT = 0 := by
  suffices key : val s.mb.volonT = 0 ∧ ∀ x ∈ hist, val x.mb.volonT = 0 from key.2
  induction hr with
  | nil =>
    refine ⟨?_, by simp⟩
    obtain ⟨c, _, hc, _⟩ := bmiInitialize_inv h0
    obtain ⟨ts, file, fl, soils, cnt, thick, psi, dt, endt, wp, fc, res, ords, inv, giuh, soilZ, q, depth, vs, cs, _, _, _, _, _,
      _, _, _, _, _, _, _, _, _, _, _, _, _, _, _, _, _, _, _, hs⟩ := lgarInit_inv hc
    rw [hs]
    exact val_zero
  | @step hist s s1 s2 fuel sa hr hi hu ih =>
    obtain ⟨i1, i2⟩ := ih fun x hx => hz x (List.mem_append_left _ hx)
    have hsg := (run_signed h0 ho hr fun x hx => (hz x (List.mem_append_left _ hx)).ge).inputs hi
    have i1' : val s1.mb.volonT = 0 := by obtain ⟨_, _, _, _, rfl⟩ := hi; exact i1
    have hz2 := hz s2 (by simp)
    have key : val s2.mb.volonT = 0 := by
      rcases update_inv hu with ⟨hb, _⟩ | ⟨_, sp, d, v, u, h1, _, hl, h2⟩
      · rw [hsg.valid] at hb; simp at hb
      obtain ⟨giuh, queue, hg, _, _, _, _, _, hq, _, _, _, hpp, hmb, hconv⟩ := updatePost_inv h2
      obtain ⟨_, _, fs, soils, l, fc, pm, q, _, rfl, _, _⟩ := updatePre_inv h1
      simp only at hl hpp hmb
      have hdt := hsg.times.choose s1.precipMm s1.mb.volonT
      have hpm : s2.p.pondMax = pm := by rw [hpp]
      rw [hpm] at hz2
      rw [hmb]
      refine subLoop_ind (P := fun u => val u.volon = 0) (fun a b ha hb => ?_) (by exact i1') hl
      obtain ⟨k1, k2 | ⟨_, _, _, _, k3, _⟩⟩ := C90_pond _ a b (by exact hdt) (by exact hz2.ge) (by exact ha.ge) hb
      · exact le_antisymm (by rw [← hz2]; exact k2) k1
      · exact absurd (show 0 < val pm from k3) (by rw [hz2]; exact lt_irrefl _)
    refine ⟨key, fun x hx => ?_⟩
    rcases List.mem_append.mp hx with hx | hx
    · exact i2 x hx
    · simp only [List.mem_singleton] at hx; subst hx; exact key

/-- C90, the demand: the evapotranspiration demand is between 0 and the potential one, exactly. -/
theorem C90_demand (PET dt wp fc : α) (g : Geo α) (l : List (Front α)) (a : α) (hP : 0 ≤ val PET) (hdt : 0 ≤ val dt)
    (h : calcAet PET dt wp fc g l = .ok a) : 0 ≤ val a ∧ val a ≤ val (PET * dt) := by
  unfold calcAet at h
  simp only [bind_ok_iff] at h
  obtain ⟨c, _, s, _, tf, _, tw, _, Se, _, pw, _, q, _, p, _, inv, _, h⟩ := h
  have hpd : 0 ≤ val (PET * dt) := Rounded.mul_nonneg _ _ hP hdt
  split at h
  · simp only [pure_eq_ok, Except.ok.injEq] at h; subst h; rw [val_zero]; exact ⟨le_refl _, hpd⟩
  · rename_i h1
    rw [lt_iff, val_zero] at h1
    split at h
    · simp only [pure_eq_ok, Except.ok.injEq] at h; subst h; exact ⟨hpd, le_refl _⟩
    · rename_i h2
      rw [lt_iff] at h2
      simp only [pure_eq_ok, Except.ok.injEq] at h; subst h
      exact ⟨not_lt.mp h1, not_lt.mp h2⟩

end Signs

namespace SampleDbl
open Dbl

/-- Test: one Update with runoff, ponding, routed outflow and PET. -/
def SignTest (a : State Dbl × List (State Dbl)) : Prop :=
  a.2.length = 1 ∧ (∀ o ∈ a.1.giuhOrd, 0 ≤ toRat o) ∧ (∀ x ∈ a.2, 0 ≤ toRat x.p.pondMax) ∧
    ∀ x ∈ a.2, 1 < toRat x.mb.volrunoff ∧ 0 < toRat x.mb.volonT ∧ 0 < toRat x.conv.giuh ∧ 0 < toRat x.conv.pet

instance : DecidablePred SignTest := fun a => by unfold SignTest; infer_instance

theorem sign_check : Sample.okAnd (play 100 cfg 1000 true [(61.1, 0.3)]) (fun a => decide (SignTest a)) = true := by
  decide +kernel

/-- The coincidence in 53-bit arithmetic: 1.1 cm of water, 0.7 cm of capacity, a maximum of what is left.  Nothing is booked. -/
theorem tie_check : partitionPond (1 : Dbl) 1.1 0 (1.1 - 0.7) 0.7 = .ok (0, 0, 1.1) := by decide +kernel

end SampleDbl

attribute [local irreducible] SampleDbl.env SampleDbl.cfg SampleDbl.play bmiInitialize in
/-- C90, a run meeting the hypotheses: rain and PET, with runoff, ponding and routed outflow. -/
example : ∃ (env : Env Dbl) (lines : List (List Char)) (s0 s : State Dbl) (hist : List (State Dbl)),
    bmiInitialize env lines = .ok s0 ∧ (∀ o ∈ s0.giuhOrd, 0 ≤ val o) ∧ Run s0 hist s ∧ (∀ x ∈ hist, 0 ≤ val x.p.pondMax) ∧
      hist.length = 1 ∧ ∀ x ∈ hist, 1 < val x.mb.volrunoff ∧ 0 < val x.mb.volonT ∧ 0 < val x.conv.giuh ∧ 0 < val x.conv.pet := by
  obtain ⟨s0, hist, s, h1, _, h2, ⟨l1, l2, l3, l4⟩, rfl⟩ := SampleDbl.play_run SampleDbl.sign_check
  refine ⟨_, _, s0, _, hist, h1, fun o ho => Rat.cast_nonneg.mpr (l2 o ho), h2.run, fun x hx => Rat.cast_nonneg.mpr (l3 x hx), l1,
    fun x hx => ?_⟩
  obtain ⟨a1, a2, a3, a4⟩ := l4 x hx
  refine ⟨?_, Rat.cast_pos.mpr a2, Rat.cast_pos.mpr a3, Rat.cast_pos.mpr a4⟩
  have : ((1 : Rat) : ℝ) < ((Dbl.toRat x.mb.volrunoff : Rat) : ℝ) := Rat.cast_lt.mpr a1
  rwa [Rat.cast_one] at this

end LGAR
