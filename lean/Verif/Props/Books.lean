import Verif.Props.Update
/-
Cumulative volumes (C02).
-/
set_option linter.unusedSectionVars false
namespace LGAR

section Exact
variable {K : Type} [Field K] [LinearOrder K] [IsStrictOrderedRing K] [CMath K] [LawfulNum K]

/-- The cumulative volumes that Initialize sets to zero, each with the BMI variable of the same quantity. -/
def books : List ((MassVars K → K) × (Conv K → K)) :=
  [(fun m => m.volprecip, fun c => c.precip), (fun m => m.volin, fun c => c.infil), (fun m => m.volAET, fun c => c.aet),
   (fun m => m.volrech, fun c => c.rech), (fun m => m.volrunoff, fun c => c.runoff), (fun m => m.volQ, fun c => c.Q),
   (fun m => m.volgiuh, fun c => c.giuh), (fun m => m.volPET, fun c => c.pet)]

/-- One Update adds to each volume what it exposes, and to the groundwater volume nothing. -/
theorem update_books {fuel : Nat} {sa : Bool} {s s' : State K} (hv : s.p.invalidSoil = false)
    (h : update fuel sa s = .ok s') :
    (∀ b ∈ books, b.1 s'.mb = b.1 s.mb + b.2 s'.conv * 100) ∧ s'.mb.volQgw = s.mb.volQgw + s'.conv.Qgw * 100 ∧
      s'.conv.Qgw = 0 ∧ s'.conv.storage * 100 = s'.mb.volend := by
  rcases update_inv h with ⟨hi, _⟩ | ⟨_, s1, d, v, u, h1, _, hu, h2⟩
  · rw [hv] at hi; simp at hi
  obtain ⟨giuh, queue, _, _, _, _, _, _, _, _, _, _, hpp, hmb, hconv⟩ := updatePost_inv h2
  obtain ⟨_, _, fs, soils, l, fc, pm, q, _, rfl, _⟩ := updatePre_inv h1
  have hq : u.qgwT = 0 := by
    refine subLoop_ind (P := fun s => s.qgwT = 0) ?_ ?_ hu
    · intro a b ha hab
      obtain ⟨aet, vs, h0, hs, f, l, ve, hh, _, _, _, _, _, _, _, _, _, _, rfl⟩ := subStep_inv hab
      simp [ha]
    · rfl
  have e : ∀ x : K, x * 0.01 * 100 = x := fun x => by
    rw [mul_assoc]; norm_num
  rw [hmb, hconv]
  refine ⟨?_, by simp only [e], by simp [hq], by simp only [e]⟩
  intro b hb
  simp only [books, List.mem_cons, List.not_mem_nil, or_false] at hb
  rcases hb with rfl | rfl | rfl | rfl | rfl | rfl | rfl | rfl <;> simp only [e]

/-- Total over the Updates of a volume exposed through the BMI in metres, in cm. -/
def total (f : Conv K → K) (hist : List (State K)) : K := (hist.map fun s => f s.conv * 100).sum

/-- C02: after Initialize and any number of Updates, each cumulative volume (precipitation, infiltration, actual ET,
percolation, runoff, discharge, GIUH runoff, PET) is the sum over the Updates of the volume exposed through the BMI, converted
from m to cm. -/
theorem C02_cumulative (env : Env K) (lines : List (List Char)) (s0 s : State K) (hist : List (State K))
    (h0 : bmiInitialize env lines = .ok s0) (hr : Run s0 hist s) :
    s.mb.volprecip = total (fun c => c.precip) hist ∧ s.mb.volin = total (fun c => c.infil) hist ∧
      s.mb.volAET = total (fun c => c.aet) hist ∧ s.mb.volrech = total (fun c => c.rech) hist ∧
      s.mb.volrunoff = total (fun c => c.runoff) hist ∧ s.mb.volQ = total (fun c => c.Q) hist ∧
      s.mb.volgiuh = total (fun c => c.giuh) hist ∧ s.mb.volPET = total (fun c => c.pet) hist := by
  obtain ⟨c, _, hc, _⟩ := bmiInitialize_inv h0
  have hv0 := lgarInit_valid hc
  have hz : ∀ b ∈ books, b.1 s0.mb = 0 := by
    obtain ⟨ts, file, fl, soils, cnt, thick, psi, dt, endt, wp, fc, res, ords, inv, giuh, soilZ, q, depth, vs, cs, _, _, _, _, _,
      _, _, _, _, _, _, _, _, _, _, _, _, _, _, _, _, _, _, _, hs⟩ := lgarInit_inv hc
    intro b hb
    simp only [books, List.mem_cons, List.not_mem_nil, or_false] at hb
    rcases hb with rfl | rfl | rfl | rfl | rfl | rfl | rfl | rfl <;> simp only <;> rw [hs]
  have key : s.p.invalidSoil = false ∧ ∀ b ∈ books, b.1 s.mb = total b.2 hist := by
    induction hr with
    | nil => exact ⟨hv0, fun b hb => by rw [hz b hb]; simp [total]⟩
    | @step hist s s1 s2 fuel sa _ hi hu ih =>
      obtain ⟨i1, i2⟩ := ih
      obtain ⟨_, _, f3, _, _, _, _, _, _, ip⟩ := hi.frame
      have e1 : s1.p.invalidSoil = false := by rw [ip]; exact i1
      refine ⟨by rw [(update_fixed hu).2.2.2.1]; exact e1, fun b hb => ?_⟩
      rw [(update_books e1 hu).1 b hb, f3, i2 b hb]
      simp [total]
  have k := key.2
  simp only [books, List.mem_cons, List.not_mem_nil, or_false, forall_eq_or_imp, forall_eq] at k
  exact k

/-- C02 does not cover the groundwater volume: Initialize does not set it, no Update ever adds to it, so it stays at whatever
the memory held. -/
theorem C02_groundwater_uninitialised (env : Env K) (lines : List (List Char)) (s0 s : State K) (hist : List (State K))
    (h0 : bmiInitialize env lines = .ok s0) (hr : Run s0 hist s) :
    s.mb.volQgw = env.junkMb.volQgw ∧ ∀ x ∈ hist, x.conv.Qgw = 0 := by
  obtain ⟨c, _, hc, _⟩ := bmiInitialize_inv h0
  have hv0 := lgarInit_valid hc
  have hz : s0.mb.volQgw = env.junkMb.volQgw := by
    obtain ⟨ts, file, fl, soils, cnt, thick, psi, dt, endt, wp, fc, res, ords, inv, giuh, soilZ, q, depth, vs, cs, _, _, _, _, _,
      _, _, _, _, _, _, _, _, _, _, _, _, _, _, _, _, _, _, _, hs⟩ := lgarInit_inv hc
    rw [hs]
  have key : s.p.invalidSoil = false ∧ s.mb.volQgw = env.junkMb.volQgw ∧ ∀ x ∈ hist, x.conv.Qgw = 0 := by
    induction hr with
    | nil => exact ⟨hv0, hz, by simp⟩
    | @step hist s s1 s2 fuel sa _ hi hu ih =>
      obtain ⟨i1, i2, i3⟩ := ih
      obtain ⟨_, _, f3, _, _, _, _, _, _, ip⟩ := hi.frame
      have e1 : s1.p.invalidSoil = false := by rw [ip]; exact i1
      obtain ⟨_, b2, b3, _⟩ := update_books e1 hu
      refine ⟨by rw [(update_fixed hu).2.2.2.1]; exact e1, by rw [b2, b3, f3, i2]; simp, fun x hx => ?_⟩
      rcases List.mem_append.mp hx with hx | hx
      · exact i3 x hx
      · simp only [List.mem_singleton] at hx; subst hx; exact b3
  exact key.2

/-- Non-trivial case: the run of Sample.run2 books 1/2 cm of rain and some ET. -/
example : ∃ s0 hist s, bmiInitialize Sample.env Sample.cfg = .ok s0 ∧ Run s0 hist s ∧ s.mb.volprecip = 1/2 ∧ 0 < s.mb.volAET ∧
    total (fun c => c.precip) hist = 1/2 ∧ 0 < total (fun c => c.aet) hist := by
  obtain ⟨s0, hist, s, h1, h2, _, _, _, _, h3, h4, _⟩ := Sample.run2
  obtain ⟨a, _, b, _⟩ := C02_cumulative _ _ _ _ _ h1 h2
  exact ⟨s0, hist, s, h1, h2, h3, h4, by rw [← a, h3], by rw [← b]; exact h4⟩

end Exact
end LGAR
