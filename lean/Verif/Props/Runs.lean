import Verif.Lemmas.Balance
import Verif.Spec.SampleRun
/-
Properties of whole runs: Initialize followed by any number of Updates with any inputs (`Run`, Spec/Run.lean).
-/
set_option linter.unusedSectionVars false
namespace LGAR

section Free
variable {α : Type} [Add α] [Sub α] [Mul α] [Div α] [Neg α] [Zero α] [One α] [OfScientific α]
  [LT α] [LE α] [DecidableLT α] [DecidableLE α] [BEq α] [CMath α]

/-- Invariants that hold in any arithmetic after Initialize and any Updates. -/
theorem run_sound {env : Env α} {lines : List (List Char)} {s0 s : State α} {hist : List (State α)}
    (h0 : bmiInitialize env lines = .ok s0) (hr : Run s0 hist s) :
    Sound s.p.numLayers s.head ∧ s.p.numWf = (s.head.length : Int) ∧ s.p.numLayers = s0.p.numLayers ∧ s.p.cum = s0.p.cum := by
  induction hr with
  | nil => exact ⟨(Sound.initialize h0).1, (Sound.initialize h0).2, rfl, rfl⟩
  | step _ hi hu ih =>
    obtain ⟨a, b, c, d⟩ := ih
    obtain ⟨i1, _, _, _, _, _, _, _, _, ip⟩ := hi.frame
    rw [← i1] at a b
    obtain ⟨h1, h2⟩ := Sound.update (N := _) a hu
    obtain ⟨e1, e2, _⟩ := update_fixed hu
    rw [ip] at e1 e2
    exact ⟨by rw [e1]; exact h1, h2 (by rw [ip]; exact b), by rw [e1]; exact c, by rw [e2]; exact d⟩

/-- C13: after Initialize and after every Update that returned, for any inputs, any configuration and in any arithmetic
(floating point included), the fronts are numbered 1, 2, ..., n and n is the reported number of fronts. -/
theorem C13_numbering (env : Env α) (lines : List (List Char)) (s0 s : State α) (hist : List (State α))
    (h0 : bmiInitialize env lines = .ok s0) (hr : Run s0 hist s) :
    Consecutive s.head ∧ s.p.numWf = (s.head.length : Int) := by
  obtain ⟨h1, h2, _⟩ := run_sound h0 hr
  exact ⟨(consecutive_iff _).mpr h1.num, h2⟩

/-- C14, in any arithmetic: there always is a front, and the deepest one is in the deepest layer, flagged as touching the
bottom, and at rest.  Its depth, in exact arithmetic: C14_bottom_depth. -/
theorem C14_bottom_front (env : Env α) (lines : List (List Char)) (s0 s : State α) (hist : List (State α))
    (h0 : bmiInitialize env lines = .ok s0) (hr : Run s0 hist s) :
    ∃ f, s.head.getLast? = some f ∧ f.layer = s0.p.numLayers ∧ f.toBottom = true ∧ f.dzdt = 0 := by
  obtain ⟨h1, _, h3, _⟩ := run_sound h0 hr
  rw [← h3]
  exact h1.last

end Free

section Exact
variable {K : Type} [Field K] [LinearOrder K] [IsStrictOrderedRing K] [CMath K] [LawfulNum K]

/-- Invariant of the books over a run. -/
theorem run_books {env : Env K} {lines : List (List Char)} {s0 s : State K} {hist : List (State K)}
    (h0 : bmiInitialize env lines = .ok s0) (hr : Run s0 hist s) (hp : ∀ x ∈ hist, 0 ≤ x.p.pondMax) :
    (Bal s ∨ Bad s ∧ s.head = s0.head ∧ s.p.cum = s0.p.cum ∧ 0 ≤ s.p.timesteps) ∧
      s.mb.volstart = water s0.p.cum s0.head ∧
      (hist ≠ [] → |s.mb.volstart + s.mb.volprecip - s.mb.volrunoff - s.mb.volAET - s.mb.volon - s.mb.volrech -
        s.mb.volend + s.mb.volcalib| ≤ (s.p.timesteps : K) * (1e-4 + 1e-12) ∧
        s.mb.volend = water s.p.cum s.head ∧ s.mb.volprecip = s.mb.volin + s.mb.volrunoff + s.mb.volon ∧ 0 ≤ s.mb.volon) := by
  have hb0 := init_books h0
  induction hr with
  | nil =>
    refine ⟨?_, hb0.1, fun h => absurd rfl h⟩
    by_cases hv : s0.p.invalidSoil = true
    · exact .inr ⟨hb0.2.2.2.2.1 hv, rfl, rfl, by rw [hb0.2.2.2.2.2.1]⟩
    · exact .inl (hb0.2.2.2.1 (by simpa using hv))
  | @step hist s s1 s2 fuel sa _ hi hu ih =>
    obtain ⟨ih1, ih2, _⟩ := ih fun x hx => hp x (by simp [hx])
    have hpm := hp s2 (by simp)
    rcases ih1 with hb | ⟨hb, hh, hc, ht⟩
    · obtain ⟨hb', e1, e2, e3, e4, e5⟩ := (hb.inputs hi).update hpm hu
      have e0 : s1.mb.volstart = s.mb.volstart := by obtain ⟨_, _, _, _, rfl⟩ := hi; rfl
      refine ⟨.inl hb', by rw [e3, e0, ih2], fun _ => ⟨?_, e2, by rw [e1]; exact hb'.surface, by rw [e1]; exact hb'.pond⟩⟩
      have := hb'.bal
      rw [← e1, ← e2] at this
      refine le_trans (le_of_eq ?_) this
      congr 1; ring
    · obtain ⟨i1, _, i3, _, _, _, _, _, _, ip⟩ := hi.frame
      obtain ⟨hb', rfl⟩ := (hb.inputs hi).update hu
      refine ⟨.inr ⟨hb', by rw [← hh, ← i1]; rfl, ?_, ?_⟩, by rw [← ih2, ← i3]; rfl, fun _ => ⟨?_, ?_, ?_, le_refl _⟩⟩
      · rw [← hc]; show s1.p.cum = _; rw [ip]
      · show 0 ≤ s1.p.timesteps; rw [ip]; exact ht
      · simp only [updateInvalid]
        rw [i3, hb.same]
        have e : s.mb.volstart + (s.mb.volrunoff + s1.precipMm * 0.1) - (s.mb.volrunoff + s1.precipMm * 0.1) - 0 - 0 - 0 -
            s.mb.volstart + 0 = 0 := by
          ring
        rw [e, abs_zero, ip]
        refine mul_nonneg ?_ (by positivity)
        exact_mod_cast ht
      · show s1.mb.volstart = water s1.p.cum s1.head
        rw [i3, ih2, i1, hh, ip, hc]
      · show s1.mb.volprecip + _ = 0 + (s1.mb.volrunoff + _) + 0
        rw [i3, hb.same]; ring

/-- C01: after Initialize and any positive number of Updates that all returned, initial storage + precipitation - runoff -
actual ET - ponded water - percolation - final storage + storage added by calibration (what Finalize prints as the global
balance) is at most (number of executed sub-timesteps) x (1e-4 + 1e-12) cm in absolute value; the initial and final storages
in it are the physical water contents of the initial and the current profile.  The only condition is that the maximum ponding
depth in force in an Update is not negative (the configuration file cannot set a negative one, calibration can). -/
theorem C01_global_balance (env : Env K) (lines : List (List Char)) (s0 s : State K) (hist : List (State K))
    (h0 : bmiInitialize env lines = .ok s0) (hr : Run s0 hist s) (hne : hist ≠ []) (hp : ∀ x ∈ hist, 0 ≤ x.p.pondMax) :
    |s.mb.volstart + s.mb.volprecip - s.mb.volrunoff - s.mb.volAET - s.mb.volon - s.mb.volrech - s.mb.volend +
      s.mb.volcalib| ≤ (s.p.timesteps : K) * (1e-4 + 1e-12) ∧
    s.mb.volstart = water s0.p.cum s0.head ∧ s.mb.volend = water s.p.cum s.head := by
  obtain ⟨_, h1, h2⟩ := run_books h0 hr hp
  exact ⟨(h2 hne).1, h1, (h2 hne).2.1⟩

/-- The number bounded in C01 is the one that Finalize prints. -/
theorem C01_printed (m : MassVars K) : globalError m =
    m.volstart + m.volprecip - m.volrunoff - m.volAET - m.volon - m.volrech - m.volend + m.volcalib := rfl

example : ∃ (env : Env Grid) (lines : List (List Char)) (s0 s : State Grid) (hist : List (State Grid)),
    bmiInitialize env lines = .ok s0 ∧ Run s0 hist s ∧ hist ≠ [] ∧ (∀ x ∈ hist, 0 ≤ x.p.pondMax) ∧ s.p.timesteps = 4 := by
  obtain ⟨s0, hist, s, h1, h2, h3, _, h5, h6, _⟩ := Sample.run2
  exact ⟨_, _, s0, s, hist, h1, h2, by intro e; simp [e] at h3, h5, h6⟩

/-- C61: at the surface nothing is lost at all, exactly: over any run, precipitation = infiltration + runoff + water still
ponded. -/
theorem C61_surface_balance (env : Env K) (lines : List (List Char)) (s0 s : State K) (hist : List (State K))
    (h0 : bmiInitialize env lines = .ok s0) (hr : Run s0 hist s) (hne : hist ≠ []) (hp : ∀ x ∈ hist, 0 ≤ x.p.pondMax) :
    s.mb.volprecip = s.mb.volin + s.mb.volrunoff + s.mb.volon ∧ 0 ≤ s.mb.volon :=
  ((run_books h0 hr hp).2.2 hne).2.2

end Exact
end LGAR
