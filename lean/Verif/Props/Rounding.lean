import Verif.Lemmas.RoundStore
import Verif.Lemmas.RoundTime
import Verif.Lemmas.RoundRoute
import Verif.Spec.SampleDbl
import Verif.Num.Real
/-
Properties in rounded arithmetic.
-/
set_option linter.unusedSectionVars false
namespace LGAR
open Rounded

section Books
variable {α : Type} [Add α] [Sub α] [Mul α] [Div α] [Neg α] [Zero α] [One α] [OfScientific α]
  [LT α] [LE α] [DecidableLT α] [DecidableLE α] [BEq α] [CMath α] [Rounded α]

/-- C70 at the surface: in rounded arithmetic the reported rain differs from infiltration + runoff + ponded water by at most 24
rounding errors per sub-timestep and 3 per Update, each `eps` times the largest volume in the books. -/
theorem C70_surface (env : Env α) (lines : List (List Char)) (s0 s : State α) (hist : List (State α)) (M : ℝ)
    (h0 : bmiInitialize env lines = .ok s0) (hr : RunIn M s0 hist s) (hne : hist ≠ []) :
    |val s.mb.volprecip - (val s.mb.volin + val s.mb.volrunoff + val s.mb.volon)| ≤
      eps α * M * (24 * (s.p.timesteps : ℝ) + 3 * hist.length) := by
  obtain ⟨_, _, h⟩ := run_rbal h0 hr
  obtain ⟨_, _, h, _⟩ := h hne
  refine le_trans (le_of_eq ?_) (h.trans (le_of_eq ?_))
  · congr 1; ring
  · ring

/-- C70 for the column: in rounded arithmetic the global balance of the finished books closes to the tolerance 1e-4 cm of the
checks per sub-timestep, up to 120 rounding errors per sub-timestep and 8 per Update; `volstart` and `volend` are the storage
computed for the first and for the last list of fronts. -/
theorem C70_balance (env : Env α) (lines : List (List Char)) (s0 s : State α) (hist : List (State α)) (M : ℝ)
    (h0 : bmiInitialize env lines = .ok s0) (hr : RunIn M s0 hist s) (hne : hist ≠ []) :
    massBal s0.p.cum s0.head = .ok s.mb.volstart ∧ massBal s.p.cum s.head = .ok s.mb.volend ∧
      |val s.mb.volstart + val s.mb.volprecip + val s.mb.volcalib -
        (val s.mb.volrunoff + val s.mb.volAET + val s.mb.volon + val s.mb.volrech + val s.mb.volend)| ≤
        (s.p.timesteps : ℝ) * (1e-4 + 2e-12) + eps α * M * (120 * (s.p.timesteps : ℝ) + 8 * hist.length) := by
  obtain ⟨_, e, h⟩ := run_rbal h0 hr
  obtain ⟨_, h1, _, h2⟩ := h hne
  refine ⟨by rw [e]; exact (init_rbal (M := M) h0).1, h1, le_trans (le_of_eq ?_) (h2.trans (le_of_eq ?_))⟩
  · congr 1; ring
  · ring

/-- The bound `M` of C70 is no restriction: every run without negative maximum ponding depth has one. -/
theorem C70_bound_exists (s0 s : State α) (hist : List (State α)) (hr : Run s0 hist s)
    (hp : ∀ x ∈ hist, 0 ≤ val x.p.pondMax) : ∃ M, RunIn M s0 hist s := by
  induction hr with
  | nil => exact ⟨0, .nil⟩
  | @step hist s s1 s2 fuel sa _ hi hu ih =>
    obtain ⟨M, hM⟩ := ih fun x hx => hp x (List.mem_append_left _ hx)
    obtain ⟨N, hN⟩ := subBooks_bound (innerStates fuel sa s1)
    obtain ⟨B, hB⟩ := books_bound s2.mb
    refine ⟨max M (max N B), .step (hM.mono (le_max_left _ _)) hi hu (fun u hu => (hN u hu).mono ?_) (hB.mono ?_)
      (hp s2 (by simp))⟩
    · exact (le_max_left _ _).trans (le_max_right _ _)
    · exact (le_max_right _ _).trans (le_max_right _ _)

end Books

namespace SampleDbl
open Dbl

/-- The configuration of SampleRun.lean with less room for ponding. -/
def cfg : List (List Char) :=
  ["layer_thickness=10,20[cm]".toList, "layer_soil_type=1,2".toList, "soil_params_file=x".toList,
   "max_valid_soil_types=2".toList, "initial_psi=100[cm]".toList, "timestep=30[min]".toList, "endtime=5[hr]".toList,
   "forcing_resolution=60[min]".toList, "ponded_depth_max=0.7[cm]".toList, "use_closed_form_G=true".toList,
   "wilting_point_psi=15495.0[cm]".toList, "field_capacity_psi=340.9[cm]".toList, "giuh_ordinates=0.7,0.3".toList]

/-- Test for the run below. -/
def StormTest (a : State Dbl × List (State Dbl)) : Prop :=
  a.2.length = 1 ∧ (∀ x ∈ a.2, |toRat x.mb.volgiuh| ≤ 100 ∧ |toRat x.mb.volrunoff| ≤ 100 ∧ 0 < toRat x.mb.volgiuh ∧
    ∀ y ∈ x.giuhQueue, |toRat y| ≤ 100) ∧ ∀ x ∈ a.2, x.p.timesteps = 2 ∧ 1 < toRat x.mb.volrunoff ∧ 0 < toRat x.mb.volon ∧
    toRat x.mb.volprecip - (toRat x.mb.volin + toRat x.mb.volrunoff + toRat x.mb.volon) = 1 / 2 ^ 52

instance : DecidablePred StormTest := fun a => by unfold StormTest; infer_instance

theorem storm_check : Sample.okAnd (play 100 cfg 1000 true [(61.1, 0)]) (fun a => decide (StormTest a)) = true := by
  decide +kernel

end SampleDbl

attribute [local irreducible] SampleDbl.env SampleDbl.cfg SampleDbl.play bmiInitialize in
/-- C70, a run in 53-bit arithmetic meeting the hypotheses: one Update with 61.1 mm/h of rain, with infiltration, ponding and
runoff.  Here the surface books are off by 2^-52 cm, so they do not close exactly in rounded arithmetic. -/
theorem C70_not_exact : ∃ (env : Env Dbl) (lines : List (List Char)) (s0 s : State Dbl) (hist : List (State Dbl)),
    bmiInitialize env lines = .ok s0 ∧ RunIn (100 : ℝ) s0 hist s ∧ hist ≠ [] ∧ s.p.timesteps = 2 ∧ 1 < val s.mb.volrunoff ∧
    0 < val s.mb.volon ∧ val s.mb.volprecip - (val s.mb.volin + val s.mb.volrunoff + val s.mb.volon) = 1 / 2 ^ 52 := by
  obtain ⟨s0, hist, s, h1, h2, _, ⟨l1, _, l2⟩, rfl⟩ := SampleDbl.play_run SampleDbl.storm_check
  have m1 := Sample.last1 (x := s0) l1
  obtain ⟨t1, t2, t3, t4⟩ := l2 _ m1
  refine ⟨SampleDbl.env, SampleDbl.cfg, s0, _, hist, h1, by simpa using h2, ?_, t1, ?_, ?_, ?_⟩
  · intro h; rw [h] at l1; simp at l1
  · show (1 : ℝ) < ((Dbl.toRat _ : Rat) : ℝ); exact_mod_cast t2
  · show (0 : ℝ) < ((Dbl.toRat _ : Rat) : ℝ); exact_mod_cast t3
  · have : ((Dbl.toRat (hist.getLast?.getD s0).mb.volprecip - (Dbl.toRat (hist.getLast?.getD s0).mb.volin +
      Dbl.toRat (hist.getLast?.getD s0).mb.volrunoff + Dbl.toRat (hist.getLast?.getD s0).mb.volon) : Rat) : ℝ) =
      ((1 / 2 ^ 52 : Rat) : ℝ) := by exact_mod_cast t4
    push_cast at this
    exact this

section Store
variable {α : Type} [Add α] [Sub α] [Mul α] [Div α] [Neg α] [Zero α] [One α] [OfScientific α]
  [LT α] [LE α] [DecidableLT α] [DecidableLE α] [BEq α] [CMath α] [Rounded α]

/-- C71: the storage computed in rounded arithmetic differs from the water that the stored depths and moistures (taken as exact
numbers) amount to by at most 2·n·(n+4) rounding errors for n fronts. -/
theorem C71_storage (cum : List α) (l : List (Front α)) (v : α) (D : ℝ) (hD : 0 ≤ D) (hlen : l.length ≤ 2 ^ 20)
    (hl : ∀ f ∈ l, 0 ≤ val f.theta ∧ val f.theta ≤ 1 ∧ |val f.depth - layerTop (cum.map val) f.layer| ≤ D)
    (h : massBal cum l = .ok v) :
    |val v - water (cum.map val) (l.map frontVal)| ≤ 2 * (l.length : ℝ) * (l.length + 4) * (eps α * D + tiny α) := by
  have := massBalGo_rounded hD (i := 0) (S := 0) (by simpa using hlen) hl (by rw [val_zero]; simp) (by simp) h
  rw [water_eq_mass]
  simpa using this

/-- C70 and C71 together: the water in the column at the end of a run, against the water at its start and the books. -/
theorem C71_run (env : Env α) (lines : List (List Char)) (s0 s : State α) (hist : List (State α)) (M D : ℝ)
    (h0 : bmiInitialize env lines = .ok s0) (hr : RunIn M s0 hist s) (hne : hist ≠ []) (hD : 0 ≤ D)
    (hl : ∀ x ∈ [s0, s], x.head.length ≤ 2 ^ 20 ∧ ∀ f ∈ x.head, 0 ≤ val f.theta ∧ val f.theta ≤ 1 ∧
      |val f.depth - layerTop (x.p.cum.map val) f.layer| ≤ D) :
    |water (s0.p.cum.map val) (s0.head.map frontVal) + val s.mb.volprecip + val s.mb.volcalib -
        (val s.mb.volrunoff + val s.mb.volAET + val s.mb.volon + val s.mb.volrech +
          water (s.p.cum.map val) (s.head.map frontVal))| ≤
      (s.p.timesteps : ℝ) * (1e-4 + 2e-12) + eps α * M * (120 * (s.p.timesteps : ℝ) + 8 * hist.length) +
        2 * ((s0.head.length : ℝ) * (s0.head.length + 4) + s.head.length * (s.head.length + 4)) * (eps α * D + tiny α) := by
  obtain ⟨a1, a2, a3⟩ := C70_balance env lines s0 s hist M h0 hr hne
  obtain ⟨b1, b2⟩ := hl s0 (by simp)
  obtain ⟨c1, c2⟩ := hl s (by simp)
  have e1 := abs_le.mp (C71_storage _ _ _ D hD b1 b2 a1)
  have e2 := abs_le.mp (C71_storage _ _ _ D hD c1 c2 a2)
  have e3 := abs_le.mp a3
  have e : 2 * ((s0.head.length : ℝ) * (s0.head.length + 4) + s.head.length * (s.head.length + 4)) * (eps α * D + tiny α) =
      2 * (s0.head.length : ℝ) * (s0.head.length + 4) * (eps α * D + tiny α) +
      2 * (s.head.length : ℝ) * (s.head.length + 4) * (eps α * D + tiny α) := by ring
  rw [e, abs_le]
  constructor <;> linarith [e1.1, e1.2, e2.1, e2.2, e3.1, e3.2]

/-- Three fronts in two layers. -/
def threeFronts : List (Front Dbl) :=
  [⟨3.3, 0.31, 10.0, 0.1, 1, 1, false, 0.3⟩, ⟨10.3, 0.17, 90.0, 0.1, 1, 2, true, 0⟩, ⟨30.7, 0.19, 90.0, 0.1, 2, 3, true, 0⟩]

/-- C71, three fronts in two layers, in 53-bit arithmetic: the computed storage is off by at most 1e-13. -/
example : ∃ v, massBal [(0 : Dbl), 10.3, 30.7] threeFronts = .ok v ∧
    |val v - water ([(0 : Dbl), 10.3, 30.7].map val) (threeFronts.map frontVal)| ≤ 1e-13 := by
  refine ⟨_, rfl, ?_⟩
  have hv : ∀ x : Dbl, val x = ((Dbl.toRat x : Rat) : ℝ) := fun _ => rfl
  refine (C71_storage (α := Dbl) _ _ _ 21 (by norm_num) (by simp [threeFronts]) ?_ rfl).trans ?_
  · intro f hf
    simp only [threeFronts, List.mem_cons, List.not_mem_nil, or_false] at hf
    have k : ∀ x t : Dbl, ∀ b : Dbl, (0 : Rat) ≤ Dbl.toRat t → Dbl.toRat t ≤ 1 → |Dbl.toRat x - Dbl.toRat b| ≤ 21 →
        0 ≤ val t ∧ val t ≤ 1 ∧ |val x - val b| ≤ 21 := by
      intro x t b h1 h2 h3
      simp only [hv]
      exact ⟨by exact_mod_cast h1, by exact_mod_cast h2, by exact_mod_cast h3⟩
    rcases hf with rfl | rfl | rfl
    · exact k _ _ (0 : Dbl) (by decide +kernel) (by decide +kernel) (by decide +kernel)
    · exact k _ _ (0 : Dbl) (by decide +kernel) (by decide +kernel) (by decide +kernel)
    · exact k _ _ (10.3 : Dbl) (by decide +kernel) (by decide +kernel) (by decide +kernel)
  · show 2 * ((3 : Nat) : ℝ) * (((3 : Nat) : ℝ) + 4) * (1 / 2 ^ 53 * 21 + 0) ≤ _
    norm_num

end Store

section Clock
variable {α : Type} [Add α] [Sub α] [Mul α] [Div α] [Neg α] [Zero α] [One α] [OfScientific α]
  [LT α] [LE α] [DecidableLT α] [DecidableLE α] [BEq α] [CMath α] [Rounded α]

/-- C72, where the times come from: after Initialize the sub-timestep and the forcing resolution are conversions to hours of a
number and a unit. -/
theorem C72_times (env : Env α) (lines : List (List Char)) (s0 : State α) (h0 : bmiInitialize env lines = .ok s0) :
    ∃ u1 x1 u2 x2, s0.p.timestepH = toHours u1 x1 ∧ s0.p.forcingResH = toHours u2 x2 := by
  obtain ⟨u1, x1, u2, x2, h1, h2, _⟩ := init_times h0
  exact ⟨u1, x1, u2, x2, h1, h2⟩

/-- C72: when the forcing interval is exactly n sub-timesteps, the number of sub-timesteps computed in rounded arithmetic is n
after Initialize and in every Update with the configured sub-timestep; when the doubled sub-timestep is chosen it is n/2 rounded
down, at least 1; when the whole interval is chosen it is 1. -/
theorem C72_count (env : Env α) (lines : List (List Char)) (s0 : State α) (u1 u2 : List Char) (x1 x2 : α) (n : Nat)
    (h0 : bmiInitialize env lines = .ok s0) (hdt : s0.p.timestepH = toHours u1 x1) (hres : s0.p.forcingResH = toHours u2 x2)
    (hn : hoursOf u2 (val x2) = n * hoursOf u1 (val x1)) (hD : 1 / 2 ^ 39 ≤ hoursOf u1 (val x1)) (hn1 : 1 ≤ n) (hn2 : n ≤ 100000) :
    s0.p.forcingInterval = n ∧
    ∀ (hist : List (State α)) (s s1 s2 : State α) (fuel : Nat) (sa : Bool), Run s0 hist s → Inputs s s1 →
      update fuel sa s1 = .ok s2 →
      s2.p.forcingInterval = if s0.p.adaptive = false ∨ 10.0 < s1.precipMm ∨ 0 < s1.mb.volonT then (n : Int)
        else if 0 < s1.precipMm then max 1 ((n / 2 : Nat) : Int) else 1 := by
  obtain ⟨_, _, _, _, _, _, hmin, _, _, q, hq, hi⟩ := init_times h0
  have hD0 : 0 < hoursOf u1 (val x1) := lt_of_lt_of_le (by norm_num) hD
  have hn1r : (1 : ℝ) ≤ n := by exact_mod_cast hn1
  have hR : 1 / 2 ^ 39 ≤ hoursOf u2 (val x2) := by
    rw [hn]; exact hD.trans (le_mul_of_one_le_left hD0.le hn1r)
  have wD := toHours_within hD
  have wR := toHours_within hR
  rw [← hdt] at wD
  rw [← hres] at wR
  have hR0 : 0 < hoursOf u2 (val x2) := lt_of_lt_of_le (by norm_num) hR
  refine ⟨?_, fun hist s s1 s2 fuel sa hr hin hu => ?_⟩
  · rw [hi]
    have e : hoursOf u2 (val x2) / hoursOf u1 (val x1) = n := by rw [hn]; field_simp
    exact interval_val hR0 hD0 (wR.mono (by norm_num) hR0.le) (wD.mono (by norm_num) hD0.le) e.ge (by rw [e]; norm_num) hn1 hn2 hq
  · obtain ⟨t1, t2, t3, t4, t5⟩ := run_times hmin.symm hr
    obtain ⟨_, _, _, _, _, _, _, _, _, ip⟩ := hin.frame
    have hv : s1.p.invalidSoil = false := by rw [ip]; simp only; rw [t1, init_valid h0]
    have e2 : s1.p.adaptive = s0.p.adaptive := by rw [ip]; exact t2
    have e3 : s1.p.forcingResH = s0.p.forcingResH := by rw [ip]; exact t3
    have e4 : s1.p.minTimestepH = s0.p.minTimestepH := by rw [ip]; exact t4
    have e5 : s1.p.timestepH = s.p.timestepH := by rw [ip]
    obtain ⟨c1, ⟨q, hq, hi⟩, _⟩ := update_clock hv hu
    rw [hi, ← e2]
    rw [c1] at hq
    exact interval_of_choice (by rw [e3]; exact wR) (by rw [e4, hmin]; exact wD) (fun ha => by rw [e5, e4, t5 (by rw [← e2]; exact ha)])
      hD hn hn1 hn2 hq

/-- C72 over runs: with a fixed sub-timestep a coupled run of k Updates makes exactly k·n sub-timesteps. -/
theorem C72_steps (env : Env α) (lines : List (List Char)) (s0 s : State α) (hist : List (State α)) (u1 u2 : List Char) (x1 x2 : α)
    (n : Nat) (h0 : bmiInitialize env lines = .ok s0) (hdt : s0.p.timestepH = toHours u1 x1)
    (hres : s0.p.forcingResH = toHours u2 x2) (hn : hoursOf u2 (val x2) = n * hoursOf u1 (val x1))
    (hD : 1 / 2 ^ 39 ≤ hoursOf u1 (val x1)) (hn1 : 1 ≤ n) (hn2 : n ≤ 100000) (had : s0.p.adaptive = false)
    (hr : RunAs false s0 hist s) : s.p.timesteps = (hist.length * n : Nat) := by
  obtain ⟨_, hcount⟩ := C72_count env lines s0 u1 u2 x1 x2 n h0 hdt hres hn hD hn1 hn2
  obtain ⟨_, _, _, _, _, _, hmin, _, hts, _⟩ := init_times h0
  induction hr with
  | nil => simp [hts]
  | @step hist s s1 s2 fuel hr' hi hu ih =>
    obtain ⟨t1, _⟩ := run_times hmin.symm hr'.run
    obtain ⟨_, _, _, _, _, _, _, _, _, ip⟩ := hi.frame
    have hv1 : s1.p.invalidSoil = false := by rw [ip]; simp only; rw [t1, init_valid h0]
    have e := hcount hist s s1 s2 fuel false hr'.run hi hu
    rw [if_pos (.inl had)] at e
    obtain ⟨_, _, _, c4, _⟩ := update_clock hv1 hu
    have e6 : s1.p.timesteps = s.p.timesteps := by rw [ip]
    rw [c4 rfl, e, e6, ih]
    simp only [List.length_append, List.length_singleton, Int.toNat_natCast]
    push_cast; ring

/-- C73: with a fixed sub-timestep of D hours the clock after N sub-timesteps shows N·D hours up to a relative error of
(N + 40)/2^52. -/
theorem C73_clock (env : Env α) (lines : List (List Char)) (s0 s : State α) (hist : List (State α)) (u1 : List Char) (x1 : α)
    (h0 : bmiInitialize env lines = .ok s0) (hdt : s0.p.timestepH = toHours u1 x1)
    (hD : 1 / 2 ^ 39 ≤ hoursOf u1 (val x1)) (had : s0.p.adaptive = false) (hr : Run s0 hist s) (hN : s.p.timesteps ≤ 2 ^ 40) :
    |val s.p.timeS - s.p.timesteps * (hoursOf u1 (val x1) * 3600)| ≤
      (s.p.timesteps : ℝ) * (s.p.timesteps + 40) / 2 ^ 52 * (hoursOf u1 (val x1) * 3600) := by
  obtain ⟨_, _, _, _, _, _, hmin, htime, hts, _⟩ := init_times h0
  have wD := toHours_within hD
  rw [← hdt] at wD
  set D := hoursOf u1 (val x1) with hDD
  have key : 0 ≤ s.p.timesteps ∧ (s.p.timesteps ≤ 2 ^ 40 → |val s.p.timeS - s.p.timesteps * (D * 3600)| ≤
      (s.p.timesteps : ℝ) * (s.p.timesteps + 40) / 2 ^ 52 * (D * 3600)) := by
    clear hN
    induction hr with
    | nil =>
      refine ⟨by rw [hts], fun _ => ?_⟩
      rw [hts, htime, val_zero]; simp
    | @step hist s s1 s2 fuel sa hr' hi hu ih =>
      obtain ⟨_, t2, _, t4, t5⟩ := run_times hmin.symm hr'
      obtain ⟨_, _, _, _, _, _, _, _, _, ip⟩ := hi.frame
      have e1 : s1.p.timeS = s.p.timeS := by rw [ip]
      have e2 : s1.p.timesteps = s.p.timesteps := by rw [ip]
      have e3 : s1.p.adaptive = false := by rw [ip]; simp only; rw [t2, had]
      have e5 : s1.p.timestepH = s0.p.timestepH := by rw [ip]; simp only; rw [t5 had, hmin]
      rcases update_inv hu with ⟨_, rfl⟩ | ⟨hv, _⟩
      · show 0 ≤ s1.p.timesteps ∧ (s1.p.timesteps ≤ 2 ^ 40 → |val s1.p.timeS - s1.p.timesteps * (D * 3600)| ≤
          (s1.p.timesteps : ℝ) * (s1.p.timesteps + 40) / 2 ^ 52 * (D * 3600))
        rw [e1, e2]; exact ih
      · obtain ⟨c1, _, _, _, c5⟩ := update_clock hv hu
        have ec : s2.p.timestepH = s0.p.timestepH := by rw [c1, chooseTimestep, if_neg (by rw [e3]; simp), e5]
        refine c5 (fun k t => 0 ≤ k ∧ (k ≤ 2 ^ 40 → |val t - k * (D * 3600)| ≤ (k : ℝ) * (k + 40) / 2 ^ 52 * (D * 3600))) ?_
          (by rw [e1, e2]; exact ih)
        rintro k t ⟨k0, kb⟩
        refine ⟨by omega, fun hk => ?_⟩
        exact clock_step k0 (by omega) hD (by rw [ec]; exact wD) (kb (by omega))
  exact key.2 hN

/-- C73 for coupled runs: after k Updates the clock shows k forcing intervals, up to the same relative error. -/
theorem C73_updates (env : Env α) (lines : List (List Char)) (s0 s : State α) (hist : List (State α)) (u1 u2 : List Char)
    (x1 x2 : α) (n : Nat) (h0 : bmiInitialize env lines = .ok s0) (hdt : s0.p.timestepH = toHours u1 x1)
    (hres : s0.p.forcingResH = toHours u2 x2) (hn : hoursOf u2 (val x2) = n * hoursOf u1 (val x1))
    (hD : 1 / 2 ^ 39 ≤ hoursOf u1 (val x1)) (hn1 : 1 ≤ n) (hn2 : n ≤ 100000) (had : s0.p.adaptive = false)
    (hr : RunAs false s0 hist s) (hN : hist.length * n ≤ 2 ^ 40) :
    |val s.p.timeS - hist.length * (hoursOf u2 (val x2) * 3600)| ≤
      ((hist.length * n : Nat) + 40) / 2 ^ 52 * (hist.length * (hoursOf u2 (val x2) * 3600)) := by
  have hs := C72_steps env lines s0 s hist u1 u2 x1 x2 n h0 hdt hres hn hD hn1 hn2 had hr
  have h := C73_clock env lines s0 s hist u1 x1 h0 hdt hD had hr.run (by rw [hs]; exact_mod_cast hN)
  rw [hs] at h
  rw [hn]
  refine le_trans (le_of_eq ?_) (h.trans (le_of_eq ?_))
  · congr 1; push_cast; ring
  · push_cast; ring

end Clock

namespace SampleDbl
open Dbl

/-- Forcing interval 300 s, sub-timestep 3 s, no unit given. -/
def cfg3 : List (List Char) :=
  ["layer_thickness=10,20[cm]".toList, "layer_soil_type=1,2".toList, "soil_params_file=x".toList,
   "max_valid_soil_types=2".toList, "initial_psi=100[cm]".toList, "timestep=3".toList, "endtime=5[hr]".toList,
   "forcing_resolution=300[s]".toList, "ponded_depth_max=0.7[cm]".toList, "use_closed_form_G=true".toList,
   "wilting_point_psi=15495.0[cm]".toList, "field_capacity_psi=340.9[cm]".toList, "giuh_ordinates=0.7,0.3".toList]

/-- Test for the example below: 100 sub-timesteps, 99 without the guard of 1e-8. -/
def GuardTest (s : State Dbl) : Prop :=
  s.p.timestepH = toHours [] (3.0 : Dbl) ∧ s.p.forcingResH = toHours "[s]".toList (300.0 : Dbl) ∧ s.p.adaptive = false ∧
    s.p.invalidSoil = false ∧ CMath.toInt (s.p.forcingResH / s.p.timestepH) = 99

instance : DecidablePred GuardTest := fun a => by unfold GuardTest; infer_instance

theorem guard_check : Sample.okAnd (bmiInitialize env cfg3) (fun a => decide (GuardTest a)) = true := by decide +kernel

end SampleDbl

attribute [local irreducible] SampleDbl.env SampleDbl.cfg3 bmiInitialize in
/-- C72, a case meeting the hypotheses: 300 s with sub-timesteps of 3 s gives 100 sub-timesteps in 53-bit arithmetic, though the
quotient itself is below 100 (without the added 1e-8 it would be 99). -/
theorem C72_guard_needed : ∃ (env : Env Dbl) (lines : List (List Char)) (s0 : State Dbl), bmiInitialize env lines = .ok s0 ∧
    s0.p.timestepH = toHours [] (3.0 : Dbl) ∧ s0.p.forcingResH = toHours "[s]".toList (300.0 : Dbl) ∧
    hoursOf "[s]".toList (val (300.0 : Dbl)) = (100 : Nat) * hoursOf [] (val (3.0 : Dbl)) ∧
    1 / 2 ^ 39 ≤ hoursOf [] (val (3.0 : Dbl)) ∧ s0.p.adaptive = false ∧ s0.p.invalidSoil = false ∧
    CMath.toInt (s0.p.forcingResH / s0.p.timestepH) = 99 ∧ s0.p.forcingInterval = 100 := by
  obtain ⟨s0, h1, t1, t2, t3, t4, t5⟩ := Sample.okAnd_exists SampleDbl.guard_check
  have v3 : val (3.0 : Dbl) = 3 := by
    show ((Dbl.toRat (3.0 : Dbl) : Rat) : ℝ) = 3
    rw [show Dbl.toRat (3.0 : Dbl) = 3 by decide +kernel]; norm_num
  have v300 : val (300.0 : Dbl) = 300 := by
    show ((Dbl.toRat (300.0 : Dbl) : Rat) : ℝ) = 300
    rw [show Dbl.toRat (300.0 : Dbl) = 300 by decide +kernel]; norm_num
  have e1 : hoursOf "[s]".toList (val (300.0 : Dbl)) = (100 : Nat) * hoursOf [] (val (3.0 : Dbl)) := by
    rw [v3, v300]; simp [hoursOf]; norm_num
  have e2 : 1 / 2 ^ 39 ≤ hoursOf [] (val (3.0 : Dbl)) := by rw [v3]; simp [hoursOf]; norm_num
  exact ⟨_, _, s0, h1, t1, t2, e1, e2, t3, t4, t5,
    (C72_count _ _ s0 _ _ _ _ 100 h1 t1 t2 e1 e2 (by norm_num) (by norm_num)).1⟩

namespace SampleDbl
open Dbl

/-- Test for the example below. -/
def ClockTest (a : State Dbl × List (State Dbl)) : Prop :=
  a.2.length = 1 ∧ a.1.p.timestepH = toHours "[min]".toList (30.0 : Dbl) ∧ a.1.p.forcingResH = toHours "[min]".toList (60.0 : Dbl) ∧
    a.1.p.adaptive = false ∧ a.1.p.invalidSoil = false

instance : DecidablePred ClockTest := fun a => by unfold ClockTest; infer_instance

theorem clock_check : Sample.okAnd (play 100 Sample.cfg 1000 false [(5.3, 0)]) (fun a => decide (ClockTest a)) = true := by
  decide +kernel

end SampleDbl

attribute [local irreducible] SampleDbl.env Sample.cfg SampleDbl.play bmiInitialize in
/-- C73, a coupled run of an Update with two sub-timesteps meeting the hypotheses. -/
example : ∃ (env : Env Dbl) (lines : List (List Char)) (s0 s : State Dbl) (hist : List (State Dbl)),
    bmiInitialize env lines = .ok s0 ∧ RunAs false s0 hist s ∧ hist.length = 1 ∧
    s0.p.timestepH = toHours "[min]".toList (30.0 : Dbl) ∧ s0.p.forcingResH = toHours "[min]".toList (60.0 : Dbl) ∧
    hoursOf "[min]".toList (val (60.0 : Dbl)) = (2 : Nat) * hoursOf "[min]".toList (val (30.0 : Dbl)) ∧
    1 / 2 ^ 39 ≤ hoursOf "[min]".toList (val (30.0 : Dbl)) ∧ s0.p.adaptive = false ∧ s0.p.invalidSoil = false := by
  obtain ⟨s0, hist, s, h1, _, h2, ⟨l1, l2, l3, l4, l5⟩, rfl⟩ := SampleDbl.play_run SampleDbl.clock_check
  have v3 : val (30.0 : Dbl) = 30 := by
    show ((Dbl.toRat (30.0 : Dbl) : Rat) : ℝ) = 30
    rw [show Dbl.toRat (30.0 : Dbl) = 30 by decide +kernel]; norm_num
  have v6 : val (60.0 : Dbl) = 60 := by
    show ((Dbl.toRat (60.0 : Dbl) : Rat) : ℝ) = 60
    rw [show Dbl.toRat (60.0 : Dbl) = 60 by decide +kernel]; norm_num
  refine ⟨_, _, s0, _, hist, h1, h2, l1, l2, l3, ?_, ?_, l4, l5⟩
  · rw [v3, v6]; simp [hoursOf]; norm_num
  · rw [v3]; simp [hoursOf]; norm_num

section Route
variable {α : Type} [Add α] [Sub α] [Mul α] [Div α] [Neg α] [Zero α] [One α] [OfScientific α]
  [LT α] [LE α] [DecidableLT α] [DecidableLE α] [BEq α] [CMath α] [Rounded α]

/-- C74: routing in rounded arithmetic.  What has left the GIUH plus what is queued is the runoff times the sum of the stored
ordinates, up to six rounding errors per ordinate and Update and `1 + |sum|` per Update. -/
theorem C74_routing (env : Env α) (lines : List (List Char)) (s0 s : State α) (hist : List (State α)) (M : ℝ) (hM : 0 ≤ M)
    (h0 : bmiInitialize env lines = .ok s0) (hr : Run s0 hist s)
    (hb : ∀ x ∈ hist, |val x.mb.volgiuh| ≤ M ∧ |val x.mb.volrunoff| ≤ M ∧ ∀ a ∈ x.giuhQueue, |val a| ≤ M) :
    |val s.mb.volgiuh + sumVal s.giuhQueue - val s.mb.volrunoff * sumVal s0.giuhOrd| ≤
      hist.length * (s0.giuhOrd.length * (6 * (eps α * M) + tiny α) + (1 + |sumVal s0.giuhOrd|) * (eps α * M)) := by
  have key : Routed M hist.length s0.giuhOrd s := by
    induction hr with
    | nil => exact init_routed hM h0
    | @step hist s s1 s2 fuel sa _ hi hu ih =>
      obtain ⟨b1, b2, b3⟩ := hb s2 (by simp)
      have := ((ih fun x hx => hb x (List.mem_append_left _ hx)).inputs hi).update hu b1 b2 b3
      rw [List.length_append, List.length_singleton]
      exact this
  exact key.sum

end Route

attribute [local irreducible] SampleDbl.env SampleDbl.cfg SampleDbl.play bmiInitialize in
/-- C74, a run with runoff and routed outflow meeting the hypotheses. -/
example : ∃ (env : Env Dbl) (lines : List (List Char)) (s0 s : State Dbl) (hist : List (State Dbl)),
    bmiInitialize env lines = .ok s0 ∧ Run s0 hist s ∧ hist.length = 1 ∧ 1 < val s.mb.volrunoff ∧ 0 < val s.mb.volgiuh ∧
    ∀ x ∈ hist, |val x.mb.volgiuh| ≤ 100 ∧ |val x.mb.volrunoff| ≤ 100 ∧ ∀ a ∈ x.giuhQueue, |val a| ≤ 100 := by
  obtain ⟨s0, hist, s, h1, _, h2, ⟨l1, l2, l3⟩, rfl⟩ := SampleDbl.play_run SampleDbl.storm_check
  have m1 := Sample.last1 (x := s0) l1
  obtain ⟨_, t2, _⟩ := l3 _ m1
  obtain ⟨_, _, t3, _⟩ := l2 _ m1
  have c : ∀ x : Dbl, |Dbl.toRat x| ≤ 100 → |val x| ≤ 100 := fun x hx => by
    simpa using SampleDbl.cast_abs_le hx
  refine ⟨_, _, s0, _, hist, h1, h2.run, l1, ?_, ?_, fun x hx => ?_⟩
  · show (1 : ℝ) < ((Dbl.toRat _ : Rat) : ℝ); exact_mod_cast t2
  · show (0 : ℝ) < ((Dbl.toRat _ : Rat) : ℝ); exact_mod_cast t3
  · obtain ⟨a1, a2, _, a4⟩ := l2 x hx
    exact ⟨c _ a1, c _ a2, fun y hy => c _ (a4 y hy)⟩

end LGAR
