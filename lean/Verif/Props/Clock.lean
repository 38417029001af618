import Verif.Lemmas.Restart
import Verif.Spec.Restart
import Verif.Spec.SampleRun
import Verif.Lemmas.Update
/-
C100: what the clock does.
-/
set_option linter.unusedSectionVars false
namespace LGAR

/-- The object with another clock: time, number of sub-timesteps made, end time. -/
def State.withClock {α : Type} (s : State α) (t : α) (k : Int) (e : α) : State α :=
  { s with p := { s.p with timeS := t, timesteps := k, endtimeS := e } }

section Free
variable {α : Type} [Add α] [Sub α] [Mul α] [Div α] [Neg α] [Zero α] [One α] [OfScientific α]
  [LT α] [LE α] [DecidableLT α] [DecidableLE α] [BEq α] [CMath α]

theorem Both.same {β γ : Type} {Q : γ → γ → Prop} {x : Res β} {F F' : β → Res γ}
    (hf : ∀ a, x = .ok a → Both Q (F a) (F' a)) : Both Q (x >>= F) (x >>= F') :=
  Both.bind (R := fun a b => b = a) (Both.refl fun _ _ => rfl) fun a b ha _ e => by rw [e]; exact hf a ha

theorem subStep_clock (c : StepCfg α) (s : SubSt α) (t e : α) (k : Int) :
    Both (fun u w => w = { u with timeS := t + c.dt * 3600.0, timesteps := k + 1 } ∧ u.timeS = s.timeS + c.dt * 3600.0 ∧
      u.timesteps = s.timesteps + 1) (subStep c s) (subStep { c with endtimeS := e } { s with timeS := t, timesteps := k }) := by
  unfold subStep
  refine Both.same (x := aetDemand c _ s.head) fun aet _ => ?_
  refine Both.same fun v _ => ?_
  refine Both.same fun h _ => ?_
  refine Both.same fun hs _ => ?_
  refine Both.same (x := subFlow c s _ _ _ _ _ _) fun f _ => ?_
  refine Both.same fun l _ => ?_
  refine Both.same fun ve _ => ?_
  simp only
  split
  · rfl
  · refine Both.same fun h' _ => ?_
    refine Both.same fun _ _ => ?_
    exact ⟨rfl, rfl, rfl⟩

theorem subLoop_clockFree {c : StepCfg α} {e : α} {R : α → α → Prop} (hR : ∀ a b, R a b → R (a + c.dt * 3600.0) (b + c.dt * 3600.0))
    (hE : c.standalone = true → ∀ a b, R a b → (e ≤ b ↔ c.endtimeS ≤ a)) : ∀ (n : Nat) (s : SubSt α) (t : α) (k : Int),
    R s.timeS t → Both (fun u w => ∃ t' k', w = { u with timeS := t', timesteps := k' } ∧ R u.timeS t' ∧
      k' - u.timesteps = k - s.timesteps) (subLoop c n s) (subLoop { c with endtimeS := e } n { s with timeS := t, timesteps := k })
  | 0, s, t, k, h => ⟨t, k, rfl, h, rfl⟩
  | n + 1, s, t, k, h => by
    unfold subLoop
    refine Both.bind (subStep_clock c s t e k) fun u w _ _ hw => ?_
    obtain ⟨rfl, h1, h2⟩ := hw
    have hR' : R u.timeS (t + c.dt * 3600.0) := by rw [h1]; exact hR _ _ h
    have hc : (e ≤ t + c.dt * 3600.0 ∧ c.standalone = true) ↔ (c.endtimeS ≤ u.timeS ∧ c.standalone = true) := by
      constructor
      · rintro ⟨a, b⟩; exact ⟨(hE b _ _ hR').mp a, b⟩
      · rintro ⟨a, b⟩; exact ⟨(hE b _ _ hR').mpr a, b⟩
    have hk : k + 1 - u.timesteps = k - s.timesteps := by omega
    by_cases hs : c.endtimeS ≤ u.timeS ∧ c.standalone = true
    · rw [if_pos hs, if_pos (hc.mpr hs)]
      exact ⟨_, _, rfl, hR', hk⟩
    · rw [if_neg hs, if_neg (fun h => hs (hc.mp h))]
      have := subLoop_clockFree hR hE n u _ (k + 1) hR'
      rw [hk] at this
      exact this

/-- Before the loop the clock is only carried along. -/
theorem updatePre_clock (s : State α) (t e : α) (k : Int) :
    Both (fun x y => y = (x.1.withClock t k e, x.2) ∧ x.1.p.timeS = s.p.timeS ∧ x.1.p.timesteps = s.p.timesteps ∧
      x.1.p.endtimeS = s.p.endtimeS ∧ x.1.p.invalidSoil = s.p.invalidSoil) (updatePre s) (updatePre (s.withClock t k e)) := by
  unfold updatePre
  refine Both.bind (R := fun a b => b = a.withClock t k e ∧ a.p.timeS = s.p.timeS ∧ a.p.timesteps = s.p.timesteps ∧
    a.p.endtimeS = s.p.endtimeS ∧ a.p.invalidSoil = s.p.invalidSoil) ?_ fun a b _ _ hab => ?_
  · unfold applyFrozen State.withClock
    simp only
    split
    · exact Both.same fun fs _ => ⟨rfl, rfl, rfl, rfl, rfl⟩
    · exact ⟨rfl, rfl, rfl, rfl, rfl⟩
  obtain ⟨rfl, h1, h2, h3, h4⟩ := hab
  refine Both.bind (R := fun x y => y = (x.1.withClock t k e, x.2) ∧ x.1.p.timeS = s.p.timeS ∧ x.1.p.timesteps = s.p.timesteps ∧
    x.1.p.endtimeS = s.p.endtimeS ∧ x.1.p.invalidSoil = s.p.invalidSoil) ?_ fun x y _ _ hxy => ?_
  · unfold applyCalib
    have : (a.withClock t k e).p.calibFlag = a.p.calibFlag := rfl
    rw [this]
    split
    · refine Both.bind (R := fun x y => y = (x.1.withClock t k e, x.2) ∧ x.1.p.timeS = s.p.timeS ∧
        x.1.p.timesteps = s.p.timesteps ∧ x.1.p.endtimeS = s.p.endtimeS ∧ x.1.p.invalidSoil = s.p.invalidSoil) ?_ fun x y _ _ hxy => ?_
      · unfold updateCalib
        refine Both.same (x := massBal a.p.cum a.head) fun _ _ => ?_
        refine Both.same (x := calibLoop a.p.layerSoilType a.calib a.p.numWf.toNat a.soils a.head) fun _ _ => ?_
        refine Both.same (x := massBal a.p.cum _) fun _ _ => ?_
        exact ⟨rfl, h1, h2, h3, h4⟩
      · obtain ⟨rfl, h⟩ := hxy
        exact ⟨rfl, h⟩
    · exact ⟨rfl, h1, h2, h3, h4⟩
  · obtain ⟨rfl, h⟩ := hxy
    refine Both.same fun _ _ => ?_
    refine Both.same fun _ _ => ?_
    refine Both.same fun q _ => ?_
    exact ⟨rfl, h⟩

theorem update_clockFree (fuel : Nat) (sa : Bool) (s : State α) (t e : α) (k : Int) {R : α → α → Prop}
    (hR : ∀ a b d, R a b → R (a + d) (b + d)) (hE : sa = true → ∀ a b, R a b → (e ≤ b ↔ s.p.endtimeS ≤ a)) (h : R s.p.timeS t) :
    Both (fun a b => ∃ t', b = a.withClock t' (k + (a.p.timesteps - s.p.timesteps)) e ∧ R a.p.timeS t' ∧ a.p.endtimeS = s.p.endtimeS)
      (LGAR.update fuel sa s) (LGAR.update fuel sa (s.withClock t k e)) := by
  unfold LGAR.update
  have : (s.withClock t k e).p.invalidSoil = s.p.invalidSoil := rfl
  rw [this]
  split
  · refine ⟨t, ?_, h, rfl⟩
    unfold updateInvalid State.withClock
    simp
  · refine Both.bind (updatePre_clock s t e k) fun x y _ _ hxy => ?_
    obtain ⟨a, d⟩ := x
    obtain ⟨rfl, h1, h2, h3, h4⟩ := hxy
    simp only at h1 h2 h3 h4 ⊢
    refine Both.same (x := massBal a.p.cum a.head) fun v _ => ?_
    refine Both.bind (R := fun u w => ∃ t' k', w = { u with timeS := t', timesteps := k' } ∧ R u.timeS t' ∧
      k' - u.timesteps = k - s.p.timesteps) ?_ fun u w _ _ hw => ?_
    · have := subLoop_clockFree (c := stepCfg fuel sa a) (e := e) (R := R) (fun x y h => hR x y _ h)
        (fun hs x y hx => by
          have := hE hs x y hx
          simp only [stepCfg, h3]; exact this) a.p.forcingInterval.toNat (subInit a v) t k (by simpa only [subInit, h1] using h)
      simp only [subInit, h2] at this ⊢
      exact this
    · obtain ⟨t', k', rfl, hr, hk⟩ := hw
      unfold updatePost
      refine Both.same (x := giuhConv u.runoffT a.numGiuh a.giuhOrd a.giuhQueue) fun g _ => ?_
      refine ⟨t', ?_, hr, h3⟩
      have : k + (u.timesteps - s.p.timesteps) = k' := by omega
      unfold State.withClock
      simp only [this]

/-- C100, embedded (no end time): Updates with the same inputs end with the same error or with objects that differ only in their clock,
and the same number of sub-timesteps has been made.  The time, the count and the end time they started with do not matter. -/
theorem C100_clock (fuel : Nat) (xs : List (Drive α)) (s : State α) (t e : α) (k : Int) :
    Both (fun a b => ∃ t', b = a.withClock t' (k + (a.p.timesteps - s.p.timesteps)) e)
      (drives fuel false xs s) (drives fuel false xs (s.withClock t k e)) := by
  induction xs generalizing s t k with
  | nil => exact ⟨t, by simp [State.withClock]⟩
  | cons x xs ih =>
    unfold drives
    have := update_clockFree fuel false (x.set s) t e k (R := fun _ _ => True) (fun _ _ _ _ => trivial) (fun h => by simp at h) trivial
    refine Both.bind this fun a b _ _ hab => ?_
    obtain ⟨t', rfl, _⟩ := hab
    have := ih a t' (k + (a.p.timesteps - (x.set s).p.timesteps))
    revert this
    generalize drives fuel false xs a = y
    generalize drives fuel false xs (a.withClock t' (k + (a.p.timesteps - (x.set s).p.timesteps)) e) = z
    intro this
    have hx : (x.set s).p.timesteps = s.p.timesteps := rfl
    cases y <;> cases z <;> try exact this
    obtain ⟨t2, h2⟩ := this
    refine ⟨t2, ?_⟩
    rw [h2, hx]
    congr 1
    omega

/-- C100, stand-alone: an Update that ends before the end time is the Update of the embedded model. -/
theorem C100_standalone (fuel : Nat) (s s' : State α) (hv : s.p.invalidSoil = false) (h : update fuel true s = .ok s')
    (hend : ¬ s'.p.endtimeS ≤ s'.p.timeS) : update fuel false s = .ok s' := by
  rcases update_inv h with ⟨hi, _⟩ | ⟨_, s1, d, v, u, h1, hm, hu, h2⟩
  · rw [hv] at hi; simp at hi
  have e1 : s'.p.timeS = u.timeS ∧ s'.p.endtimeS = s1.p.endtimeS := by
    obtain ⟨_, _, _, _, _, _, _, _, _, _, _, _, hp, _⟩ := updatePost_inv h2
    rw [hp]; exact ⟨rfl, rfl⟩
  rw [e1.1, e1.2] at hend
  have key : ∀ (n : Nat) (x : SubSt α), subLoop (stepCfg fuel true s1) n x = .ok u → subLoop (stepCfg fuel false s1) n x = .ok u := by
    intro n
    induction n with
    | zero => intro x hx; exact hx
    | succ n ih =>
      intro x hx
      unfold subLoop at hx ⊢
      have e : subStep (stepCfg fuel false s1) x = subStep (stepCfg fuel true s1) x := rfl
      rw [e]
      simp only [bind_ok_iff] at hx ⊢
      obtain ⟨y, hy, hx⟩ := hx
      refine ⟨y, hy, ?_⟩
      rw [if_neg (by simp [stepCfg])]
      split at hx
      · rename_i hc
        simp only [pure_eq_ok, Except.ok.injEq] at hx
        subst hx
        exact absurd hc.1 hend
      · exact ih y hx
  unfold LGAR.update
  rw [if_neg (by rw [hv]; simp)]
  simp only [bind_ok_iff, Prod.exists]
  exact ⟨s1, d, h1, v, hm, u, key _ _ hu, h2⟩

/-- C100, stand-alone: Updates none of which reaches the end time are those of the embedded model. -/
theorem C100_standalone_run (fuel : Nat) (s s' : State α) (xs : List (Drive α)) (hv : s.p.invalidSoil = false)
    (h : Driven fuel true s xs s') : drives fuel false xs s = .ok s' := by
  induction h with
  | nil => rfl
  | cons hu hend _ ih =>
    unfold drives
    simp only [bind_ok_iff]
    refine ⟨_, C100_standalone fuel _ _ hv hu (by simpa using hend), ih ?_⟩
    rw [(update_fixed hu).2.2.2.1]; exact hv

/-- Embedded Updates do not see the end time. -/
theorem drives_endtime (fuel : Nat) (xs : List (Drive α)) (s : State α) (e : α) :
    Both (fun a b => b = a.withClock a.p.timeS a.p.timesteps e)
      (drives fuel false xs s) (drives fuel false xs (s.withClock s.p.timeS s.p.timesteps e)) := by
  induction xs generalizing s with
  | nil => rfl
  | cons x xs ih =>
    unfold drives
    have := update_clockFree fuel false (x.set s) s.p.timeS e s.p.timesteps (R := fun a b => b = a) (fun _ _ _ h => by rw [h])
      (fun h => by simp at h) rfl
    refine Both.bind this fun a b _ _ hab => ?_
    obtain ⟨t', rfl, h1, h2⟩ := hab
    have e2 : s.p.timesteps + (a.p.timesteps - (x.set s).p.timesteps) = a.p.timesteps := by
      have : (x.set s).p.timesteps = s.p.timesteps := rfl
      omega
    rw [h1, e2]
    exact ih a

/-- C100 for the configuration: the model of an `endtime` other than the configured one does the same in every sequence of embedded
Updates. -/
theorem C100_endtime (env : Env α) (c : Cfg α) (e : Option α) (s0 t0 : State α) (h1 : lgarInit env c = .ok s0)
    (h2 : lgarInit env { c with endtime := e } = .ok t0) (fuel : Nat) (xs : List (Drive α)) :
    Both (fun a b => b = a.withClock a.p.timeS a.p.timesteps t0.p.endtimeS) (drives fuel false xs s0) (drives fuel false xs t0) := by
  obtain ⟨ts, file, fl, soils, cnt, thick, psi, dt, endt, wp, fc, res, o1, inv, giuh, soilZ, q, depth, vs, cs, a1, a2, a3, a4, a5,
    a6, a7, a8, a9, a10, a11, a12, a13, a14, a15, a16, a17, a18, a19, a20, a21, a22, a23, a24, e1⟩ := lgarInit_inv h1
  obtain ⟨ts', file', fl', soils', cnt', thick', psi', dt', endt', wp', fc', res', o1', inv', giuh', soilZ', q', depth', vs', cs', b1, b2,
    b3, b4, b5, b6, b7, b8, b9, b10, b11, b12, b13, b14, b15, b16, b17, b18, b19, b20, b21, b22, b23, b24, e2⟩ := lgarInit_inv h2
  simp only at b1 b2 b3 b4 b5 b6 b7 b8 b9 b10 b11 b12 b13 b14 b15 b16 b17 b18 b19 b20 b21 b22 b23 b24 e2
  rw [a1, Option.some.injEq] at b1; subst b1
  rw [a2, Option.some.injEq] at b2; subst b2
  rw [a4, Option.some.injEq] at b4; subst b4
  rw [a5, Except.ok.injEq, Prod.mk.injEq] at b5; obtain ⟨rfl, rfl⟩ := b5
  rw [a6, Option.some.injEq] at b6; subst b6
  rw [a7, Except.ok.injEq] at b7
  rw [a8, Option.some.injEq] at b8; subst b8
  rw [a9, Option.some.injEq] at b9; subst b9
  rw [a11, Option.some.injEq] at b11; subst b11
  rw [a12, Option.some.injEq] at b12; subst b12
  rw [a13, Option.some.injEq] at b13; subst b13
  rw [a14, Option.some.injEq] at b14; subst b14
  rw [a15, Except.ok.injEq] at b15; subst b15
  rw [a16, Except.ok.injEq] at b16; subst b16
  rw [a17, Option.some.injEq] at b17; subst b17
  rw [a18, Except.ok.injEq] at b18; subst b18
  rw [a19, Option.some.injEq] at b19; subst b19
  rw [b20, ← a20, a21, Except.ok.injEq] at b21
  rw [← b21, a22, Except.ok.injEq] at b22; subst b22
  rw [b20, ← a20, a24, Except.ok.injEq] at b24; subst b24
  have ht : t0 = s0.withClock s0.p.timeS s0.p.timesteps t0.p.endtimeS := by
    have e3 : t0.p.endtimeS = endt' := by rw [e2]
    rw [e3]
    have hh := b21.symm
    have hi := b7.symm
    rw [e2, hh, hi]
    rw [e1]
    rfl
  have := drives_endtime fuel xs s0 t0.p.endtimeS
  rw [← ht] at this
  exact this

end Free

section Exact
variable {K : Type} [Field K] [LinearOrder K] [IsStrictOrderedRing K] [CMath K] [LawfulNum K]

/-- C100, stand-alone or embedded: when time and end time are both shifted by `d`, Updates with the same inputs end with the same error or
with objects whose clock is shifted by `d`, and which are otherwise the same. -/
theorem C100_shift (fuel : Nat) (sa : Bool) (xs : List (Drive K)) (s : State K) (d : K) :
    Both (fun a b => b = a.withClock (a.p.timeS + d) a.p.timesteps (a.p.endtimeS + d))
      (drives fuel sa xs s) (drives fuel sa xs (s.withClock (s.p.timeS + d) s.p.timesteps (s.p.endtimeS + d))) := by
  induction xs generalizing s with
  | nil => rfl
  | cons x xs ih =>
    unfold drives
    have := update_clockFree fuel sa (x.set s) (s.p.timeS + d) (s.p.endtimeS + d) s.p.timesteps (R := fun a b => b = a + d)
      (fun a b c h => by rw [h]; ring) (fun _ a b h => by rw [h]; exact add_le_add_iff_right d) rfl
    refine Both.bind this fun a b _ _ hab => ?_
    obtain ⟨t', rfl, h1, h2⟩ := hab
    have e1 : s.p.endtimeS = a.p.endtimeS := h2.symm
    have e2 : s.p.timesteps + (a.p.timesteps - (x.set s).p.timesteps) = a.p.timesteps := by
      have : (x.set s).p.timesteps = s.p.timesteps := rfl
      omega
    rw [h1, e1, e2]
    exact ih a

end Exact
namespace ClockSample
open Sample

/-- Rain and evapotranspiration. -/
def hour (rain pet : Grid) : Drive Grid := ⟨rain, pet, [0], ⟨[], [], [], [], [], 0, 0⟩⟩

/-- The sample configuration (five hours) and the same with half an hour: embedded, stand-alone, and stand-alone with the clock and the end
time three hours later. -/
def four : Res ((State Grid × State Grid) × (State Grid × State Grid) × (State Grid × State Grid) × State Grid) := do
  let c ← readConfig env {} cfg
  let s0 ← lgarInit env c
  let t0 ← lgarInit env { c with endtime := some 1800 }
  let s ← drives 1000 false [hour 5 0, hour 0 1] s0
  let t ← drives 1000 false [hour 5 0, hour 0 1] t0
  let s1 ← update 1000 true ((hour 5 0).set s0)
  let t1 ← update 1000 true ((hour 5 0).set t0)
  let w ← drives 1000 true [hour 5 0, hour 0 1] (s0.withClock (s0.p.timeS + 10800) s0.p.timesteps (s0.p.endtimeS + 10800))
  .ok ((s0, t0), (s, t), (s1, t1), w)

/-- Test for the example below. -/
def FourTest (r : (State Grid × State Grid) × (State Grid × State Grid) × (State Grid × State Grid) × State Grid) : Prop :=
  r.1.1.p.invalidSoil = false ∧ r.1.1.p.endtimeS ≠ r.1.2.p.endtimeS ∧ 3 ≤ r.2.1.1.head.length ∧ 0 < r.2.1.1.mb.volAETT ∧
    r.2.1.2.p.timesteps = 4 ∧ ¬ r.2.2.1.1.p.endtimeS ≤ r.2.2.1.1.p.timeS ∧ r.2.2.1.1.p.timesteps = 2 ∧ r.2.2.1.2.p.timesteps = 1 ∧
    r.2.2.2.p.timeS = 18000

instance (r : (State Grid × State Grid) × (State Grid × State Grid) × (State Grid × State Grid) × State Grid) :
    Decidable (FourTest r) := by unfold FourTest; infer_instance

theorem four_check : okAnd four (fun r => decide (FourTest r)) = true := by decide +kernel

end ClockSample

open ClockSample Sample in
attribute [local irreducible] readConfig lgarInit drives update env cfg hour in
/-- C100_endtime, C100_standalone and C100_shift: a run with rain and evapotranspiration; the other end time does stop the stand-alone
model half-way through the first Update. -/
example : ∃ (env : Env Grid) (c : Cfg Grid) (e : Option Grid) (x : Drive Grid) (xs : List (Drive Grid)) (s0 t0 s t s1 t1 w : State Grid),
    lgarInit env c = .ok s0 ∧ lgarInit env { c with endtime := e } = .ok t0 ∧ s0.p.endtimeS ≠ t0.p.endtimeS ∧
      drives 1000 false xs s0 = .ok s ∧ drives 1000 false xs t0 = .ok t ∧ 3 ≤ s.head.length ∧ 0 < s.mb.volAETT ∧ t.p.timesteps = 4 ∧
      s0.p.invalidSoil = false ∧ update 1000 true (x.set s0) = .ok s1 ∧ ¬ s1.p.endtimeS ≤ s1.p.timeS ∧ s1.p.timesteps = 2 ∧
      update 1000 true (x.set t0) = .ok t1 ∧ t1.p.timesteps = 1 ∧
      drives 1000 true xs (s0.withClock (s0.p.timeS + 10800) s0.p.timesteps (s0.p.endtimeS + 10800)) = .ok w ∧ w.p.timeS = 18000 := by
  obtain ⟨r, hr, k1, k2, k3, k4, k5, k6, k7, k8, k9⟩ := okAnd_exists four_check
  unfold four at hr
  simp only [bind_ok_iff, Except.ok.injEq] at hr
  obtain ⟨c, _, s0, h1, t0, h2, s, h3, t, h4, s1, h5, t1, h6, w, h7, rfl⟩ := hr
  exact ⟨_, c, _, _, _, s0, t0, s, t, s1, t1, w, h1, h2, k2, h3, h4, k3, k4, k5, k1, h5, k6, k7, h6, k8, h7, k9⟩

end LGAR
