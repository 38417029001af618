import Verif.Lemmas.Restart
import Verif.Lemmas.FinishRun
import Verif.Props.Twin
/-
C92: the soil does not notice the routing and the books, so a run can be resumed from the fronts and the water on the surface.
-/
namespace LGAR

section Free
variable {α : Type} [Add α] [Sub α] [Mul α] [Div α] [Neg α] [Zero α] [One α] [OfScientific α]
  [LT α] [LE α] [DecidableLT α] [DecidableLE α] [BEq α] [CMath α]

/-- C92, any arithmetic: from two objects with the same fronts, soils, parameters, inputs and surface water, whatever their routing,
books, outputs and old fronts are, any Updates with the same inputs end with the same error or with objects that agree in the same
places; after at least one of them the water moved in the last one is the same too. -/
theorem C92_resume {s t : State α} (h : SameSoil s t) (hv : s.p.invalidSoil = false) (hs : Routable s) (ht : Routable t)
    (fuel : Nat) (sa : Bool) (xs : List (Drive α)) :
    Both (fun s' t' => SameSoil s' t' ∧ (xs ≠ [] → SameFluxes s' t') ∧ Routable s' ∧ Routable t') (drives fuel sa xs s)
      (drives fuel sa xs t) := by
  suffices H : ∀ s t : State α, SameSoil s t → s.p.invalidSoil = false → Routable s → Routable t →
      Both (fun s' t' => SameSoil s' t' ∧ (SameFluxes s t ∨ xs ≠ [] → SameFluxes s' t') ∧ Routable s' ∧ Routable t')
        (drives fuel sa xs s) (drives fuel sa xs t) by
    have := H s t h hv hs ht
    revert this
    generalize drives fuel sa xs s = x
    generalize drives fuel sa xs t = y
    intro this
    cases x <;> cases y <;> first | exact this | exact ⟨this.1, fun h => this.2.1 (.inr h), this.2.2⟩
  induction xs with
  | nil =>
    intro s t h hv hs ht
    exact ⟨h, fun k => k.resolve_right (by simp), hs, ht⟩
  | cons x xs ih =>
    intro s t h hv hs ht
    unfold drives
    have hx : SameSoil (x.set s) (x.set t) := by
      unfold Drive.set
      exact ⟨h.head, h.soils, by rw [h.p], rfl, rfl, rfl, h.pond⟩
    refine Both.bind (hx.update hv hs ht fuel sa) fun s' t' _ _ hst => ?_
    obtain ⟨k1, k2, k3, k4, k5⟩ := hst
    have := ih s' t' k1 k5 k3 k4
    revert this
    generalize drives fuel sa xs s' = x
    generalize drives fuel sa xs t' = y
    intro this
    cases x <;> cases y <;> first | exact this | exact ⟨this.1, fun _ => this.2.1 (.inl k2), this.2.2⟩

/-- The books set back and the queue emptied. -/
def cleared (s : State α) (m : MassVars α) : State α :=
  { s with prev := [], mb := { m with volonT := s.mb.volonT }, giuhQueue := s.giuhQueue.map fun _ => 0 }

/-- C92: a run continued with its books set back to any values, the routing queue emptied and the old fronts dropped gives the same fronts
and moves the same water as the run itself. -/
theorem C92_checkpoint (s : State α) (m : MassVars α) (hv : s.p.invalidSoil = false) (hs : Routable s) (fuel : Nat) (sa : Bool)
    (xs : List (Drive α)) :
    Both (fun s' t' => t'.head = s'.head ∧ t'.p = s'.p ∧ t'.mb.volonT = s'.mb.volonT ∧ (xs ≠ [] → SameFluxes s' t'))
      (drives fuel sa xs s) (drives fuel sa xs (cleared s m)) := by
  have ht : Routable (cleared s m) := ⟨hs.1, hs.2.1, by unfold cleared; simpa using hs.2.2⟩
  have := C92_resume (s := s) (t := cleared s m) ⟨rfl, rfl, rfl, rfl, rfl, rfl, rfl⟩ hv hs ht fuel sa xs
  revert this
  generalize drives fuel sa xs s = x
  generalize drives fuel sa xs (cleared s m) = y
  intro this
  cases x <;> cases y <;> first | exact this | exact ⟨this.1.head, this.1.p, this.1.pond, this.2.1⟩

/-- C92 for the configuration: two configurations that differ only in the GIUH ordinates.  If Initialize accepts both and neither
resampled ordinate array is empty, every sequence of Updates ends with the same error, or with the same fronts, clock and water
moved. -/
theorem C92_giuh (env : Env α) (c : Cfg α) (ords : Option (List α)) (s0 t0 : State α) (h1 : lgarInit env c = .ok s0)
    (h2 : lgarInit env { c with giuh := ords } = .ok t0) (hs : s0.giuhOrd ≠ []) (ht : t0.giuhOrd ≠ []) (fuel : Nat) (sa : Bool)
    (xs : List (Drive α)) :
    Both (fun s t => t.head = s.head ∧ t.p = s.p ∧ t.mb.volonT = s.mb.volonT ∧ (xs ≠ [] → SameFluxes s t))
      (drives fuel sa xs s0) (drives fuel sa xs t0) := by
  have hv := lgarInit_valid h1
  obtain ⟨ts, file, fl, soils, cnt, thick, psi, dt, endt, wp, fc, res, o1, inv, giuh, soilZ, q, depth, vs, cs, a1, a2, a3, a4, a5,
    a6, a7, a8, a9, a10, a11, a12, a13, a14, a15, a16, a17, a18, a19, a20, a21, a22, a23, a24, e1⟩ := lgarInit_inv h1
  obtain ⟨ts', file', fl', soils', cnt', thick', psi', dt', endt', wp', fc', res', o1', inv', giuh', soilZ', q', depth', vs', cs', b1, b2,
    b3, b4, b5, b6, b7, b8, b9, b10, b11, b12, b13, b14, b15, b16, b17, b18, b19, b20, b21, b22, b23, b24, e2⟩ := lgarInit_inv h2
  simp only at b1 b2 b3 b4 b5 b6 b7 b8 b9 b10 b11 b12 b13 b14 b15 b16 b17 b18 b19 b20 b21 b22 b23 b24 e2
  rw [a1, Option.some.injEq] at b1; subst b1
  rw [a2, Option.some.injEq] at b2; subst b2
  rw [a4, Option.some.injEq] at b4; subst b4
  rw [a5, Except.ok.injEq, Prod.mk.injEq] at b5; obtain ⟨rfl, rfl⟩ := b5
  rw [a6, Option.some.injEq] at b6; subst b6
  rw [a7, Except.ok.injEq] at b7
  rw [a8, Option.some.injEq] at b8; subst b8
  rw [a9, Option.some.injEq] at b9; subst b9
  rw [a10, Option.some.injEq] at b10; subst b10
  rw [a11, Option.some.injEq] at b11; subst b11
  rw [a12, Option.some.injEq] at b12; subst b12
  rw [a13, Option.some.injEq] at b13; subst b13
  rw [a17, Option.some.injEq] at b17; subst b17
  rw [a18, Except.ok.injEq] at b18; subst b18
  rw [a19, Option.some.injEq] at b19; subst b19
  rw [b20, ← a20, a21, Except.ok.injEq] at b21
  rw [b20, ← a20, a24, Except.ok.injEq] at b24; subst b24
  have hh : t0.head = s0.head := b21.symm
  have hsame : SameSoil s0 t0 := by
    rw [e1, e2]
    refine ⟨hh, rfl, ?_, rfl, rfl, rfl, rfl⟩
    simp only [hh, b7]
  have r1 : Routable s0 := by rw [e1] at hs ⊢; exact ⟨hs, rfl, by simp⟩
  have r2 : Routable t0 := by rw [e2] at ht ⊢; exact ⟨ht, rfl, by simp⟩
  have := C92_resume hsame hv r1 r2 fuel sa xs
  revert this
  generalize drives fuel sa xs s0 = x
  generalize drives fuel sa xs t0 = y
  intro this
  cases x <;> cases y <;> first | exact this | exact ⟨this.1.head, this.1.p, this.1.pond, this.2.1⟩

end Free

namespace RestartSample
open Sample

/-- Rain and evapotranspiration. -/
def wet (rain pet : Grid) : Drive Grid := ⟨rain, pet, [0], ⟨[], [], [], [], [], 0, 0⟩⟩

/-- The sample configuration and the same with other GIUH ordinates, initialised and driven by the same inputs. -/
def pair (ords : Option (List Grid)) (xs : List (Drive Grid)) : Res ((State Grid × State Grid) × (State Grid × State Grid)) := do
  let c ← readConfig env {} cfg
  let s0 ← lgarInit env c
  let t0 ← lgarInit env { c with giuh := ords }
  let s ← drives 1000 true xs s0
  let t ← drives 1000 true xs t0
  .ok ((s0, t0), (s, t))

/-- Test for the example below. -/
def PairTest (r : (State Grid × State Grid) × (State Grid × State Grid)) : Prop :=
  r.1.1.giuhOrd ≠ [] ∧ r.1.2.giuhOrd ≠ [] ∧ r.2.1.mb.volQ ≠ r.2.2.mb.volQ ∧ 0 < r.2.1.mb.volrunoff ∧ 0 < r.2.1.mb.volAETT ∧
    2 ≤ r.2.1.head.length

instance (r : (State Grid × State Grid) × (State Grid × State Grid)) : Decidable (PairTest r) := by unfold PairTest; infer_instance

theorem pair_check : okAnd (pair (some [1/5, 3/10, 1/2]) [wet 100 1]) (fun r => decide (PairTest r)) = true := by decide +kernel

end RestartSample

open RestartSample Sample in
attribute [local irreducible] readConfig lgarInit drives env cfg wet in
/-- C92_giuh: a run with runoff and evapotranspiration in which the other ordinates give another discharge. -/
example : ∃ (env : Env Grid) (c : Cfg Grid) (ords : Option (List Grid)) (xs : List (Drive Grid)) (s0 t0 s t : State Grid),
    lgarInit env c = .ok s0 ∧ lgarInit env { c with giuh := ords } = .ok t0 ∧ s0.giuhOrd ≠ [] ∧ t0.giuhOrd ≠ [] ∧
      drives 1000 true xs s0 = .ok s ∧ drives 1000 true xs t0 = .ok t ∧ s.mb.volQ ≠ t.mb.volQ ∧ 0 < s.mb.volrunoff ∧
      0 < s.mb.volAETT ∧ 2 ≤ s.head.length := by
  obtain ⟨r, hr, k1, k2, k3, k4, k5, k6⟩ := okAnd_exists pair_check
  unfold pair at hr
  simp only [bind_ok_iff, Except.ok.injEq] at hr
  obtain ⟨c, _, s0, h1, t0, h2, s, h3, t, h4, rfl⟩ := hr
  exact ⟨_, c, _, _, s0, t0, s, t, h1, h2, k1, k2, h3, h4, k3, k4, k5, k6⟩

namespace RestartSample
open Sample

/-- The sample run, and the same run with its books set back after the first Update. -/
def cut (m : MassVars Grid) (x : Drive Grid) (xs : List (Drive Grid)) : Res (State Grid × State Grid × State Grid) := do
  let s0 ← bmiInitialize env cfg
  let s1 ← update 1000 true (x.set s0)
  let s ← drives 1000 true xs s1
  let t ← drives 1000 true xs (cleared s1 m)
  .ok (s1, s, t)

/-- Books filled with ones. -/
def ones : MassVars Grid := ⟨1, 1, 1, 1, 1, 1, 1, 1, 1, 1, 1, 1, 1, 1, 1, 1, 1, 1, 1, 1, 1, 1, 1, 1, 1⟩

/-- Test for the example below. -/
def CutTest (r : State Grid × State Grid × State Grid) : Prop :=
  r.1.p.invalidSoil = false ∧ (r.1.giuhOrd ≠ [] ∧ r.1.numGiuh = r.1.giuhOrd.length ∧ r.1.giuhQueue.length = r.1.giuhOrd.length + 1) ∧
    r.2.1.mb.volprecip ≠ r.2.2.mb.volprecip ∧ 0 < r.2.1.mb.volAETT

instance (r : State Grid × State Grid × State Grid) : Decidable (CutTest r) := by unfold CutTest; infer_instance

theorem cut_check : okAnd (cut ones (wet 5 0) [wet 0 1]) (fun r => decide (CutTest r)) = true := by
  decide +kernel

end RestartSample

open RestartSample Sample in
attribute [local irreducible] bmiInitialize update drives env cfg wet in
/-- C92_checkpoint: rain, the books set back, then evapotranspiration. -/
example : ∃ (s s' t' : State Grid) (m : MassVars Grid) (xs : List (Drive Grid)), s.p.invalidSoil = false ∧ Routable s ∧
    drives 1000 true xs s = .ok s' ∧ drives 1000 true xs (cleared s m) = .ok t' ∧ s'.mb.volprecip ≠ t'.mb.volprecip ∧
    0 < s'.mb.volAETT := by
  obtain ⟨r, hr, k1, k2, k3, k4⟩ := okAnd_exists cut_check
  unfold cut at hr
  simp only [bind_ok_iff, Except.ok.injEq] at hr
  obtain ⟨s0, _, s1, _, s, h3, t, h4, rfl⟩ := hr
  exact ⟨s1, s, t, ones, _, k1, k2, h3, h4, k3, k4⟩

end LGAR
