import Verif.Props.Safety
/-
Runs with ordinary configurations that the program does not survive: an out-of-range read (C16) and a stop by the program's own
mass-balance check (C64).
-/
namespace LGAR
namespace Stops

/-- Configuration of two layers with one-hour sub-timesteps. -/
def cfg (thick soils psi : String) : List (List Char) :=
  [("layer_thickness=" ++ thick ++ "[cm]").toList, ("layer_soil_type=" ++ soils).toList, "soil_params_file=x".toList,
   "max_valid_soil_types=2".toList, ("initial_psi=" ++ psi ++ "[cm]").toList, "timestep=60[min]".toList, "endtime=50[hr]".toList,
   "forcing_resolution=60[min]".toList, "ponded_depth_max=0[cm]".toList, "use_closed_form_G=true".toList,
   "wilting_point_psi=15495.0[cm]".toList, "field_capacity_psi=340.9[cm]".toList, "giuh_ordinates=0.7,0.3".toList]

/-- The Updates with the given inputs, all of them tie free. -/
def tfSteps (fuel : Nat) (sa : Bool) : List (Grid × Grid) → State Grid → Res (State Grid)
  | [], s => .ok s
  | x :: xs, s =>
    if UpdateTieFree fuel sa (Sample.feed x s) then update fuel sa (Sample.feed x s) >>= tfSteps fuel sa xs
    else .error .fuel

theorem tfSteps_run {fuel : Nat} {sa : Bool} {s0 t : State Grid} : ∀ {xs : List (Grid × Grid)} {s : State Grid}
    {h : List (State Grid)}, TieFreeRun s0 h s → tfSteps fuel sa xs s = .ok t →
    ∃ h', TieFreeRun s0 h' t ∧ h'.length = h.length + xs.length
  | [], s, h, hr, he => by
    simp only [tfSteps, Except.ok.injEq] at he
    subst he; exact ⟨h, hr, by simp⟩
  | x :: xs, s, h, hr, he => by
    simp only [tfSteps] at he
    split at he
    case isFalse => simp at he
    case isTrue ht =>
      obtain ⟨s', hu, hv⟩ := bind_ok_iff.mp he
      obtain ⟨h', hr', hl⟩ := tfSteps_run (hr.step ⟨x.1, x.2, s.p.soilTemp, s.calib, rfl⟩ ht hu) hv
      exact ⟨h', hr', by simp only [List.length_append, List.length_cons, List.length_nil] at hl ⊢; omega⟩

/-- Environment in which the text `T` denotes the given thickness. -/
def envT (thick : Grid) : Env Grid :=
  { Sample.env with stod := fun s => if s = ['T'] then some thick else Sample.env.stod s }

/-- Inputs (mm/h of rain): a light shower, an hour without rain, a heavy shower. -/
def showers : List (Grid × Grid) := [(5, 0), (0, 0), (60, 0)]

/-- Depth of the second front of layer 1 one hour after the showers, computed with a thick layer 1. -/
def tieDepth : Grid :=
  match bmiInitialize (envT 100) (cfg "T,20" "1,2" "100") >>= tfSteps 1000 true showers with
  | .ok s => match s.head[1]? with
    | some f => f.depth + f.dzdt * s.p.timestepH
    | none => 0
  | .error _ => 0

/-- The result is undefined behaviour. -/
def isUb {β : Type} (x : Res β) : Bool :=
  match x with
  | .error (.ub _) => true
  | _ => false

theorem isUb_exists {β : Type} {x : Res β} (h : isUb x = true) : ∃ why, x = .error (.ub why) := by
  unfold isUb at h
  split at h
  · exact ⟨_, rfl⟩
  · simp at h

/-- Test for C16_run_fails. -/
def ReadTest (s0 s : State Grid) : Prop :=
  PhysTest s0.geo ∧ 0 ≤ s0.p.initialPsi ∧ s0.p.cum.Pairwise (· < ·) ∧ s0.giuhOrd ≠ [] ∧ s.p.sftCoupled = false ∧
    s.p.calibFlag = false ∧ isUb (update 1000 true (Sample.feed (0, 0) s)) = true

instance (s0 s : State Grid) : Decidable (ReadTest s0 s) := by unfold ReadTest; infer_instance

theorem read_check : Sample.okAnd (bmiInitialize (envT tieDepth) (cfg "T,20" "1,2" "100"))
    (fun s0 => Sample.okAnd (tfSteps 1000 true showers s0) fun s => decide (ReadTest s0 s)) = true := by
  decide +kernel

/-- Environment with a coarse sand (alpha 0.1 per cm, n = 2) as soil 1. -/
def envSand : Env Grid :=
  { Sample.env with files := fun _ => some ["name thr the alpha n Ks".toList, "sand 0.05 0.45 0.1 2 1.5".toList,
    "loam 0.1 0.4 0.01 2 0.5".toList] }

/-- The program's stop when a sub-timestep does not balance, bmi_lgar.cxx 454-475. -/
def stopped : Err := .abort "local mass balance larger than expected"

/-- The result is that stop. -/
def isStopped {β : Type} (x : Res β) : Bool :=
  match x with
  | .error e => decide (e = stopped)
  | .ok _ => false

theorem isStopped_eq {β : Type} {x : Res β} (h : isStopped x = true) : x = .error stopped := by
  unfold isStopped at h
  split at h
  · rw [decide_eq_true_iff] at h; rw [h]
  · simp at h

/-- Test for C64_fails. -/
def SandTest (s0 s : State Grid) : Prop :=
  PhysTest s0.geo ∧ 0 ≤ s0.p.initialPsi ∧ s0.p.cum.Pairwise (· < ·) ∧ s0.p.calibFlag = false ∧
    s.p.sftCoupled = false ∧ s.p.calibFlag = false ∧ UpdateTieFree 1000 true (Sample.feed (60, 0) s) ∧
    isStopped (update 1000 true (Sample.feed (60, 0) s)) = true

instance (s0 s : State Grid) : Decidable (SandTest s0 s) := by unfold SandTest; infer_instance

theorem sand_check : Sample.okAnd (bmiInitialize envSand (cfg "5,40" "1,1" "50"))
    (fun s0 => Sample.okAnd (tfSteps 1000 true [(60, 0), (60, 0)] s0) fun s => decide (SandTest s0 s)) = true := by
  decide +kernel

end Stops

theorem Sample.okAnd_get {β : Type} {x : Res β} {p : β → Bool} (h : Sample.okAnd x p = true) : ∃ a, x = .ok a ∧ p a = true := by
  cases x with
  | ok a => exact ⟨a, rfl, h⟩
  | error e => simp [Sample.okAnd] at h

open Stops in
attribute [local irreducible] envT cfg tieDepth bmiInitialize update tfSteps in
/-- C16 over whole runs is false without the tie condition of C16_run_partial: with physically meaningful soils and layers of
positive thickness there is a run of three tie-free Updates after which an Update without rain or ET reads outside an array.  In
that Update a slow front ends its move exactly at the bottom of layer 1 and a faster one overshoots it; the crossing pass
takes the slow front for the one flagged as touching the bottom and leaves the layers in the order 1, 2, 1, 2, so the
number of the free-drainage front (4) is used as an index of the array of layer soils (lgar.cxx 1331). -/
theorem C16_run_fails : ∃ (env : Env Grid) (lines : List (List Char)) (s0 s s1 : State Grid) (hist : List (State Grid)) (why : String),
    bmiInitialize env lines = .ok s0 ∧ PhysGeo s0.geo ∧ 0 ≤ s0.p.initialPsi ∧ s0.p.cum.Pairwise (· < ·) ∧ s0.giuhOrd ≠ [] ∧
      TieFreeRun s0 hist s ∧ hist.length = 3 ∧ Inputs s s1 ∧ InputsFit s1 ∧ update 1000 true s1 = .error (.ub why) := by
  obtain ⟨s0, h0, h1⟩ := Sample.okAnd_get read_check
  obtain ⟨s, hs, t1, t2, t3, t4, t5, t6, t7⟩ := Sample.okAnd_exists h1
  obtain ⟨hist, hr, hl⟩ := tfSteps_run .nil hs
  obtain ⟨why, hw⟩ := isUb_exists t7
  exact ⟨_, _, s0, s, Sample.feed (0, 0) s, hist, why, h0, t1.phys, t2, t3, t4, hr, hl, ⟨_, _, _, _, rfl⟩,
    ⟨fun h => absurd (t5.symm.trans h) (by simp), fun h => absurd (t6.symm.trans h) (by simp)⟩, hw⟩

open Stops in
attribute [local irreducible] envSand cfg bmiInitialize update tfSteps in
/-- C64 is false: two layers of the same coarse sand with n = 2, steady rain of 60 mm/h.  The first two Updates return, the
third is stopped by the mass-balance check.  The saturated front of layer 2 has head 0; lgar_theta_mass_balance lowers the head
below 0, where `pow` with an even exponent gives a moisture below saturation (with a non-integral n it gives NaN, which the
caller turns into saturation), so the excess water is not turned into depth (lgar.cxx 1340) and is missing in the balance. -/
theorem C64_fails : ∃ (env : Env Grid) (lines : List (List Char)) (s0 s s1 : State Grid) (hist : List (State Grid)),
    bmiInitialize env lines = .ok s0 ∧ PhysGeo s0.geo ∧ 0 ≤ s0.p.initialPsi ∧ s0.p.cum.Pairwise (· < ·) ∧
      s0.p.calibFlag = false ∧ TieFreeRun s0 hist s ∧ hist.length = 2 ∧ Inputs s s1 ∧ InputsFit s1 ∧
      UpdateTieFree 1000 true s1 ∧ update 1000 true s1 = .error (.abort "local mass balance larger than expected") := by
  obtain ⟨s0, h0, h1⟩ := Sample.okAnd_get sand_check
  obtain ⟨s, hs, t1, t2, t3, t4, t5, t6, t7, t8⟩ := Sample.okAnd_exists h1
  obtain ⟨hist, hr, hl⟩ := tfSteps_run .nil hs
  exact ⟨_, _, s0, s, Sample.feed (60, 0) s, hist, h0, t1.phys, t2, t3, t4, hr, hl, ⟨_, _, _, _, rfl⟩,
    ⟨fun h => absurd (t5.symm.trans h) (by simp), fun h => absurd (t6.symm.trans h) (by simp)⟩, t7, isStopped_eq t8⟩

end LGAR
