import Verif.Num.Grid
import Verif.Spec.Samples
import Verif.Spec.Run
/-
A small configuration that is initialised and run by the kernel, for the examples beside run-level theorems: two layers of 10
and 20 cm with soils 1 and 2, two sub-timesteps of 30 min per Update.
-/
namespace LGAR.Sample

/-- Soil file with a header and two soils. -/
def soilLines : List (List Char) :=
  ["name thr the alpha n Ks".toList, "sand 0.05 0.45 0.02 2 1.5".toList, "loam 0.1 0.4 0.01 2 0.5".toList]

/-- Environment: decimal numbers, the soil file above. -/
def env : Env Grid :=
  { stod := fun s => (Grid.scan s).map (fun x => x.1), stoi := fun s => (Grid.scan s).map (fun x => CMath.toInt x.1),
    scanF := Grid.scan, files := fun _ => some soilLines, junk := 0, junkRec := ⟨[], 0, 0, 0, 0, 0⟩,
    junkSoil := ⟨0, 0, 0, 0, 0, 0, 0, 0, 0, 0⟩, junkConv := ⟨0, 0, 0, 0, 0, 0, 0, 0, 0, 0, 0⟩,
    junkMb := ⟨0, 0, 0, 0, 0, 0, 0, 0, 0, 0, 0, 0, 0, 0, 0, 0, 0, 0, 0, 0, 0, 0, 0, 0, 7⟩ }

/-- Configuration file. -/
def cfg : List (List Char) :=
  ["layer_thickness=10,20[cm]".toList, "layer_soil_type=1,2".toList, "soil_params_file=x".toList,
   "max_valid_soil_types=2".toList, "initial_psi=100[cm]".toList, "timestep=30[min]".toList, "endtime=5[hr]".toList,
   "forcing_resolution=60[min]".toList, "ponded_depth_max=2[cm]".toList, "use_closed_form_G=true".toList,
   "wilting_point_psi=15495.0[cm]".toList, "field_capacity_psi=340.9[cm]".toList, "giuh_ordinates=0.7,0.3".toList]

/-- Precipitation and PET (mm/h) set before an Update. -/
def feed (x : Grid × Grid) (s : State Grid) : State Grid := { s with precipMm := x.1, petMm := x.2 }

/-- The states after each of the Updates with the given inputs. -/
def steps (fuel : Nat) (sa : Bool) : List (Grid × Grid) → State Grid → Res (List (State Grid))
  | [], _ => .ok []
  | x :: xs, s => do
    let s' ← update fuel sa (feed x s)
    let r ← steps fuel sa xs s'
    .ok (s' :: r)

theorem steps_run {fuel : Nat} {sa : Bool} {s0 : State Grid} : ∀ {xs : List (Grid × Grid)} {s : State Grid}
    {h r : List (State Grid)}, RunAs sa s0 h s → steps fuel sa xs s = .ok r →
    RunAs sa s0 (h ++ r) (r.getLast?.getD s)
  | [], s, h, r, hr, he => by
    simp only [steps, Except.ok.injEq] at he
    subst he; simpa using hr
  | x :: xs, s, h, r, hr, he => by
    simp only [steps] at he
    cases hu : update fuel sa (feed x s) with
    | error e => simp [bind, Except.bind, hu] at he
    | ok s' =>
      cases hv : steps fuel sa xs s' with
      | error e => simp [bind, Except.bind, hu, hv] at he
      | ok r' =>
        simp only [bind, Except.bind, hu, hv, Except.ok.injEq] at he
        subst he
        have := steps_run (RunAs.step hr ⟨x.1, x.2, s.p.soilTemp, s.calib, rfl⟩ hu) hv
        rw [List.append_assoc] at this
        have e : (r'.getLast?.getD s') = ((s' :: r').getLast?.getD s) := by
          rw [List.getLast?_cons]; rfl
        rw [e] at this
        exact this

/-- Initialize, then Updates with the given inputs. -/
def play (cfg : List (List Char)) (fuel : Nat) (sa : Bool) (xs : List (Grid × Grid)) : Res (State Grid × List (State Grid)) := do
  let s0 ← bmiInitialize env cfg
  let r ← steps fuel sa xs s0
  .ok (s0, r)

/-- A kernel-checked run from Initialize. -/
theorem play_run {cfg : List (List Char)} {fuel : Nat} {sa : Bool} {xs : List (Grid × Grid)}
    {p : State Grid × List (State Grid) → Prop} [DecidablePred p]
    (h : okAnd (play cfg fuel sa xs) (fun a => decide (p a)) = true) :
    ∃ s0 hist s, bmiInitialize env cfg = .ok s0 ∧ RunAs sa s0 hist s ∧ p (s0, hist) ∧ s = hist.getLast?.getD s0 := by
  obtain ⟨⟨s0, r⟩, he, hp⟩ := okAnd_exists h
  unfold play at he
  cases hi : bmiInitialize env cfg with
  | error e => rw [hi] at he; simp [bind, Except.bind] at he
  | ok s =>
    rw [hi] at he
    cases hv : steps fuel sa xs s with
    | error e => simp only [bind, Except.bind, hv] at he; simp at he
    | ok r' =>
      simp only [bind, Except.bind, hv, Except.ok.injEq, Prod.mk.injEq] at he
      obtain ⟨rfl, rfl⟩ := he
      refine ⟨s, r', _, rfl, ?_, hp, rfl⟩
      simpa using steps_run RunAs.nil hv

/-- Test for the run below. -/
def Test2 (a : State Grid × List (State Grid)) : Prop :=
  a.2.length = 2 ∧ (∀ x ∈ a.2, 0 ≤ x.p.pondMax) ∧
    ∀ x ∈ a.2.drop 1, x.p.timesteps = 4 ∧ x.mb.volprecip = 1/2 ∧ 0 < x.mb.volAET ∧ x.head.length = 3 ∧ x.p.invalidSoil = false

instance : DecidablePred Test2 := fun a => by unfold Test2; infer_instance

theorem run2_check : okAnd (play cfg 1000 true [(5, 0), (0, 1)]) (fun a => decide (Test2 a)) = true := by decide +kernel

theorem last1 {β : Type} {l : List β} {x : β} (h : l.length = 1) : l.getLast?.getD x ∈ l := by
  match l, h with
  | [a], _ => simp

theorem last2 {β : Type} {l : List β} {x : β} (h : l.length = 2) : l.getLast?.getD x ∈ l ∧ l.getLast?.getD x ∈ l.drop 1 := by
  match l, h with
  | [a, b], _ => exact ⟨by simp, by simp⟩

attribute [local irreducible] env cfg play bmiInitialize in
/-- Two Updates: rain of 5 mm/h, then PET of 1 mm/h.  Three fronts, ET in the second one. -/
theorem run2 : ∃ s0 hist s, bmiInitialize env cfg = .ok s0 ∧ Run s0 hist s ∧ hist.length = 2 ∧ s ∈ hist ∧
    (∀ x ∈ hist, 0 ≤ x.p.pondMax) ∧ s.p.timesteps = 4 ∧ s.mb.volprecip = 1/2 ∧ 0 < s.mb.volAET ∧
    s.head.length = 3 ∧ s.p.invalidSoil = false := by
  obtain ⟨s0, hist, s, h1, h2, ⟨l1, l2, l3⟩, rfl⟩ := play_run run2_check
  obtain ⟨m1, m2⟩ := last2 (x := s0) l1
  exact ⟨s0, hist, _, h1, h2.run, l1, m1, l2, l3 _ m2⟩

end LGAR.Sample
