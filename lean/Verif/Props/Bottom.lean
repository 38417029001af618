import Verif.Spec.SampleDbl
import Verif.Spec.Run
import Verif.Props.Stops
import Verif.Props.Curve
/-
C65, C91: a saturated first front may lie below the bottom of a column of one layer.
-/
namespace LGAR

namespace SampleDbl
open Dbl
open Sample (okAnd okAnd_exists)

/-- Environment with a sand of n = 2. -/
def envSand : Env Dbl :=
  { SampleDbl.env with files := fun _ => some ["name thr the alpha n Ks".toList, "sand 0.05 0.45 0.02 2 5".toList] }

/-- One layer of 35 cm, hourly steps, no ponding. -/
def cfgSand : List (List Char) :=
  ["layer_thickness=35[cm]".toList, "layer_soil_type=1".toList, "soil_params_file=x".toList,
   "max_valid_soil_types=1".toList, "initial_psi=300[cm]".toList, "timestep=60[min]".toList, "endtime=50[hr]".toList,
   "forcing_resolution=60[min]".toList, "ponded_depth_max=0[cm]".toList, "use_closed_form_G=true".toList,
   "wilting_point_psi=15495.0[cm]".toList, "field_capacity_psi=340.9[cm]".toList, "giuh_ordinates=0.7,0.3".toList]

/-- Updates with the given rain (mm/h) and no PET. -/
def rains (fuel : Nat) : List Dbl → State Dbl → Res (State Dbl)
  | [], s => .ok s
  | x :: xs, s => do
    let s' ← update fuel true (feed (x, 0) s)
    rains fuel xs s'

theorem rains_run {fuel : Nat} {s0 : State Dbl} : ∀ {xs : List Dbl} {s t : State Dbl} {h : List (State Dbl)}, RunAs true s0 h s →
    rains fuel xs s = .ok t → ∃ h', RunAs true s0 (h ++ h') t ∧ h'.length = xs.length
  | [], s, t, h, hr, he => by
    simp only [rains, Except.ok.injEq] at he
    subst he; exact ⟨[], by simpa using hr, rfl⟩
  | x :: xs, s, t, h, hr, he => by
    simp only [rains] at he
    cases hu : update fuel true (feed (x, 0) s) with
    | error e => simp [bind, Except.bind, hu] at he
    | ok s' =>
      simp only [bind, Except.bind, hu] at he
      obtain ⟨h', h1, h2⟩ := rains_run (RunAs.step hr ⟨x, 0, s.p.soilTemp, s.calib, rfl⟩ hu) he
      exact ⟨s' :: h', by simpa using h1, by simp [h2]⟩

/-- Test for C65_bottom_fails. -/
def BottomTest (s0 s : State Dbl) : Prop :=
  s0.p.numLayers = 1 ∧ s0.p.calibFlag = false ∧ s0.p.invalidSoil = false ∧ toRat s0.p.pondMax = 0 ∧
    (s0.p.cum[1]?).map toRat = some 35 ∧ s.head.length = 3 ∧
    match s.head.head?, s0.geo.soil 1 with
    | some f, .ok so => 35 + 1 / 100 < toRat f.depth ∧ toRat f.theta = toRat so.thetaE
    | _, _ => False

instance (s0 s : State Dbl) : Decidable (BottomTest s0 s) := by
  unfold BottomTest
  split <;> infer_instance

theorem bottom_check : okAnd (bmiInitialize envSand cfgSand)
    (fun s0 => okAnd (rains 1200 [ofRat 1, 0, ofRat 1, 0, ofRat 2, 0, ofRat 60, ofRat 60] s0) fun s => decide (BottomTest s0 s)) = true := by
  decide +kernel

end SampleDbl

open SampleDbl Dbl in
attribute [local irreducible] envSand cfgSand bmiInitialize update rains in
/-- C65, C91: the exception of C65_single_layer_partial and C91_single_layer_partial occurs.  In arithmetic that rounds to 53 bits, a
run of eight hourly Updates (rain of 1, 0, 1, 0, 2, 0, 60 and 60 mm) of a sand column of 35 cm ends with a saturated first front that
lies more than 0.1 mm below the bottom of the column, above two others that do not.  The mass correction (lgar.cxx 1352-1398) deepens
a saturated first front until the storage is as wanted, without regard to the bottom. -/
theorem C65_bottom_fails : ∃ (env : Env Dbl) (lines : List (List Char)) (s0 s : State Dbl) (hist : List (State Dbl)) (so : SoilProps Dbl)
    (column : Dbl) (first : Front Dbl),
    bmiInitialize env lines = .ok s0 ∧ s0.p.numLayers = 1 ∧ s0.p.calibFlag = false ∧ s0.p.invalidSoil = false ∧
      toRat s0.p.pondMax = 0 ∧ s0.geo.soil 1 = .ok so ∧ s0.p.cum[1]? = some column ∧ RunAs true s0 hist s ∧ hist.length = 8 ∧
      s.head.head? = some first ∧ s.head.length = 3 ∧ toRat column + 1 / 100 < toRat first.depth ∧
      toRat first.theta = toRat so.thetaE := by
  obtain ⟨s0, h0, h1⟩ := Sample.okAnd_get SampleDbl.bottom_check
  obtain ⟨s, hs, t1, t2, t3, t4, t5, t6, t7⟩ := Sample.okAnd_exists h1
  obtain ⟨hist, hr, hl⟩ := rains_run .nil hs
  obtain ⟨column, hc, e⟩ := Option.map_eq_some_iff.mp t5
  split at t7
  · rename_i f so hf hso
    exact ⟨_, _, s0, s, hist, so, column, f, h0, t1, t2, t3, t4, hso, hc, by simpa using hr, by simpa using hl, hf, t6,
      by rw [e]; exact t7.1, t7.2⟩
  · exact absurd t7 id

end LGAR
