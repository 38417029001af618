import Verif.Lemmas.Renum
import Verif.Lemmas.FinishRun
import Verif.Props.Init
import Verif.Props.Twin
/-
C78: the numbers of the soils are only names.
-/
namespace LGAR

section Free
variable {α : Type} [Add α] [Sub α] [Mul α] [Div α] [Neg α] [Zero α] [One α] [OfScientific α]
  [LT α] [LE α] [DecidableLT α] [DecidableLE α] [BEq α] [CMath α]
variable {ps : List (Int × Int)} {env env' : Env α} {c c' : Cfg α}

theorem Renumbered.init (h : Renumbered ps env env' c c') {s s' : State α} (h1 : lgarInit env c = .ok s) (h2 : lgarInit env' c' = .ok s') :
    Alike ps True s s' := by
  obtain ⟨ts1, file1, L1, S, cnt, thick, psi, dt, endt, wp, fc, res, ords, inv, giuh, soilZ, q, depth, vs, cs, a1, a2, a3, a4, a5, a6, a7, a8,
    a9, a10, a11, a12, a13, a14, a15, a16, a17, a18, a19, a20, a21, a22, a23, a24, a25⟩ := lgarInit_inv h1
  obtain ⟨ts1', file1', L1', S', cnt', thick', psi', dt', endt', wp', fc', res', ords', inv', giuh', soilZ', q', depth', vs', cs', b1, b2, b3,
    b4, b5, b6, b7, b8, b9, b10, b11, b12, b13, b14, b15, b16, b17, b18, b19, b20, b21, b22, b23, b24, b25⟩ := lgarInit_inv h2
  obtain ⟨file, file', L, L', f1, f2, f3, f4, hlines⟩ := h.lines
  have r := h.rest
  rw [h.types, Option.some.injEq] at a1
  rw [h.types', Option.some.injEq] at b1
  rw [f1, Option.some.injEq] at a2
  rw [f2, Option.some.injEq] at b2
  subst a1 b1 a2 b2
  rw [f3, Option.some.injEq] at a4
  rw [f4, Option.some.injEq] at b4
  subst a4 b4
  rw [r] at b6 b8 b9 b10 b11 b12 b13 b14 b17 b25
  dsimp only at b6 b8 b9 b10 b11 b12 b13 b14 b17
  rw [a6, Option.some.injEq] at b6
  rw [a8, Option.some.injEq] at b8
  rw [a9, Option.some.injEq] at b9
  rw [a10, Option.some.injEq] at b10
  rw [a11, Option.some.injEq] at b11
  rw [a12, Option.some.injEq] at b12
  rw [a13, Option.some.injEq] at b13
  rw [a14, Option.some.injEq] at b14
  subst b6 b8 b9 b10 b11 b12 b13 b14
  rw [a15, Except.ok.injEq] at b15
  subst b15
  rw [a16, Except.ok.injEq] at b16
  subst b16
  rw [a17, Option.some.injEq] at b17
  subst b17
  rw [a18, Except.ok.injEq] at b18
  subst b18
  rw [a19, Option.some.injEq] at b19
  subst b19
  have hS : SoilsVia ps S S' := by
    intro p hp
    obtain ⟨t1, t2, t3, t4, line, l1, l2, rr, hn, hr⟩ := hlines p hp
    obtain ⟨_, _, g1⟩ := readSoilsGo_get a5
    obtain ⟨_, _, g2⟩ := readSoilsGo_get b5
    obtain ⟨j, hj⟩ : ∃ j, p.1.toNat = 1 + j := ⟨p.1.toNat - 1, by omega⟩
    obtain ⟨j', hj'⟩ : ∃ j, p.2.toNat = 1 + j := ⟨p.2.toNat - 1, by omega⟩
    obtain ⟨old, r1, x, x1, x2⟩ := g1 j line (by rw [List.getElem?_drop, ← hj]; exact l1) (by omega)
    obtain ⟨old', r1', x', x1', x2'⟩ := g2 j' line (by rw [List.getElem?_drop, ← hj']; exact l2) (by omega)
    rw [h.scanF, hr] at x2'
    rw [hr] at x2
    have := soilOfRec_same (wp := env.junk) (wp' := env'.junk) (old := old) (old' := old') hn
    rw [x2, x2'] at this
    exact ⟨by omega, by omega, x, x', by rw [hj]; exact x1, by rw [hj']; exact x1', this⟩
  have gs : GeoSame s.geo s'.geo := by
    rw [a20, b20]
    exact hS.geo
  have ehead : s'.head = s.head := by
    have e : s'.geo.numLayers = s.geo.numLayers := gs.layers
    unfold initFronts at a21 b21
    rw [e, ← initFronts_same gs le_rfl, a21, Except.ok.injEq] at b21
    exact b21.symm
  have evs : vs' = vs := by
    rw [ehead, a22, Except.ok.injEq] at b22
    exact b22.symm
  subst evs
  have hcs := calibInit_same gs (n := thick.length) (k := 1) le_rfl
  rw [a24, b24] at hcs
  have einv : s'.p.invalidSoil = s.p.invalidSoil := by rw [lgarInit_valid h1, lgarInit_valid h2]
  rw [ehead, einv] at b25
  rw [a25, b25]
  exact { types := rfl, types' := rfl, share := h.share, soils := hS, head := rfl, prev := rfl, p := rfl, precip := rfl, pet := rfl,
          calib := by
            simp only [Calib.mk.injEq]
            exact ⟨Forall₂.map_same (by rintro x _ ⟨w, rfl⟩; rfl) hcs, Forall₂.map_same (by rintro x _ ⟨w, rfl⟩; rfl) hcs,
              Forall₂.map_same (by rintro x _ ⟨w, rfl⟩; rfl) hcs, Forall₂.map_same (by rintro x _ ⟨w, rfl⟩; rfl) hcs,
              Forall₂.map_same (by rintro x _ ⟨w, rfl⟩; rfl) hcs, trivial, trivial⟩,
          numGiuh := rfl, giuhOrd := rfl, giuhQueue := rfl, onT := rfl, QgwT := rfl, start := rfl, last := rfl, precipTot := rfl,
          inTot := rfl, on := rfl, runoffTot := rfl, aetTot := rfl, petTot := rfl, rechTot := rfl, giuhTot := rfl, QTot := rfl,
          calibTot := rfl, filled := fun hf => absurd trivial hf }

/-- C78: two configurations that describe the same column with differently numbered soils: after Initialize any Updates end with the same
error in both, or return in both and the objects differ only in the numbers of the soils (and in places that no Update has written). -/
theorem C78_run {lines lines' : List (List Char)} (hc : readConfig env {} lines = .ok c) (hc' : readConfig env' {} lines' = .ok c')
    (h : Renumbered ps env env' c c') {s0 s0' : State α} (h0 : bmiInitialize env lines = .ok s0)
    (h0' : bmiInitialize env' lines' = .ok s0') {fuel : Nat} {sa : Bool} {xs : List (Drive α)} :
    Both (Alike ps (xs = [])) (drives fuel sa xs s0) (drives fuel sa xs s0') := by
  have i1 : lgarInit env c = .ok s0 := by
    unfold bmiInitialize at h0
    rwa [hc] at h0
  have i2 : lgarInit env' c' = .ok s0' := by
    unfold bmiInitialize at h0'
    rwa [hc'] at h0'
  have key := (h.init i1 i2).drives (fuel := fuel) (sa := sa) (xs := xs) (Placed.initialize h0).1 (lgarInit_valid i1)
  simpa using key

/-- C78 for what can be seen from outside. -/
theorem C78_outputs {lines lines' : List (List Char)} (hc : readConfig env {} lines = .ok c) (hc' : readConfig env' {} lines' = .ok c')
    (h : Renumbered ps env env' c c') {s0 s0' : State α} (h0 : bmiInitialize env lines = .ok s0)
    (h0' : bmiInitialize env' lines' = .ok s0') {fuel : Nat} {sa : Bool} {xs : List (Drive α)} (hx : xs ≠ []) {s : State α}
    (h1 : drives fuel sa xs s0 = .ok s) (hi : 0 < s.p.forcingInterval) :
    ∃ s', drives fuel sa xs s0' = .ok s' ∧ s'.head = s.head ∧ s'.p.timeS = s.p.timeS ∧ s'.p.moistureWf = s.p.moistureWf ∧
      s'.p.depthWf = s.p.depthWf ∧ s'.calib = s.calib ∧ s'.giuhQueue = s.giuhQueue ∧ s'.conv = s.conv ∧
      s'.mb = { s.mb with volQgw := s'.mb.volQgw } := by
  have key := C78_run hc hc' h h0 h0' (fuel := fuel) (sa := sa) (xs := xs)
  rw [h1] at key
  cases e : drives fuel sa xs s0' with
  | error e' => rw [e] at key; exact key.elim
  | ok s' =>
    rw [e] at key
    have hn : Alike ps (xs = []) s s' := key
    obtain ⟨_, e2, e3⟩ := hn.filled hx
    obtain ⟨e4, e5⟩ := e3 hi
    refine ⟨s', rfl, hn.head, by rw [hn.p], by rw [hn.p], by rw [hn.p], hn.calib, hn.giuhQueue, e4, ?_⟩
    rw [e2, e5]

end Free

/-! ## A case, and what fails without the hypotheses -/
namespace RenumSample
open Sample

/-- Another soil file in the environment. -/
def withFile (lines : List String) : Env Grid := { TwinSample.env2 with files := fun _ => some (lines.map String.toList) }

/-- The sample's soils in another order, with a third one between them. -/
def envB : Env Grid := withFile ["header", "loam 0.1 0.4 0.01 2 0.5", "clay 0.1 0.4 0.01 3 0.05", "sand 0.05 0.45 0.02 2 1.5"]
def cfgB : List (List Char) := (cfg.set 1 "layer_soil_type=3,1".toList).set 3 "max_valid_soil_types=3".toList

/-- Layer 1 has soil 1 and 3, layer 2 has soil 2 and 1. -/
def pairs : List (Int × Int) := [(1, 3), (2, 1)]

/-- Equality of the fields of a configuration that do not name soils. -/
def sameOthers (c c' : Cfg Grid) : Bool :=
  c'.thick = c.thick && c'.giuh = c.giuh && c'.soilZ = c.soilZ && c'.initialPsi = c.initialPsi && c'.wp = c.wp && c'.fc = c.fc &&
    c'.closed == c.closed && c'.adaptive == c.adaptive && c'.timestep = c.timestep && c'.endtime = c.endtime &&
    c'.forcingRes = c.forcingRes && c'.sft == c.sft && c'.pondMax = c.pondMax && c'.calib == c.calib

theorem sameOthers_eq {c c' : Cfg Grid} (h : sameOthers c c' = true) :
    c' = { c with soilType := c'.soilType, numTypes := c'.numTypes, soilFile := c'.soilFile } := by
  cases c
  cases c'
  simp only [sameOthers, Bool.and_eq_true, decide_eq_true_eq, beq_iff_eq] at h
  obtain ⟨⟨⟨⟨⟨⟨⟨⟨⟨⟨⟨⟨⟨h1, h2⟩, h3⟩, h4⟩, h5⟩, h6⟩, h7⟩, h8⟩, h9⟩, h10⟩, h11⟩, h12⟩, h13⟩, h14⟩ := h
  subst h1 h2 h3 h4 h5 h6 h7 h8 h9 h10 h11 h12 h13 h14
  rfl

def readBoth : Res (Cfg Grid × Cfg Grid) := do
  let c ← readConfig env {} cfg
  let c' ← readConfig envB {} cfgB
  .ok (c, c')

theorem read_check : okAnd readBoth (fun r => decide (sameOthers r.1 r.2 = true ∧ r.1.soilType = some [1, 2] ∧
    r.2.soilType = some [3, 1] ∧ r.1.numTypes = some 2 ∧ r.2.numTypes = some 3 ∧ r.1.soilFile.isSome = true ∧ r.2.soilFile.isSome = true)) =
    true := by decide +kernel

attribute [local irreducible] readConfig cfg cfgB in
theorem renumbered : ∃ c c', readConfig env {} cfg = .ok c ∧ readConfig envB {} cfgB = .ok c' ∧ Renumbered pairs env envB c c' := by
  obtain ⟨⟨c, c'⟩, hr, h1, h2, h3, h4, h5, h6, h7⟩ := okAnd_exists read_check
  unfold readBoth at hr
  simp only [bind_ok_iff, Except.ok.injEq, Prod.mk.injEq] at hr
  obtain ⟨_, r1, _, r2, rfl, rfl⟩ := hr
  dsimp only at h1 h2 h3 h4 h5 h6 h7
  obtain ⟨f, hf⟩ := Option.isSome_iff_exists.mp h6
  obtain ⟨f', hf'⟩ := Option.isSome_iff_exists.mp h7
  refine ⟨_, _, r1, r2, rfl, sameOthers_eq h1, h2, h3, fun _ => ?_, f, f', _, _, hf, hf', rfl, rfl, ?_⟩
  · intro p hp q hq
    simp only [pairs, List.mem_cons, List.not_mem_nil, or_false] at hp hq
    rcases hp with rfl | rfl <;> rcases hq with rfl | rfl <;> decide
  · intro p hp
    rw [h4, h5]
    simp only [pairs, List.mem_cons, List.not_mem_nil, or_false] at hp
    rcases hp with rfl | rfl
    · exact ⟨by decide, by decide, by decide, by decide, _, rfl, rfl, TwinSample.sand_full⟩
    · exact ⟨by decide, by decide, by decide, by decide, _, rfl, rfl, TwinSample.loam_full⟩

def runBoth (e e' : Env Grid) (f f' : List (List Char)) (xs : List (Drive Grid)) : Res (State Grid × State Grid × State Grid) := do
  let s0 ← bmiInitialize e f
  let s0' ← bmiInitialize e' f'
  let s ← drives 1000 true xs s0
  .ok (s0, s0', s)

theorem run_check : okAnd (runBoth env envB cfg cfgB TwinSample.inputs)
    (fun r => decide (0 < r.2.2.mb.volAET ∧ r.2.2.head.length = 3 ∧ 0 < r.2.2.p.forcingInterval)) = true := by decide +kernel

attribute [local irreducible] bmiInitialize drives cfg cfgB env envB TwinSample.inputs in
/-- The hypotheses are met by a run of two Updates with rain and evapotranspiration. -/
example : ∃ c c' s0 s0' s, readConfig env {} cfg = .ok c ∧ readConfig envB {} cfgB = .ok c' ∧ Renumbered pairs env envB c c' ∧
    bmiInitialize env cfg = .ok s0 ∧ bmiInitialize envB cfgB = .ok s0' ∧ drives 1000 true TwinSample.inputs s0 = .ok s ∧
    0 < s.mb.volAET ∧ s.head.length = 3 ∧ 0 < s.p.forcingInterval := by
  obtain ⟨c, c', h1, h2, h3⟩ := renumbered
  obtain ⟨⟨s0, s0', s⟩, hr, k1, k2, k3⟩ := okAnd_exists run_check
  unfold runBoth at hr
  simp only [bind_ok_iff, Except.ok.injEq, Prod.mk.injEq] at hr
  obtain ⟨_, r1, _, r2, _, r3, rfl, rfl, rfl⟩ := hr
  exact ⟨c, c', _, _, _, h1, h2, h3, r1, r2, r3, k1, k2, k3⟩

/-- Twice the same line. -/
def envC : Env Grid := withFile ["header", "sand 0.05 0.45 0.02 2 1.5", "sand 0.05 0.45 0.02 2 1.5"]
def cfgC (types : String) : List (List Char) := cfg.set 1 types.toList ++ ["calib_params=true".toList]

/-- Calibration lowers the porosity of the second layer. -/
def cal : Drive Grid :=
  ⟨0, 0, [0], ⟨[Grid.ofRat (45/100), Grid.ofRat (40/100)], [Grid.ofRat (5/100), Grid.ofRat (5/100)], [2, 2],
    [Grid.ofRat (2/100), Grid.ofRat (2/100)], [Grid.ofRat (3/2), Grid.ofRat (3/2)], 340, 2⟩⟩

/-- Is it the mass-balance abort? -/
def stopped (x : Res (State Grid)) : Bool :=
  match x with
  | .error (.abort _) => true
  | _ => false

theorem share_check : okAnd (runBoth envC envC (cfgC "layer_soil_type=1,2") (cfgC "layer_soil_type=1,1") [cal])
    (fun r => decide (stopped (drives 1000 true [cal] r.2.1) = true)) = true := by decide +kernel

end RenumSample

open RenumSample in
attribute [local irreducible] bmiInitialize drives cfgC envC cal in
/-- With calibration it matters whether two layers with the same soil parameters use one number or two: with two numbers the run goes
on, with one number (where the second layer's values overwrite the first's, C41) the mass-balance check stops it. -/
theorem C78_sharing_fails : ∃ s0 s0' s : State Grid, bmiInitialize envC (cfgC "layer_soil_type=1,2") = .ok s0 ∧
    bmiInitialize envC (cfgC "layer_soil_type=1,1") = .ok s0' ∧ drives 1000 true [cal] s0 = .ok s ∧
    ∃ m, drives 1000 true [cal] s0' = .error (.abort m) := by
  obtain ⟨⟨s0, s0', s⟩, hr, hs⟩ := Sample.okAnd_exists share_check
  unfold runBoth at hr
  simp only [bind_ok_iff, Except.ok.injEq, Prod.mk.injEq] at hr
  obtain ⟨_, r1, _, r2, _, r3, rfl, rfl, rfl⟩ := hr
  refine ⟨_, _, _, r1, r2, r3, ?_⟩
  unfold stopped at hs
  split at hs
  · rename_i m hm; exact ⟨m, hm⟩
  · simp at hs

end LGAR
