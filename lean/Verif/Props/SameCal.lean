import Verif.Props.Init
import Verif.Lemmas.FinishRun
import Verif.Spec.Restart
import Verif.Spec.SampleRun
import Verif.Lemmas.Update
/-
C101: calibrating with the values that are already there changes nothing.
-/
set_option linter.unusedSectionVars false
namespace LGAR

/-- All entries of `layer_soil_type` are numbers of lines that are read from the soil file. -/
def TypesRead {α : Type} (env : Env α) (c : Cfg α) : Prop :=
  ∀ ts file lines, c.soilType = some ts → c.soilFile = some file → env.files file = some lines →
    ∀ t ∈ ts, 1 ≤ t ∧ t ≤ c.numTypes.getD 15 ∧ t < lines.length

/-- The object with calibration switched on or off. -/
def State.withCalib {α : Type} (s : State α) (b : Bool) : State α := { s with p := { s.p with calibFlag := b } }

section Free
variable {α : Type} [Add α] [Sub α] [Mul α] [Div α] [Neg α] [Zero α] [One α] [OfScientific α]
  [LT α] [LE α] [DecidableLT α] [DecidableLE α] [BEq α] [CMath α]

/-- The calibration arrays hold the parameters of the soils at entry `k`, and vg_m is the one calibration computes. -/
def HoldsAt (g : Geo α) (cal : Calib α) (k : Nat) : Prop :=
  ∃ s q, g.soil (k + 1) = .ok s ∧ cal.thetaE[k]? = some s.thetaE ∧ cal.thetaR[k]? = some s.thetaR ∧ cal.vgN[k]? = some s.vgN ∧
    cal.vgAlpha[k]? = some s.vgAlpha ∧ cal.Ksat[k]? = some s.Ksat ∧ cdiv 1 s.vgN = .ok q ∧ s.vgM = 1 - q

theorem calibFront_same_values {g : Geo α} {cal : Calib α} {psi : α} {k : Nat} {f : Front α} (hf : InitFront g psi (k + 1) f)
    (hc : HoldsAt g cal k) : calibFront g.soilType cal g.soils f = .ok (g.soils, f) := by
  obtain ⟨s, th, c, ff, Se, K, h1, h2, _, _, _, _, rfl⟩ := hf
  obtain ⟨s', q, a1, a2, a3, a4, a5, a6, a7, a8⟩ := hc
  rw [h1, Except.ok.injEq] at a1
  subst a1
  simp only [Geo.soil, bind_ok_iff] at h1
  obtain ⟨t, ht, hs⟩ := h1
  obtain ⟨hpos, hget⟩ := idxI_ok_iff.mp hs
  have e1 : idxPred cal.thetaE (k + 1) = .ok s.thetaE := idxPred_ok_iff.mpr ⟨by omega, a2⟩
  have e2 : idxPred cal.thetaR (k + 1) = .ok s.thetaR := idxPred_ok_iff.mpr ⟨by omega, a3⟩
  have e3 : idxPred cal.vgN (k + 1) = .ok s.vgN := idxPred_ok_iff.mpr ⟨by omega, a4⟩
  have e4 : idxPred cal.vgAlpha (k + 1) = .ok s.vgAlpha := idxPred_ok_iff.mpr ⟨by omega, a5⟩
  have e5 : idxPred cal.Ksat (k + 1) = .ok s.Ksat := idxPred_ok_iff.mpr ⟨by omega, a6⟩
  unfold calibFront
  simp only [ht, hs, e1, e2, e3, e4, e5, a7, ok_bind, ← a8, h2, pure_eq_ok]
  congr 2
  apply List.ext_getElem?
  intro i
  rw [List.getElem?_set]
  split
  · next h =>
    subst h
    rw [hget]
    have : t.toNat < g.soils.length := (List.getElem?_eq_some_iff.mp hget).1
    simp [this]
  · rfl

theorem calibLoop_same_values {g : Geo α} {cal : Calib α} {psi : α} : ∀ {l : List (Front α)} {k : Nat},
    (∀ i f, l[i]? = some f → InitFront g psi (k + i + 1) f) → (∀ i, i < l.length → HoldsAt g cal (k + i)) →
    calibLoop g.soilType cal l.length g.soils l = .ok (g.soils, l)
  | [], _, _, _ => rfl
  | f :: l, k, hl, hc => by
    have h1 : calibFront g.soilType cal g.soils f = .ok (g.soils, f) :=
      calibFront_same_values (hl 0 f rfl) (hc 0 (by simp))
    have h2 : calibLoop g.soilType cal l.length g.soils l = .ok (g.soils, l) :=
      calibLoop_same_values (k := k + 1) (fun i f hi => by
        have := hl (i + 1) f (by simpa using hi)
        rwa [show k + (i + 1) + 1 = k + 1 + i + 1 by omega] at this) fun i hi => by
        have := hc (i + 1) (by simpa using hi)
        rwa [show k + (i + 1) = k + 1 + i by omega] at this
    simp only [List.length_cons, calibLoop, h1, h2, ok_bind, pure_eq_ok]

/-- Initialisation reads the calibration switch only to store it. -/
theorem lgarInit_switch (env : Env α) (c : Cfg α) (b : Bool) :
    lgarInit env { c with calib := b } = lgarInit env c >>= fun s => .ok (s.withCalib b) := by
  unfold lgarInit
  simp only [bind_assoc]
  rfl

theorem lgarInit_holds {env : Env α} {c : Cfg α} {s : State α} (h : lgarInit env c = .ok s) (ht : TypesRead env c) :
    ∀ k, k < s.p.numLayers → HoldsAt s.geo s.calib k := by
  obtain ⟨ts, file, fl, soils, cnt, thick, psi, dt, endt, wp, fc, res, ords, inv, giuh, soilZ, q, depth, vs, cs, h1, h2, hn, h3, hsoil,
    _, _, _, _, _, _, _, _, _, _, _, _, _, _, hgeo, hhead, _, hlen, hcs, hs⟩ := lgarInit_inv h
  intro k hk
  have hN : s.p.numLayers = thick.length := by rw [hs]
  have hk' : k < cs.length := by rw [calibInit_length hcs]; omega
  have hx := List.getElem?_eq_getElem hk'
  have hsk := calibInit_at hcs k _ hx
  rw [Nat.add_comm 1 k] at hsk
  have hd : ∃ q, cdiv 1 (cs[k]).vgN = .ok q ∧ (cs[k]).vgM = 1 - q := by
    have := hsk
    simp only [Geo.soil, bind_ok_iff] at this
    obtain ⟨t, ht', hs'⟩ := this
    obtain ⟨hpos, hget⟩ := idxI_ok_iff.mp hs'
    rw [hgeo] at ht' hget
    have hmem : t ∈ ts := by
      have := idx_ok_iff.mp ht'
      simp only [typeArray, List.getElem?_cons_succ] at this
      exact List.mem_of_getElem? this
    obtain ⟨b1, b2, b3⟩ := ht ts file fl h1 h2 h3 t hmem
    obtain ⟨j, hj⟩ : ∃ j : Nat, t = 1 + (j : Int) := ⟨(t - 1).toNat, by omega⟩
    have hjl : j < (fl.drop 1).length := by rw [List.length_drop]; omega
    obtain ⟨old, rr, p, c1, c2⟩ := (readSoilsGo_get hsoil).2.2 j _ (List.getElem?_eq_getElem hjl) (by omega)
    have e : t.toNat = 1 + j := by omega
    simp only [e] at hget
    rw [c1, Option.some.injEq] at hget
    subst hget
    obtain ⟨_, _, _, d4, _, q, d5, d6⟩ := soilOfRec_fields c2
    exact ⟨q, by rw [d4]; exact d5, d6⟩
  obtain ⟨q, hq, hm⟩ := hd
  refine ⟨cs[k], q, hsk, ?_, ?_, ?_, ?_, ?_, hq, hm⟩ <;> rw [hs] <;> simp only [List.getElem?_map, hx, Option.map_some]

/-- The calibration step of an Update, from the state that initialisation leaves. -/
theorem applyCalib_same_values (hz : ∀ x : α, x - x = 0) {env : Env α} {c : Cfg α} {s0 : State α} (h : lgarInit env c = .ok s0)
    (ht : TypesRead env c) {s : State α} (e1 : s.head = s0.head) (e2 : s.soils = s0.soils) (e3 : s.calib = s0.calib)
    (e4 : s.p.layerSoilType = s0.p.layerSoilType) (e5 : s.p.cum = s0.p.cum) (e6 : s.p.numWf = s0.p.numWf)
    (e7 : s.p.fcPsi = s0.p.fcPsi) (e8 : s.p.pondMax = s0.p.pondMax) : applyCalib s = .ok (s.withCalib false, 0) := by
  have hh := lgarInit_holds h ht
  obtain ⟨ts, file, fl, soils, cnt, thick, psi, dt, endt, wp, fc, res, ords, inv, giuh, soilZ, q, depth, vs, cs, h1, h2, hn, h3, hsoil,
    _, _, _, _, _, _, _, _, _, _, _, _, _, _, hgeo, hhead, hvs, hlen, hcs, hs⟩ := lgarInit_inv h
  have hN : s0.p.numLayers = thick.length := by rw [hs]
  have hW : s0.p.numWf = (thick.length : Int) := by rw [hs]
  have hC : s0.p.cum = cumThickness thick := by rw [hs]
  have f1 : s0.calib.fcPsi = s0.p.fcPsi := by rw [hs]
  have f2 : s0.calib.pondMax = s0.p.pondMax := by rw [hs]
  obtain ⟨_, _, hall⟩ := initFronts_inv hhead
  have hl : calibLoop s.p.layerSoilType s.calib s.p.numWf.toNat s.soils s.head = .ok (s.soils, s.head) := by
    rw [e1, e2, e3, e4, e6, hW, Int.toNat_natCast, hlen]
    exact calibLoop_same_values (g := s0.geo) (k := 0) (fun i f hi => by rw [Nat.zero_add]; exact hall i f hi) fun i hi => by
      rw [Nat.zero_add]; exact hh i (by omega)
  have hv : massBal s.p.cum s.head = .ok vs := by rw [e5, e1, hC]; exact hvs
  have hp : { s.p with fcPsi := s.calib.fcPsi, pondMax := s.calib.pondMax } = s.p := by
    rw [e3, f1, f2, ← e7, ← e8]
  unfold applyCalib updateCalib
  split
  · simp only [hv, hl, ok_bind, pure_eq_ok, hz, hp]
    rfl
  · next hf =>
    have : s.withCalib false = s := by
      have e : s.p.calibFlag = false := by simpa using hf
      unfold State.withCalib
      rw [← e]
    rw [this]

theorem applyFrozen_switch (s : State α) (b : Bool) : applyFrozen (s.withCalib b) = applyFrozen s >>= fun a => .ok (a.withCalib b) := by
  unfold applyFrozen
  by_cases h : s.p.sftCoupled = true
  · rw [if_pos h, if_pos (show (s.withCalib b).p.sftCoupled = true from h)]
    simp only [bind_assoc]
    rfl
  · rw [if_neg h, if_neg (show ¬ (s.withCalib b).p.sftCoupled = true from h)]
    rfl

theorem applyFrozen_frame {s a : State α} (h : applyFrozen s = .ok a) : ∃ fs, a = { s with p := { s.p with frozen := fs } } := by
  unfold applyFrozen at h
  split at h
  · simp only [bind_ok_iff, Except.ok.injEq] at h
    obtain ⟨fs, _, rfl⟩ := h
    exact ⟨fs, rfl⟩
  · simp only [Except.ok.injEq] at h
    exact ⟨s.p.frozen, h.symm⟩

theorem update_same_values (hz : ∀ x : α, x - x = 0) {env : Env α} {c : Cfg α} {s0 s1 : State α} (h : lgarInit env c = .ok s0)
    (ht : TypesRead env c) (hin : Inputs s0 s1) (hcal : s1.calib = s0.calib) (fuel : Nat) (sa : Bool) :
    update fuel sa s1 = update fuel sa (s1.withCalib false) := by
  have hpre : updatePre s1 = updatePre (s1.withCalib false) := by
    unfold updatePre
    rw [applyFrozen_switch]
    cases ha : applyFrozen s1 with
    | error e => rfl
    | ok a =>
      obtain ⟨fs, ea⟩ := applyFrozen_frame ha
      obtain ⟨pr, pet, temp, cal, rfl⟩ := hin
      have k1 : applyCalib a = .ok (a.withCalib false, 0) := by
        rw [ea]; exact applyCalib_same_values hz h ht rfl rfl hcal rfl rfl rfl rfl rfl
      have k2 : applyCalib (a.withCalib false) = .ok (a.withCalib false, 0) := rfl
      simp only [ok_bind, k1, k2]
  have hv : s1.p.invalidSoil = false := by
    have := lgarInit_valid h
    obtain ⟨_, _, _, _, rfl⟩ := hin
    exact this
  unfold update
  rw [hpre, if_neg (by rw [hv]; simp), if_neg (by rw [show (s1.withCalib false).p.invalidSoil = false from hv]; simp)]

/-- C101: a configuration with calibration on and the same with calibration off; the soil types of the layers are lines of the soil
file.  If what the caller leaves in the calibration arrays at the first Update is what initialisation put there, the two objects are
from then on the same, in every field, whatever the inputs and whether or not an Update fails. -/
theorem C101_same (hz : ∀ x : α, x - x = 0) (env : Env α) (c : Cfg α) (s0 : State α)
    (h : lgarInit env { c with calib := true } = .ok s0) (ht : TypesRead env c) (x : Drive α) (hx : x.cal = s0.calib)
    (xs : List (Drive α)) (fuel : Nat) (sa : Bool) :
    ∃ t0, lgarInit env { c with calib := false } = .ok t0 ∧ t0.calib = s0.calib ∧
      drives fuel sa (x :: xs) t0 = drives fuel sa (x :: xs) s0 := by
  have h2 : lgarInit env { c with calib := false } = .ok (s0.withCalib false) := by
    have := lgarInit_switch env { c with calib := true } false
    rw [h] at this
    exact this
  refine ⟨_, h2, rfl, ?_⟩
  have := update_same_values hz h ht (s1 := x.set s0) ⟨_, _, _, _, rfl⟩ hx fuel sa
  unfold drives
  rw [this]
  rfl

end Free

section Exact
variable {K : Type} [Field K] [LinearOrder K] [IsStrictOrderedRing K] [CMath K]

/-- C101 in exact arithmetic. -/
theorem C101_exact (env : Env K) (c : Cfg K) (s0 : State K)
    (h : lgarInit env { c with calib := true } = .ok s0) (ht : TypesRead env c) (x : Drive K) (hx : x.cal = s0.calib)
    (xs : List (Drive K)) (fuel : Nat) (sa : Bool) :
    ∃ t0, lgarInit env { c with calib := false } = .ok t0 ∧ t0.calib = s0.calib ∧
      drives fuel sa (x :: xs) t0 = drives fuel sa (x :: xs) s0 :=
  C101_same sub_self env c s0 h ht x hx xs fuel sa

end Exact

namespace SameCalSample
open Sample

/-- Rain and evapotranspiration, with given calibration values. -/
def hour (rain pet : Grid) (cal : Calib Grid) : Drive Grid := ⟨rain, pet, [0], cal⟩

/-- Two layers of the two soils of the sample, calibration on; two hours, once with the values that are there and once with others. -/
def pair : Res (Cfg Grid × State Grid × State Grid × State Grid) := do
  let c ← readConfig env {} (calCfg "1,2")
  let s0 ← lgarInit env { c with calib := true }
  let s ← drives 1000 true [hour 5 0 s0.calib, hour 0 1 calVals] s0
  let t ← drives 1000 true [hour 5 0 { s0.calib with thetaE := [1/2, 2/5] }, hour 0 1 calVals] s0
  .ok (c, s0, s, t)

/-- Test for the example below. -/
def PairTest (r : Cfg Grid × State Grid × State Grid × State Grid) : Prop :=
  r.1.soilType = some [1, 2] ∧ r.1.numTypes = some 2 ∧ r.2.1.p.calibFlag = true ∧ r.2.2.1.p.calibFlag = false ∧ r.2.2.1.mb.volcalib = 0 ∧
    3 ≤ r.2.2.1.head.length ∧ 0 < r.2.2.1.mb.volAET ∧ r.2.2.2.mb.volcalib ≠ 0

instance (r : Cfg Grid × State Grid × State Grid × State Grid) : Decidable (PairTest r) := by unfold PairTest; infer_instance

theorem pair_check : okAnd pair (fun r => decide (PairTest r)) = true := by decide +kernel

end SameCalSample

open SameCalSample Sample in
attribute [local irreducible] readConfig lgarInit drives hour calVals in
/-- C101: a run with rain and evapotranspiration; other values in the calibration arrays do change it. -/
example : ∃ (c : Cfg Grid) (s0 s t : State Grid) (x y : Drive Grid) (xs : List (Drive Grid)),
    lgarInit env { c with calib := true } = .ok s0 ∧ TypesRead env c ∧ x.cal = s0.calib ∧ drives 1000 true (x :: xs) s0 = .ok s ∧
      s.mb.volcalib = 0 ∧ 3 ≤ s.head.length ∧ 0 < s.mb.volAET ∧ drives 1000 true (y :: xs) s0 = .ok t ∧ t.mb.volcalib ≠ 0 := by
  obtain ⟨r, hr, k1, k2, k3, k4, k5, k6, k7, k8⟩ := okAnd_exists pair_check
  unfold pair at hr
  simp only [bind_ok_iff, Except.ok.injEq] at hr
  obtain ⟨c, _, s0, h1, s, h2, t, h3, rfl⟩ := hr
  refine ⟨c, s0, s, t, _, _, _, h1, ?_, ?_, h2, k5, k6, k7, h3, k8⟩
  · intro ts file lines e1 _ e3 x hx
    rw [k1, Option.some.injEq] at e1
    subst e1
    rw [k2]
    simp only [env, Option.some.injEq] at e3
    subst e3
    have hl : soilLines.length = 3 := rfl
    rw [hl]
    simp at hx ⊢
    omega
  · unfold hour; rfl

end LGAR
