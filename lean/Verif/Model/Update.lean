import Verif.Model.Move
/-
Model state (/repo/include/all.hxx 93-215) and BmiLGAR::Update (/repo/src/bmi_lgar.cxx 78-561), UpdateUntil (564-569),
update_calibratable_parameters (582-660), lgar_global_mass_balance (/repo/src/lgar.cxx 869-911).
-/
namespace LGAR

/-- `struct lgar_bmi_parameters`, all.hxx 102-151 (the fields that the code reads or writes after initialisation;
shape/spacing/origin are in `Model/Bmi`). -/
structure Params (α : Type) where
  layerThickness : List α
  layerSoilType : List Int
  numLayers : Nat
  numWf : Int
  cum : List α
  soilDepth : α
  initialPsi : α
  timestepH : α
  forcingResH : α
  minTimestepH : α
  forcingInterval : Int
  numSoilTypes : Int
  moistureWf : List α
  depthWf : List α
  soilTemp : List α
  soilTempZ : List α
  frozen : List α
  wpPsi : α
  fcPsi : α
  closedG : Bool
  adaptive : Bool
  pondMax : α
  precipPrev : α
  nint : Int
  timeS : α
  endtimeS : α
  timesteps : Int
  sftCoupled : Bool
  calibFlag : Bool
  invalidSoil : Bool

/-- `struct lgar_mass_balance_variables`, all.hxx 154-187 (volstart_timestep_cm is never used). -/
structure MassVars (α : Type) where
  volendT : α
  volprecipT : α
  volinT : α
  volonT : α
  volrunoffT : α
  volAETT : α
  volPETT : α
  volrechT : α
  volgiuhT : α
  volQT : α
  volQgwT : α
  volstart : α
  volend : α
  volprecip : α
  volin : α
  volon : α
  volrunoff : α
  volAET : α
  volPET : α
  volrech : α
  volgiuh : α
  volQ : α
  volQgw : α
  volcalib : α
  localMb : α

/-- `struct lgar_calib_parameters`, all.hxx 191-201. -/
structure Calib (α : Type) where
  thetaE : List α
  thetaR : List α
  vgN : List α
  vgAlpha : List α
  Ksat : List α
  fcPsi : α
  pondMax : α

/-- `bmi_unit_conv`, include/bmi_lgar.hxx (BMI output variables in metres). -/
structure Conv (α : Type) where
  massBalance : α
  precip : α
  infil : α
  storage : α
  aet : α
  rech : α
  runoff : α
  Q : α
  Qgw : α
  pet : α
  giuh : α

/-- `BmiLGAR` with its `model_state`. -/
structure State (α : Type) where
  head : List (Front α)
  prev : List (Front α)
  soils : List (SoilProps α)
  p : Params α
  mb : MassVars α
  precipMm : α
  petMm : α
  calib : Calib α
  conv : Conv α
  numGiuh : Nat
  giuhOrd : List α
  giuhQueue : List α

/-- The arrays passed to the soil-water routines. -/
def State.geo {α : Type} (s : State α) : Geo α :=
  { numLayers := s.p.numLayers, cum := s.p.cum, soilType := s.p.layerSoilType, frozen := s.p.frozen,
    soils := s.soils }

variable {α : Type} [Add α] [Sub α] [Mul α] [Div α] [Neg α] [Zero α] [One α] [OfScientific α]
  [LT α] [LE α] [DecidableLT α] [DecidableLE α] [BEq α] [CMath α]

/-- What stays fixed during the subcycling loop of one Update. -/
structure StepCfg (α : Type) where
  fuel : Nat
  standalone : Bool
  geo : Geo α
  dt : α
  nint : Int
  wpPsi : α
  fcPsi : α
  closed : Bool
  pondMax : α
  endtimeS : α

/-- Variables of Update that are carried from one subcycle to the next (bmi_lgar.cxx 131-163). -/
structure SubSt (α : Type) where
  head : List (Front α)
  prev : List (Front α)
  precipMm : α
  petMm : α
  timeS : α
  timesteps : Int
  precipPrev : α
  volend : α
  volon : α
  precipT : α
  petT : α
  aetT : α
  volinT : α
  runoffT : α
  rechT : α
  surfT : α
  qgwT : α
  localMb : α

/-- Result of the water movement part of a subcycle. -/
structure SubFlow (α : Type) where
  head : List (Front α)
  prev : List (Front α)
  aet : α
  volin : α
  runoff : α
  rech : α
  volon : α
  hp : α
  volinT : α
  runoffT : α
  rechT : α

/-- bmi_lgar.cxx 312-358 and 373-387 with `create_surficial_front == true`: move without adding water, create the new
front, then pond or shed what did not fit. -/
def flowCreate (c : StepCfg α) (s : SubSt α) (prev : List (Front α)) (nFd : Nat) (ponded aet : α) :
    Res (SubFlow α) := do
  let (l, aet, flux) ← moveFronts c.fuel c.geo c.dt 0 nFd s.volend aet prev s.head
  let (rech, rechT) := if flux == 0 then (0, s.rechT) else (flux, s.rechT + flux)
  let (dry, _) ← calcDryDepth c.fuel c.closed c.nint c.geo c.dt l
  let h ← deref l 0
  let (ponded, volin, l) ← createSurficial c.geo ponded dry h.theta l
  let prev := listCopy l
  let volinT := s.volinT + volin
  if ponded < c.pondMax then
    return { head := l, prev := prev, aet := aet, volin := volin, runoff := 0, rech := rech, volon := ponded, hp := 0,
             volinT := volinT, runoffT := s.runoffT + 0, rechT := rechT }
  else
    let r := ponded - c.pondMax
    return { head := l, prev := prev, aet := aet, volin := volin, runoff := r, rech := rech, volon := c.pondMax,
             hp := c.pondMax, volinT := volinT, runoffT := s.runoffT + r, rechT := rechT }

/-- bmi_lgar.cxx 369-400: surface water when no front is created.  Result: runoff, infiltration, water left on the
surface, head on the surface for the velocities. -/
def surfaceFlow (c : StepCfg α) (s : SubSt α) (nFd : Nat) (precipRate ponded aet : α) : Res (α × α × α × α) :=
  if 0 < ponded then do
    let (r, v, pd) ← insertWater c.fuel c.closed c.nint c.geo c.dt aet ponded 0 precipRate nFd c.pondMax s.head
    if r < 0 then .error (.abort "volrunoff_subtimestep_cm < 0") else .ok (r, v, pd, pd)
  else if ponded < c.pondMax then .ok (0, 0, ponded, 0)
  else .ok (ponded - c.pondMax, 0, c.pondMax, c.pondMax)

/-- bmi_lgar.cxx 369-420 with `create_surficial_front == false`: infiltrate, then move (the sums at 380-397 are only
changed where something is added). -/
def flowMove (c : StepCfg α) (s : SubSt α) (prev : List (Front α)) (nFd : Nat) (precipRate ponded aet : α) :
    Res (SubFlow α) := do
  let (runoff, volin, volon, hp) ← surfaceFlow c s nFd precipRate ponded aet
  let (l, aet, flux) ← moveFronts c.fuel c.geo c.dt volin nFd s.volend aet prev s.head
  return { head := l, prev := prev, aet := aet, volin := volin, runoff := runoff, rech := flux, volon := volon,
           hp := hp, volinT := if 0 < ponded then s.volinT + volin else s.volinT, runoffT := s.runoffT + runoff,
           rechT := s.rechT + flux }

/-- ET demand of a subcycle, bmi_lgar.cxx 272-277. -/
def aetDemand (c : StepCfg α) (petRate : α) (l : List (Front α)) : Res α :=
  if 0 < petRate then calcAet petRate c.dt c.wpPsi c.fcPsi c.geo l else .ok 0

/-- `create_surficial_front`, bmi_lgar.cxx 292-303. -/
def wantsFront (precipPrev precipCm theta thetaE volon : α) : Bool :=
  (precipPrev == 0) && decide (0 < precipCm) && !(decide (thetaE ≤ theta + 1.0e-12) || decide (0 < volon))

/-- Ponded water as the balance of the subcycle sees it: not negative, and 0 if at most 1e-12, bmi_lgar.cxx 283-289. -/
def volonClean (v : α) : α := if 1.0e-12 < CMath.fmax v 0 then CMath.fmax v 0 else 0

/-- Water movement of a subcycle, bmi_lgar.cxx 312-420. -/
def subFlow (c : StepCfg α) (s : SubSt α) (create : Bool) (prev : List (Front α)) (nFd : Nat)
    (precipRate ponded aet : α) : Res (SubFlow α) :=
  if create then flowCreate c s prev nFd ponded aet else flowMove c s prev nFd precipRate ponded aet

/-- One subcycle, bmi_lgar.cxx 224-489. -/
def subStep (c : StepCfg α) (s : SubSt α) : Res (SubSt α) := do
  let timeS := s.timeS + c.dt * 3600.0
  let prev := listCopy s.head
  let precipMm := CMath.fmax s.precipMm 0
  let petMm := CMath.fmax s.petMm 0
  let precipRate := precipMm * 0.1
  let petRate := petMm * 0.1
  let ponded := precipRate * c.dt + s.volon
  let precipCm := precipRate * c.dt
  let petCm := petRate * c.dt
  let aet ← aetDemand c petRate s.head
  let volstart ← massBal c.geo.cum s.head
  let volon1 := volonClean s.volon
  let nFd := wettingFrontFreeDrainage s.head
  let h ← deref s.head 0
  let hs ← c.geo.soil h.layer
  let create := wantsFront s.precipPrev precipCm h.theta hs.thetaE volon1
  let f ← subFlow c s create prev nFd precipRate ponded aet
  let l ← dzdtCalc c.fuel c.closed c.nint f.hp c.geo f.head
  let volend ← massBal c.geo.cum l
  let mb := volstart + precipCm + volon1 - f.runoff - f.aet - f.volon - f.rech - volend
  if 1.0e-4 < CMath.fabs mb then .error (.abort "local mass balance larger than expected")
  else
    let h' ← deref l 0
    cassert (0 < h'.depth) "state->head->depth_cm > 0.0"
    return { head := l, prev := f.prev, precipMm := precipMm, petMm := petMm, timeS := timeS,
             timesteps := s.timesteps + 1, precipPrev := precipCm, volend := volend, volon := f.volon,
             precipT := s.precipT + precipCm, petT := s.petT + CMath.fmax petCm 0, aetT := s.aetT + f.aet,
             volinT := f.volinT, runoffT := f.runoffT, rechT := f.rechT, surfT := s.surfT + f.runoff,
             qgwT := s.qgwT + 0, localMb := mb }

/-- Subcycling loop, bmi_lgar.cxx 224-491; `n` subcycles left. -/
def subLoop (c : StepCfg α) : Nat → SubSt α → Res (SubSt α)
  | 0, s => .ok s
  | n + 1, s => do
    let s' ← subStep c s
    if c.endtimeS ≤ s'.timeS ∧ c.standalone = true then return s' else subLoop c n s'

/-- Body of the loop of update_calibratable_parameters, bmi_lgar.cxx 594-632, for one front. -/
def calibFront (soilType : List Int) (cal : Calib α) (soils : List (SoilProps α)) (f : Front α) :
    Res (List (SoilProps α) × Front α) := do
  let st ← idx soilType f.layer
  let s ← idxI soils st
  let te ← idxPred cal.thetaE f.layer
  let tr ← idxPred cal.thetaR f.layer
  let n ← idxPred cal.vgN f.layer
  let q ← cdiv 1 n
  let a ← idxPred cal.vgAlpha f.layer
  let k ← idxPred cal.Ksat f.layer
  let s' := { s with thetaE := te, thetaR := tr, vgN := n, vgM := 1 - q, vgAlpha := a, Ksat := k }
  let th ← calcThetaFromH f.psi s'.vgAlpha s'.vgM s'.vgN s'.thetaE s'.thetaR
  return (soils.set st.toNat s', { f with theta := th })

/-- The loop, bmi_lgar.cxx 594-632; `n = num_wetting_fronts` iterations. -/
def calibLoop (soilType : List Int) (cal : Calib α) : Nat → List (SoilProps α) → List (Front α) →
    Res (List (SoilProps α) × List (Front α))
  | 0, soils, l => .ok (soils, l)
  | _ + 1, _, [] => .error (.ub "NULL dereference")
  | n + 1, soils, f :: t => do
    let (soils, f') ← calibFront soilType cal soils f
    let (soils, t') ← calibLoop soilType cal n soils t
    return (soils, f' :: t')

/-- update_calibratable_parameters, bmi_lgar.cxx 582-660: new state and the change of storage. -/
def updateCalib (s : State α) : Res (State α × α) := do
  let before ← massBal s.p.cum s.head
  let (soils, l) ← calibLoop s.p.layerSoilType s.calib s.p.numWf.toNat s.soils s.head
  let after ← massBal s.p.cum l
  return ({ s with soils := soils, head := l,
                   p := { s.p with fcPsi := s.calib.fcPsi, pondMax := s.calib.pondMax } }, after - before)

/-- Update for an unsupported soil type, bmi_lgar.cxx 90-119. -/
def updateInvalid (s : State α) : State α :=
  let pc := s.precipMm * 0.1
  let pm := s.precipMm * 0.001
  { s with
    mb := { s.mb with
      volprecip := s.mb.volprecip + pc, volin := 0, volon := 0, volend := s.mb.volstart, volAET := 0, volrech := 0,
      volrunoff := s.mb.volrunoff + pc, volQ := s.mb.volQ + pc, volQgw := 0, volPET := 0, volgiuh := 0,
      volcalib := 0 }
    conv := { massBalance := 0, precip := pm, infil := 0, storage := 0, aet := 0, rech := 0, runoff := pm, Q := pm,
              Qgw := 0, pet := 0, giuh := 0 } }

/-- Time step of this Update, bmi_lgar.cxx 199-210 (`volon` is the water ponded at the start). -/
def chooseTimestep (p : Params α) (precipMm volon : α) : α :=
  if p.adaptive then
    let d := p.forcingResH
    let d := if 10.0 < precipMm ∨ 0 < volon then p.minTimestepH
             else if 0 < precipMm then p.minTimestepH * 2.0 else d
    CMath.fmin d p.forcingResH
  else p.timestepH

/-- bmi_lgar.cxx 121-123: frozen-soil factors. -/
def applyFrozen (s : State α) : Res (State α) :=
  if s.p.sftCoupled then do
    let fs ← frozenFactor s.p.cum (s.p.soilTempZ.zip s.p.soilTemp) s.p.frozen
    .ok { s with p := { s.p with frozen := fs } }
  else .ok s

/-- bmi_lgar.cxx 125-130: calibration in the first Update. -/
def applyCalib (s : State α) : Res (State α × α) :=
  if s.p.calibFlag then do
    let (s, d) ← updateCalib s
    .ok ({ s with p := { s.p with calibFlag := false } }, d)
  else .ok (s, 0)

/-- Everything of Update before the subcycling loop, bmi_lgar.cxx 121-218, for a supported soil type: the state with
frozen factors, calibrated parameters, time step and forcing interval set, and the storage change of calibration. -/
def updatePre (s : State α) : Res (State α × α) := do
  let s ← applyFrozen s
  let (s, dcal) ← applyCalib s
  cassert (0 ≤ s.precipMm) "precipitation_mm_per_h >= 0.0"
  cassert (0 ≤ s.petMm) "PET_mm_per_h >= 0.0"
  let dt := chooseTimestep s.p s.precipMm s.mb.volonT
  let q ← cdiv s.p.forcingResH dt
  return ({ s with p := { s.p with timestepH := dt, forcingInterval := CMath.toInt (q + 1.0e-8) } }, dcal)

/-- The loop constants of this Update (bmi_lgar.cxx 165-172). -/
def stepCfg (fuel : Nat) (standalone : Bool) (s : State α) : StepCfg α :=
  { fuel := fuel, standalone := standalone, geo := s.geo, dt := s.p.timestepH, nint := s.p.nint, wpPsi := s.p.wpPsi,
    fcPsi := s.p.fcPsi, closed := s.p.closedG, pondMax := s.p.pondMax, endtimeS := s.p.endtimeS }

/-- Initial values of the loop variables (bmi_lgar.cxx 136-163); `v` is the current storage. -/
def subInit (s : State α) (v : α) : SubSt α :=
  { head := s.head, prev := s.prev, precipMm := s.precipMm, petMm := s.petMm, timeS := s.p.timeS,
    timesteps := s.p.timesteps, precipPrev := s.p.precipPrev, volend := v, volon := s.mb.volonT,
    precipT := 0, petT := 0, aetT := 0, volinT := 0, runoffT := 0, rechT := 0, surfT := 0, qgwT := 0,
    localMb := s.mb.localMb }

/-- bmi_lgar.cxx 493-559: routing, arrays of the wetting fronts, accumulation, unit conversion. -/
def updatePost (s : State α) (dcal : α) (u : SubSt α) : Res (State α) := do
  let (giuh, queue) ← giuhConv u.runoffT s.numGiuh s.giuhOrd s.giuhQueue
  let m := s.mb
  return { s with
    head := u.head, prev := u.prev, precipMm := u.precipMm, petMm := u.petMm, giuhQueue := queue
    p := { s.p with
      timeS := u.timeS, timesteps := u.timesteps, precipPrev := u.precipPrev, numWf := (u.head.length : Int),
      moistureWf := u.head.map (fun f => f.theta), depthWf := u.head.map (fun f => f.depth * 0.01) }
    mb := { m with
      volprecipT := u.precipT, volinT := u.volinT, volonT := u.volon, volendT := u.volend, volAETT := u.aetT,
      volrechT := u.rechT, volrunoffT := u.runoffT, volQT := giuh, volQgwT := u.qgwT, volPETT := u.petT,
      volgiuhT := giuh,
      volprecip := m.volprecip + u.precipT, volin := m.volin + u.volinT, volon := u.volon, volend := u.volend,
      volAET := m.volAET + u.aetT, volrech := m.volrech + u.rechT, volrunoff := m.volrunoff + u.runoffT,
      volQ := m.volQ + giuh, volQgw := m.volQgw + u.qgwT, volPET := m.volPET + u.petT,
      volgiuh := m.volgiuh + giuh, volcalib := m.volcalib + dcal, localMb := u.localMb }
    conv := { massBalance := u.localMb * 0.01, precip := u.precipT * 0.01, infil := u.volinT * 0.01,
              storage := u.volend * 0.01, aet := u.aetT * 0.01, rech := u.rechT * 0.01, runoff := u.runoffT * 0.01,
              Q := giuh * 0.01, Qgw := u.qgwT * 0.01, pet := u.petT * 0.01, giuh := giuh * 0.01 } }

/-- BmiLGAR::Update, bmi_lgar.cxx 78-561.  `standalone` is the compile-time choice at 480-483 (no NGEN). -/
def update (fuel : Nat) (standalone : Bool) (s : State α) : Res (State α) :=
  if s.p.invalidSoil then .ok (updateInvalid s)
  else do
    let (s, dcal) ← updatePre s
    let v ← massBal s.p.cum s.head
    let u ← subLoop (stepCfg fuel standalone s) s.p.forcingInterval.toNat (subInit s v)
    updatePost s dcal u

/-- BmiLGAR::UpdateUntil, bmi_lgar.cxx 564-569. -/
def updateUntil (fuel : Nat) (standalone : Bool) (t : α) (s : State α) : Res (State α) := do
  cassert (0 < t) "t > 0.0"
  update fuel standalone s

/-- `global_error_cm` printed by lgar_global_mass_balance, lgar.cxx 889. -/
def globalError (m : MassVars α) : α :=
  m.volstart + m.volprecip - m.volrunoff - m.volAET - m.volon - m.volrech - m.volend + m.volcalib

/-- `volend_giuh_cm` of lgar_global_mass_balance, lgar.cxx 886-887: sum of the first `N + 1` queue entries. -/
def giuhLeft (queue : List α) : Nat → Nat → α → Res α
  | 0, _, s => .ok s
  | n + 1, i, s => do
    let q ← idx queue i
    giuhLeft queue n (i + 1) (s + q)

end LGAR
