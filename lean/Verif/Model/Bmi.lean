import Verif.Model.Config
/-
The BMI query and access functions, /repo/src/bmi_lgar.cxx 693-1084, names in /repo/include/bmi_lgar.hxx 36-75.
-/
namespace LGAR

/-- Input variable names, bmi_lgar.hxx 36-38, GetInputVarNames bmi_lgar.cxx 1005-1014. -/
def inputVarNames : List String :=
  ["precipitation_rate", "potential_evapotranspiration_rate", "soil_temperature_profile"]

/-- Output variable names, bmi_lgar.hxx 40-56, GetOutputVarNames bmi_lgar.cxx 1017-1026. -/
def outputVarNames : List String :=
  ["soil_moisture_wetting_fronts", "soil_depth_layers", "soil_depth_wetting_fronts", "soil_num_wetting_fronts",
   "precipitation", "potential_evapotranspiration", "actual_evapotranspiration", "surface_runoff", "giuh_runoff",
   "soil_storage", "total_discharge", "infiltration", "percolation", "groundwater_to_stream_recharge",
   "mass_balance"]

/-- Calibratable names, bmi_lgar.hxx 69-75. -/
def calibVarNames : List String :=
  ["smcmax", "smcmin", "van_genuchten_n", "van_genuchten_alpha", "hydraulic_conductivity", "field_capacity",
   "ponded_depth_max"]

/-- GetVarGrid, bmi_lgar.cxx 693-723. -/
def varGrid (name : String) : Int :=
  if name == "soil_storage_model" || name == "soil_num_wetting_fronts" then 0
  else if name == "precipitation_rate" || name == "precipitation" then 1
  else if name == "potential_evapotranspiration_rate" || name == "potential_evapotranspiration"
      || name == "actual_evapotranspiration" then 1
  else if name == "surface_runoff" || name == "giuh_runoff" || name == "soil_storage" || name == "field_capacity"
      || name == "ponded_depth_max" then 1
  else if name == "total_discharge" || name == "infiltration" || name == "percolation"
      || name == "groundwater_to_stream_recharge" then 1
  else if name == "mass_balance" then 1
  else if name == "soil_depth_layers" || name == "smcmax" || name == "smcmin" || name == "van_genuchten_m"
      || name == "van_genuchten_alpha" || name == "van_genuchten_n" || name == "hydraulic_conductivity" then 2
  else if name == "soil_moisture_wetting_fronts" || name == "soil_depth_wetting_fronts" then 3
  else if name == "soil_temperature_profile" then 4
  else -1

/-- GetVarType, bmi_lgar.cxx 726-737. -/
def varType (name : String) : String :=
  let g := varGrid name
  if g = 0 then "int" else if g = 1 ∨ g = 2 ∨ g = 3 ∨ g = 4 then "double" else "none"

/-- GetVarItemsize, bmi_lgar.cxx 740-751 (sizeof(int) = 4, sizeof(double) = 8). -/
def varItemsize (name : String) : Int :=
  let g := varGrid name
  if g = 0 then 4 else if g = 1 ∨ g = 2 ∨ g = 3 ∨ g = 4 then 8 else 0

/-- GetVarUnits, bmi_lgar.cxx 754-780. -/
def varUnits (name : String) : String :=
  if name == "precipitation_rate" || name == "potential_evapotranspiration_rate" then "mm h^-1"
  else if name == "precipitation" || name == "potential_evapotranspiration" || name == "actual_evapotranspiration"
  then "m"
  else if name == "surface_runoff" || name == "giuh_runoff" || name == "soil_storage" then "m"
  else if name == "total_discharge" || name == "infiltration" || name == "percolation" then "m"
  else if name == "mass_balance" || name == "groundwater_to_stream_recharge" then "m"
  else if name == "soil_moisture_wetting_fronts" then "none"
  else if name == "soil_depth_layers" || name == "soil_depth_wetting_fronts" then "m"
  else if name == "soil_temperature_profile" then "K"
  else "none"

/-- GetVarLocation, bmi_lgar.cxx 796-821. -/
def varLocation (name : String) : String :=
  if name == "precipitation_rate" || name == "precipitation" || name == "potential_evapotranspiration"
      || name == "potential_evapotranspiration_rate" || name == "actual_evapotranspiration" then "node"
  else if name == "surface_runoff" || name == "giuh_runoff" || name == "soil_storage" then "node"
  else if name == "total_discharge" || name == "infiltration" || name == "percolation"
      || name == "groundwater_to_stream_recharge" then "node"
  else if name == "soil_moisture_wetting_fronts" then "node"
  else if name == "mass_balance" then "node"
  else if name == "soil_depth_layers" || name == "soil_depth_wetting_fronts" || name == "soil_num_wetting_fronts"
  then "node"
  else if name == "soil_temperature_profile" then "node"
  else "none"

variable {α : Type}

/-- GetGridShape, bmi_lgar.cxx 824-831: the assignments made, as (index, value) pairs. -/
def gridShape (s : State α) (grid : Int) : List (Nat × Int) :=
  if grid = 2 then [(0, (s.p.numLayers : Int))] else if grid = 3 then [(1, s.p.numWf)] else []

/-- GetGridRank, bmi_lgar.cxx 852-859. -/
def gridRank (grid : Int) : Int :=
  if grid = 0 ∨ grid = 1 ∨ grid = 2 ∨ grid = 3 ∨ grid = 4 then 1 else -1

/-- GetGridSize, bmi_lgar.cxx 862-875 (num_cells_temp is the length of the soil temperature arrays). -/
def gridSize (s : State α) (grid : Int) : Int :=
  if grid = 0 ∨ grid = 1 then 1
  else if grid = 2 then (s.p.numLayers : Int)
  else if grid = 3 then s.p.numWf
  else if grid = 4 then (s.p.soilTemp.length : Int)
  else -1

/-- GetVarNbytes, bmi_lgar.cxx 783-793. -/
def varNbytes (s : State α) (name : String) : Int := varItemsize name * gridSize s (varGrid name)

/-- GetGridType, bmi_lgar.cxx 1068-1075. -/
def gridType (grid : Int) : String := if grid = 0 then "uniform_rectilinear" else ""

/-- The object a pointer returned by GetValuePtr points to. -/
inductive Ref where
  | precipRate | petRate | precip | pet | aet | runoff | giuh | storage | Q | infil | rech | Qgw | massBalance
  | cum | moistureWf | depthWf | numWf | soilTemp
  | calThetaE | calThetaR | calVgN | calVgAlpha | calKsat | calPondMax | calFcPsi
  deriving DecidableEq, Repr

/-- GetValuePtr, bmi_lgar.cxx 891-954. -/
def valuePtr (name : String) : Res Ref :=
  if name == "precipitation_rate" then .ok .precipRate
  else if name == "precipitation" then .ok .precip
  else if name == "potential_evapotranspiration_rate" then .ok .petRate
  else if name == "potential_evapotranspiration" then .ok .pet
  else if name == "actual_evapotranspiration" then .ok .aet
  else if name == "surface_runoff" then .ok .runoff
  else if name == "giuh_runoff" then .ok .giuh
  else if name == "soil_storage" then .ok .storage
  else if name == "total_discharge" then .ok .Q
  else if name == "infiltration" then .ok .infil
  else if name == "percolation" then .ok .rech
  else if name == "groundwater_to_stream_recharge" then .ok .Qgw
  else if name == "mass_balance" then .ok .massBalance
  else if name == "soil_depth_layers" then .ok .cum
  else if name == "soil_moisture_wetting_fronts" then .ok .moistureWf
  else if name == "soil_depth_wetting_fronts" then .ok .depthWf
  else if name == "soil_num_wetting_fronts" then .ok .numWf
  else if name == "soil_temperature_profile" then .ok .soilTemp
  else if name == "smcmax" then .ok .calThetaE
  else if name == "smcmin" then .ok .calThetaR
  else if name == "van_genuchten_n" then .ok .calVgN
  else if name == "van_genuchten_alpha" then .ok .calVgAlpha
  else if name == "hydraulic_conductivity" then .ok .calKsat
  else if name == "ponded_depth_max" then .ok .calPondMax
  else if name == "field_capacity" then .ok .calFcPsi
  else .error (.throw "variable does not exist")

/-- Contents of a C array: of `int` or of `double`. -/
inductive Data (α : Type) where
  | ints (l : List Int)
  | dbls (l : List α)
  deriving DecidableEq, Repr

/-- The whole array a pointer points into. -/
def Ref.load (s : State α) : Ref → Data α
  | .precipRate => .dbls [s.precipMm]
  | .petRate => .dbls [s.petMm]
  | .precip => .dbls [s.conv.precip]
  | .pet => .dbls [s.conv.pet]
  | .aet => .dbls [s.conv.aet]
  | .runoff => .dbls [s.conv.runoff]
  | .giuh => .dbls [s.conv.giuh]
  | .storage => .dbls [s.conv.storage]
  | .Q => .dbls [s.conv.Q]
  | .infil => .dbls [s.conv.infil]
  | .rech => .dbls [s.conv.rech]
  | .Qgw => .dbls [s.conv.Qgw]
  | .massBalance => .dbls [s.conv.massBalance]
  | .cum => .dbls s.p.cum
  | .moistureWf => .dbls s.p.moistureWf
  | .depthWf => .dbls s.p.depthWf
  | .numWf => .ints [s.p.numWf]
  | .soilTemp => .dbls s.p.soilTemp
  | .calThetaE => .dbls s.calib.thetaE
  | .calThetaR => .dbls s.calib.thetaR
  | .calVgN => .dbls s.calib.vgN
  | .calVgAlpha => .dbls s.calib.vgAlpha
  | .calKsat => .dbls s.calib.Ksat
  | .calPondMax => .dbls [s.calib.pondMax]
  | .calFcPsi => .dbls [s.calib.fcPsi]

/-- Replace the array of doubles a pointer points into. -/
def Ref.storeD (s : State α) (l : List α) : Ref → State α
  | .precipRate => { s with precipMm := l.headD s.precipMm }
  | .petRate => { s with petMm := l.headD s.petMm }
  | .precip => { s with conv := { s.conv with precip := l.headD s.conv.precip } }
  | .pet => { s with conv := { s.conv with pet := l.headD s.conv.pet } }
  | .aet => { s with conv := { s.conv with aet := l.headD s.conv.aet } }
  | .runoff => { s with conv := { s.conv with runoff := l.headD s.conv.runoff } }
  | .giuh => { s with conv := { s.conv with giuh := l.headD s.conv.giuh } }
  | .storage => { s with conv := { s.conv with storage := l.headD s.conv.storage } }
  | .Q => { s with conv := { s.conv with Q := l.headD s.conv.Q } }
  | .infil => { s with conv := { s.conv with infil := l.headD s.conv.infil } }
  | .rech => { s with conv := { s.conv with rech := l.headD s.conv.rech } }
  | .Qgw => { s with conv := { s.conv with Qgw := l.headD s.conv.Qgw } }
  | .massBalance => { s with conv := { s.conv with massBalance := l.headD s.conv.massBalance } }
  | .cum => { s with p := { s.p with cum := l } }
  | .moistureWf => { s with p := { s.p with moistureWf := l } }
  | .depthWf => { s with p := { s.p with depthWf := l } }
  | .numWf => s
  | .soilTemp => { s with p := { s.p with soilTemp := l } }
  | .calThetaE => { s with calib := { s.calib with thetaE := l } }
  | .calThetaR => { s with calib := { s.calib with thetaR := l } }
  | .calVgN => { s with calib := { s.calib with vgN := l } }
  | .calVgAlpha => { s with calib := { s.calib with vgAlpha := l } }
  | .calKsat => { s with calib := { s.calib with Ksat := l } }
  | .calPondMax => { s with calib := { s.calib with pondMax := l.headD s.calib.pondMax } }
  | .calFcPsi => { s with calib := { s.calib with fcPsi := l.headD s.calib.fcPsi } }

/-- Replace the array of ints a pointer points into. -/
def Ref.storeI (s : State α) (l : List Int) : Ref → State α
  | .numWf => { s with p := { s.p with numWf := l.headD s.p.numWf } }
  | _ => s

/-- Number of elements `memcpy` moves for `nbytes` of element size `sz`; a negative `nbytes` becomes a huge `size_t`. -/
def memcpyCount (nbytes sz : Int) : Res Nat :=
  if nbytes < 0 then .error (.ub "memcpy with a negative size") else .ok (nbytes / sz).toNat

/-- Reading `n` elements of an array. -/
def readN {β : Type} (l : List β) (n : Nat) : Res (List β) :=
  if n ≤ l.length then .ok (l.take n) else .error (.ub "memcpy out of range")

/-- Overwriting the first `n` elements of `dst` by those of `src`. -/
def writeN {β : Type} (dst src : List β) (n : Nat) : Res (List β) :=
  if n ≤ dst.length ∧ n ≤ src.length then .ok (src.take n ++ dst.drop n) else .error (.ub "memcpy out of range")

/-- GetValue, bmi_lgar.cxx 879-888. -/
def getValue (s : State α) (name : String) : Res (Data α) := do
  let r ← valuePtr name
  let n ← memcpyCount (varNbytes s name) (varItemsize name)
  match r.load s with
  | .ints l => do
    let v ← readN l n
    return .ints v
  | .dbls l => do
    let v ← readN l n
    return .dbls v

/-- SetValue, bmi_lgar.cxx 978-990; a `src` of the wrong type or too short is undefined behaviour. -/
def setValue (s : State α) (name : String) (src : Data α) : Res (State α) := do
  let r ← valuePtr name
  let n ← memcpyCount (varNbytes s name) (varItemsize name)
  match r.load s, src with
  | .ints l, .ints v => do
    let l' ← writeN l v n
    return r.storeI s l'
  | .dbls l, .dbls v => do
    let l' ← writeN l v n
    return r.storeD s l'
  | _, _ => .error (.ub "source buffer of the wrong type")

/-- Elements at `inds`. -/
def readInds {β : Type} (l : List β) : List Int → Res (List β)
  | [] => .ok []
  | i :: is => do
    let v ← idxI l i
    let r ← readInds l is
    return v :: r

/-- Elements at `inds` overwritten one after another. -/
def writeInds {β : Type} (l : List β) : List Int → List β → Res (List β)
  | [], _ => .ok l
  | _ :: _, [] => .error (.ub "source buffer too short")
  | i :: is, v :: vs =>
    if 0 ≤ i ∧ i.toNat < l.length then writeInds (l.set i.toNat v) is vs
    else .error (.ub "array index out of range")

/-- GetValueAtIndices, bmi_lgar.cxx 956-975. -/
def getValueAtIndices (s : State α) (name : String) (inds : List Int) : Res (Data α) := do
  let r ← valuePtr name
  match r.load s with
  | .ints l => do
    let v ← readInds l inds
    return .ints v
  | .dbls l => do
    let v ← readInds l inds
    return .dbls v

/-- SetValueAtIndices, bmi_lgar.cxx 993-1013. -/
def setValueAtIndices (s : State α) (name : String) (inds : List Int) (src : Data α) : Res (State α) := do
  let r ← valuePtr name
  match r.load s, src with
  | .ints l, .ints v => do
    let l' ← writeInds l inds v
    return r.storeI s l'
  | .dbls l, .dbls v => do
    let l' ← writeInds l inds v
    return r.storeD s l'
  | _, _ => .error (.ub "source buffer of the wrong type")

/-- GetStartTime, bmi_lgar.cxx 1043-1046. -/
def startTime [Zero α] : α := 0
/-- GetEndTime, bmi_lgar.cxx 1049-1052. -/
def endTime (s : State α) : α := s.p.endtimeS
/-- GetCurrentTime, bmi_lgar.cxx 1055-1058. -/
def currentTime (s : State α) : α := s.p.timeS
/-- GetTimeStep, bmi_lgar.cxx 1067-1070. -/
def timeStep [Mul α] [OfScientific α] (s : State α) : α := s.p.forcingResH * 3600.0

end LGAR
