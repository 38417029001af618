import Verif.Model.Init
/-
Reading the configuration file: InitFromConfigFile, /repo/src/lgar.cxx 222-523, and ReadVectorData (780-807).
A line is a `List Char`; `stod`/`stoi` are the C++ library functions (`none` = exception).
-/
namespace LGAR

variable {α : Type} [Add α] [Sub α] [Mul α] [Div α] [Neg α] [Zero α] [One α] [OfScientific α]
  [LT α] [LE α] [DecidableLT α] [DecidableLE α] [BEq α] [CMath α]

/-- `line.find(c)`; `none` is `npos`. -/
def findChar (c : Char) : List Char → Option Nat
  | [] => none
  | x :: xs => if x == c then some 0 else (findChar c xs).map (· + 1)

/-- `param_key = line.substr(0, line.find("="))`, lgar.cxx 243. -/
def paramKey (line : List Char) : List Char :=
  match findChar '=' line with
  | none => line
  | some i => line.take i

/-- `loc_eq = line.find("=") + 1` (0 when there is no '='), lgar.cxx 241. -/
def locEq (line : List Char) : Nat :=
  match findChar '=' line with
  | none => 0
  | some i => i + 1

/-- `param_value = line.substr(loc_eq, loc_u - loc_eq)`, lgar.cxx 252.  `loc_u` is -1 without '[', and a negative
length (also when '[' comes before '=') means "to the end of the line". -/
def paramValue (line : List Char) : List Char :=
  match findChar '[' line with
  | none => line.drop (locEq line)
  | some u => if locEq line ≤ u then (line.drop (locEq line)).take (u - locEq line) else line.drop (locEq line)

/-- `param_unit`, lgar.cxx 245-250: from '[' on, with length `line.find("]") + 1` (a length, not an end position). -/
def paramUnit (line : List Char) : List Char :=
  match findChar '[' line with
  | none => []
  | some u =>
    match findChar ']' line with
    | none => []
    | some v => (line.drop u).take (v + 1)

/-- `stod` as a modelled call. -/
def cstod (env : Env α) (s : List Char) : Res α :=
  match env.stod s with
  | none => .error (.throw "stod")
  | some x => .ok x

/-- Loop of ReadVectorData, lgar.cxx 794-803; `z` contains a comma.  The fuel is the length of the string. -/
def readVecLoop (env : Env α) : Nat → List Char → Res (List α)
  | 0, _ => .error .fuel
  | fuel + 1, z =>
    match findChar ',' z with
    | none => .ok []
    | some pos => do
      let v ← cstod env (z.take pos)
      let z' := z.drop (pos + 1)
      if findChar ',' z' = none then
        let w ← cstod env z'
        return [v, w]
      else
        let r ← readVecLoop env fuel z'
        return v :: r

/-- ReadVectorData, lgar.cxx 780-807. -/
def readVector (env : Env α) (z : List Char) : Res (List α) :=
  if findChar ',' z = none then do
    let v ← cstod env z
    return [v]
  else readVecLoop env (z.length + 1) z

/-- Units `[s]`, `[sec]` or no unit. -/
def isSec (u : List Char) : Bool := u == "[s]".toList || u == "[sec]".toList || u == []
/-- Units `[min]`, `[minute]`. -/
def isMin (u : List Char) : Bool := u == "[min]".toList || u == "[minute]".toList
/-- Units `[h]`, `[hr]`. -/
def isHour (u : List Char) : Bool := u == "[h]".toList || u == "[hr]".toList
/-- Units `[d]`, `[day]`. -/
def isDay (u : List Char) : Bool := u == "[d]".toList || u == "[day]".toList

/-- Conversion of `timestep` and `forcing_resolution` to hours, lgar.cxx 421-427 and 466-472 (an unknown unit leaves the
number as it is). -/
def toHours (u : List Char) (x : α) : α :=
  if isSec u then x / 3600.0 else if isMin u then x / 60.0 else if isHour u then x / 1 else x

/-- Conversion of `endtime` to seconds, lgar.cxx 445-452; `none` for an unknown unit (variable not assigned). -/
def toSeconds (u : List Char) (x : α) : Option α :=
  if isSec u then some x else if isMin u then some (x * 60.0) else if isHour u then some (x * 3600.0)
  else if isDay u then some (x * 86400.0) else none

/-- `true`/`false` options; anything else aborts. -/
def parseBool (v : List Char) : Res Bool :=
  if v == "true".toList then .ok true else if v == "false".toList then .ok false else .error (.abort "invalid option")

/-- `adaptive_timestep` also accepts 0 and 1, lgar.cxx 406-413. -/
def parseBool01 (v : List Char) : Res Bool :=
  if v == "false".toList || v == "0".toList then .ok false
  else if v == "true".toList || v == "1".toList then .ok true else .error (.abort "invalid option")

/-- The keys that the program knows. -/
inductive Key
  | thick | soilType | giuh | soilZ | initialPsi | numTypes | soilFile | wp | fc | closed | adaptive | timestep | endtime
  | forcingRes | sft | pondMax | calib
  deriving DecidableEq

/-- The text of each key, lgar.cxx 260-511, in the order in which they are compared. -/
def keyTable : List (List Char × Key) :=
  [("layer_thickness".toList, .thick), ("layer_soil_type".toList, .soilType), ("giuh_ordinates".toList, .giuh),
   ("soil_z".toList, .soilZ), ("initial_psi".toList, .initialPsi), ("max_valid_soil_types".toList, .numTypes),
   ("soil_params_file".toList, .soilFile), ("wilting_point_psi".toList, .wp), ("field_capacity_psi".toList, .fc),
   ("use_closed_form_G".toList, .closed), ("adaptive_timestep".toList, .adaptive), ("timestep".toList, .timestep),
   ("endtime".toList, .endtime), ("forcing_resolution".toList, .forcingRes), ("sft_coupled".toList, .sft),
   ("ponded_depth_max".toList, .pondMax), ("calib_params".toList, .calib)]

/-- The chain of comparisons `param_key == "..."`, lgar.cxx 260-511. -/
def keyOf (k : List Char) : Option Key := (keyTable.find? (fun e => k == e.1)).map (fun e => e.2)

/-- The branch for `max_valid_soil_types`, lgar.cxx 353-357. -/
def setNumTypes (env : Env α) (c : Cfg α) (v : List Char) : Res (Cfg α) :=
  match env.stoi v with
  | none => .error (.throw "stoi")
  | some n => .ok { c with numTypes := some (min n 15) }

/-- The branch for `endtime`, lgar.cxx 442-463: `stod` is only reached for a known unit; otherwise the assertion reads what
the variable held. -/
def setEndtime (env : Env α) (c : Cfg α) (v u : List Char) : Res (Cfg α) :=
  if isSec u || isMin u || isHour u || isDay u then do
    let x ← cstod env v
    match toSeconds u x with
    | none => .error (.ub "endtime_s uninitialised")
    | some t => do
      cassert (0 < t) "endtime_s > 0"
      return { c with endtime := some t }
  else
    match c.endtime with
    | none => .error (.ub "endtime_s uninitialised")
    | some t => do
      cassert (0 < t) "endtime_s > 0"
      return c

/-- The branch of each key, lgar.cxx 260-522 (`v` and `u` are the value and unit texts of the line). -/
def applyKey (env : Env α) (c : Cfg α) (v u : List Char) : Key → Res (Cfg α)
  | .thick => do
    let x ← readVector env v
    return { c with thick := some x }
  | .soilType => do
    let x ← readVector env v
    return { c with soilType := some (x.map CMath.toInt) }
  | .giuh => do
    let x ← readVector env v
    return { c with giuh := some x }
  | .soilZ => do
    let x ← readVector env v
    return { c with soilZ := some x }
  | .initialPsi => do
    let x ← cstod env v
    return { c with initialPsi := some x }
  | .numTypes => setNumTypes env c v
  | .soilFile => .ok { c with soilFile := some v }
  | .wp => do
    let x ← cstod env v
    return { c with wp := some x }
  | .fc => do
    let x ← cstod env v
    return { c with fc := some x }
  | .closed => do
    let b ← parseBool v
    return { c with closed := b }
  | .adaptive => do
    let b ← parseBool01 v
    return { c with adaptive := b }
  | .timestep => do
    let x ← cstod env v
    cassert (0 < toHours u x) "timestep_h > 0"
    return { c with timestep := some (toHours u x) }
  | .endtime => setEndtime env c v u
  | .forcingRes => do
    let x ← cstod env v
    cassert (0 < toHours u x) "forcing_resolution_h > 0"
    return { c with forcingRes := some (toHours u x) }
  | .sft => do
    let b ← parseBool v
    return { c with sft := b }
  | .pondMax => do
    let x ← cstod env v
    return { c with pondMax := some (CMath.fmax x 0) }
  | .calib => do
    let b ← parseBool v
    return { c with calib := b }

/-- Effect of one line of the configuration file, lgar.cxx 239-523. -/
def configLine (env : Env α) (c : Cfg α) (line : List Char) : Res (Cfg α) :=
  match keyOf (paramKey line) with
  | none => .ok c
  | some k => applyKey env c (paramValue line) (paramUnit line) k

/-- The read loop, lgar.cxx 234-524 (the extra empty line that `while (fp) getline` sees at the end of the file has no
effect, key "" matches nothing). -/
def readConfig (env : Env α) : Cfg α → List (List Char) → Res (Cfg α)
  | c, [] => .ok c
  | c, line :: rest => do
    let c ← configLine env c line
    readConfig env c rest

/-- BmiLGAR::Initialize with the lines of the configuration file. -/
def bmiInitialize (env : Env α) (lines : List (List Char)) : Res (State α) := do
  let c ← readConfig env {} lines
  lgarInit env c

end LGAR
