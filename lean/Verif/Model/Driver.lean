import Verif.Model.Bmi
/-
The stand-alone driver, /repo/src/bmi_main_lgar.cxx: main 32-179, ReadForcingData 183-262.
-/
namespace LGAR

variable {α : Type} [Add α] [Sub α] [Mul α] [Div α] [Neg α] [Zero α] [One α] [OfScientific α]
  [LT α] [LE α] [DecidableLT α] [DecidableLE α] [BEq α] [CMath α]

/-- An `ifstream`: unread characters, eofbit, failbit. -/
structure IStream where
  rest : List Char
  eof : Bool := false
  fail : Bool := false

/-- Characters before the first `sep`, and what follows it (`none`: `sep` does not occur). -/
def splitAt1 (sep : Char) : List Char → List Char × Option (List Char)
  | [] => ([], none)
  | c :: cs => if c == sep then ([], some cs) else
    let (a, r) := splitAt1 sep cs
    (c :: a, r)

/-- `std::getline(stream, line)` with `line` holding `old` before the call.  A stream that is not good (eofbit left by a
last line without newline) fails in the sentry and leaves `line` unchanged. -/
def getline (st : IStream) (old : List Char) : IStream × List Char :=
  if st.eof || st.fail then ({ st with fail := true }, old)
  else
    match splitAt1 '\n' st.rest with
    | (l, some r) => ({ st with rest := r }, l)
    | ([], none) => ({ rest := [], eof := true, fail := true }, [])
    | (l, none) => ({ rest := [], eof := true, fail := false }, l)

/-- Cells of a line: `while (std::getline(lineStream, cell, ','))`, bmi_main_lgar.cxx 239 (a trailing empty cell is not
returned). -/
def cells : Nat → List Char → List (List Char)
  | 0, _ => []
  | _ + 1, [] => []
  | fuel + 1, s =>
    match splitAt1 ',' s with
    | (c, none) => [c]
    | (c, some r) => c :: cells fuel r

/-- The forcing vectors. -/
structure Forcing (α : Type) where
  time : List (List Char) := []
  precip : List α := []
  pet : List α := []

/-- Body of the line loop, bmi_main_lgar.cxx 237-257: cells beyond the third are ignored, missing ones are not pushed. -/
def forcingLine (env : Env α) (f : Forcing α) (line : List Char) : Res (Forcing α) :=
  match cells (line.length + 1) line with
  | [] => .ok f
  | [t] => .ok { f with time := f.time ++ [t] }
  | [t, p] => do
    let p ← cstod env p
    return { f with time := f.time ++ [t], precip := f.precip ++ [p] }
  | t :: p :: e :: _ => do
    let p ← cstod env p
    let e ← cstod env e
    return { f with time := f.time ++ [t], precip := f.precip ++ [p], pet := f.pet ++ [e] }

/-- `while (fp) { getline(fp, line); ... }`, bmi_main_lgar.cxx 235-259. -/
def forcingLoop (env : Env α) : Nat → IStream → List Char → Forcing α → Res (Forcing α)
  | 0, _, _, _ => .error .fuel
  | fuel + 1, st, line, f =>
    if st.fail then .ok f
    else do
      let (st', line') := getline st line
      let f' ← forcingLine env f line'
      forcingLoop env fuel st' line' f'

/-- The loop that looks for forcing_file in the configuration file, bmi_main_lgar.cxx 200-215. -/
def findForcing : List (List Char) → Option (List Char)
  | [] => none
  | l :: ls => if paramKey l == "forcing_file".toList then some (l.drop (locEq l)) else findForcing ls

/-- ReadForcingData on the contents of the forcing file, bmi_main_lgar.cxx 230-259 (first line skipped). -/
def readForcing (env : Env α) (content : List Char) : Res (Forcing α) :=
  let (st, line) := getline { rest := content } []
  forcingLoop env (content.length + 3) st line {}

/-- Output variables written by the driver, bmi_main_lgar.cxx 62-72. -/
def driverOutputs : List String :=
  ["precipitation", "potential_evapotranspiration", "actual_evapotranspiration", "surface_runoff", "giuh_runoff",
   "soil_storage", "total_discharge", "infiltration", "percolation", "groundwater_to_stream_recharge", "mass_balance"]

/-- One line of data_variables.csv. -/
structure Row (α : Type) where
  time : List Char
  vals : List (Data α)

/-- GetValue for a list of names. -/
def getAll (s : State α) : List String → Res (List (Data α))
  | [] => .ok []
  | n :: ns => do
    let v ← getValue s n
    let r ← getAll s ns
    return v :: r

/-- One iteration of the time loop, bmi_main_lgar.cxx 116-162. -/
def driverStep (fuel : Nat) (standalone : Bool) (f : Forcing α) (i : Nat) (s : State α) : Res (State α × Row α) := do
  let p ← idx f.precip i
  let e ← idx f.pet i
  let t ← idx f.time i
  let s ← setValue s "precipitation_rate" (.dbls [p])
  let s ← setValue s "potential_evapotranspiration_rate" (.dbls [e])
  let s ← update fuel standalone s
  let _ ← getValue s "soil_moisture_wetting_fronts"
  let _ ← getValue s "soil_depth_wetting_fronts"
  let vals ← getAll s driverOutputs
  return (s, { time := t, vals := vals })

/-- The time loop from step `i`, `n` steps left. -/
def driverLoop (fuel : Nat) (standalone : Bool) (f : Forcing α) : Nat → Nat → State α → Res (State α × List (Row α))
  | 0, _, s => .ok (s, [])
  | n + 1, i, s => do
    let (s, r) ← driverStep fuel standalone f i s
    let (s, rs) ← driverLoop fuel standalone f n (i + 1) s
    return (s, r :: rs)

/-- main, bmi_main_lgar.cxx 32-179, with one argument; `contents` gives the forcing file. -/
def driver (fuel : Nat) (standalone : Bool) (env : Env α) (config : List (List Char))
    (contents : List Char → Option (List Char)) : Res (State α × List (Row α)) := do
  let s ← bmiInitialize env config
  let q ← cdiv (endTime s) (timeStep s)
  let nsteps := CMath.toInt q
  let file ← match findForcing config with
    | none => .error (.throw "does not provide forcing_file")
    | some f => .ok f
  let content ← match contents file with
    | none => .error (.abort "forcing file does not exist")
    | some c => .ok c
  let f ← readForcing env content
  cassert (nsteps ≤ (f.pet.length : Int)) "nsteps <= int(PET.size())"
  driverLoop fuel standalone f nsteps.toNat 0 s

end LGAR
