import Verif.Num.Float
/-
Runs the Float instance of the model on the inputs of /repo and compares with the numbers recorded there.
  cd /verif/lean && lake env lean --run Verif/Validate.lean unit
  cd /verif/lean && lake env lean --run Verif/Validate.lean synth 1 [nsteps]
-/
open LGAR

def pow10 (k : Nat) : Float := Float.ofScientific 1 false k

/-- strtod for plain decimal notation; returns the rest. -/
def strtod (s : List Char) : Option (Float × List Char) := Id.run do
  let mut s := s.dropWhile (fun c => c.isWhitespace)
  let mut neg := false
  match s with
  | '-' :: t => neg := true; s := t
  | '+' :: t => s := t
  | _ => pure ()
  let ip := s.takeWhile Char.isDigit
  s := s.drop ip.length
  let mut fp : List Char := []
  match s with
  | '.' :: t => fp := t.takeWhile Char.isDigit; s := t.drop fp.length
  | _ => pure ()
  if ip.isEmpty && fp.isEmpty then return none
  let digits := (ip ++ fp).foldl (fun n c => n * 10 + (c.toNat - '0'.toNat)) 0
  let mut e : Int := -(fp.length : Int)
  match s with
  | c :: t =>
    if c == 'e' || c == 'E' then
      let (sg, t') := match t with
        | '-' :: u => (true, u)
        | '+' :: u => (false, u)
        | u => (false, u)
      let ds := t'.takeWhile Char.isDigit
      if !ds.isEmpty then
        let n : Nat := ds.foldl (fun n c => n * 10 + (c.toNat - '0'.toNat)) 0
        e := e + (if sg then -(n : Int) else (n : Int))
        s := t'.drop ds.length
  | _ => pure ()
  let v := if e < 0 then Float.ofScientific digits true e.natAbs else Float.ofScientific digits false e.natAbs
  return some (if neg then -v else v, s)

def junkSoil : SoilProps Float := ⟨0, 0, 0, 0, 0, 0, 0, 0, 0, 0⟩
def junkMb : MassVars Float := ⟨0,0,0,0,0,0,0,0,0,0,0,0,0,0,0,0,0,0,0,0,0,0,0,0,0⟩
def junkConv : Conv Float := ⟨0,0,0,0,0,0,0,0,0,0,0⟩

def splitLines (s : String) : List (List Char) := (s.splitOn "\n").map String.toList

def mkEnv (files : List Char → Option (List (List Char))) : Env Float :=
  { stod := fun s => (strtod s).map (·.1), stoi := fun s => (strtod s).map (fun x => floatToInt x.1),
    scanF := strtod, files := files, junk := 0, junkRec := ⟨[], 0, 0, 0, 0, 0⟩, junkSoil := junkSoil,
    junkConv := junkConv, junkMb := junkMb }

def show' (e : Err) : String := toString (repr e)

def orDie {β : Type} (r : Res β) : IO β :=
  match r with
  | .ok b => pure b
  | .error e => throw (IO.userError (show' e))

def dbls : Data Float → List Float
  | .dbls l => l
  | .ints l => l.map Float.ofInt

def showFronts (l : List (Front Float)) : String :=
  toString (l.map (fun f => (f.depth, f.theta, f.layer, f.front, f.psi)))

def loadEnv (dir cfg : String) : IO (Env Float × List (List Char)) := do
  let text ← IO.FS.readFile (dir ++ "/" ++ cfg)
  let lines := splitLines text
  let sf := (lines.find? (fun l => paramKey l == "soil_params_file".toList)).map (fun l => String.ofList (paramValue l))
  let soil ← IO.FS.readFile (dir ++ "/" ++ sf.getD "")
  let ls := splitLines soil
  -- fgets yields no line for the empty string after the last newline
  let ls := if ls.getLast? == some [] then ls.dropLast else ls
  return (mkEnv (fun _ => some ls), lines)

def unit : IO Unit := do
  let (env, lines) ← loadEnv "/repo/tests" "configs/unittest.txt"
  let s ← orDie (bmiInitialize env lines)
  IO.println (showFronts s.head)
  let s ← orDie (setValueAtIndices s "precipitation_rate" [0] (.dbls [1.896]))
  let s ← orDie (setValueAtIndices s "potential_evapotranspiration_rate" [0] (.dbls [0.104]))
  let s ← orDie (setValueAtIndices s "soil_temperature_profile" [0] (.dbls [0.0]))
  let s ← orDie (update 100000 true s)
  let d := dbls (← orDie (getValue s "soil_depth_wetting_fronts"))
  let t := dbls (← orDie (getValue s "soil_moisture_wetting_fronts"))
  let db : List Float := [4.55355239489608365, 44.00, 175.0, 200.0]
  let tb : List Float := [0.21371581122514613, 0.17270389607163267, 0.25211383152603861, 0.17959348005962811]
  IO.println s!"depth (model, benchmark, difference times 1e15): {(d.zip db).map fun (a, b) => (a * 100, b, (a * 100 - b) * 1e15)}"
  IO.println s!"theta (model, benchmark, difference times 1e15): {(t.zip tb).map fun (a, b) => (a, b, (a - b) * 1e15)}"
  let aet := (dbls (← orDie (getValue s "actual_evapotranspiration"))).headD 0
  let infil := (dbls (← orDie (getValue s "infiltration"))).headD 0
  let pet := (dbls (← orDie (getValue s "potential_evapotranspiration"))).headD 0
  IO.println s!"AET mm {aet * 1000} benchmark 0.02980092620558239 difference {(aet * 1000 - 0.02980092620558239) * 1e15} (1e-15)"
  IO.println s!"infiltration mm {infil * 1000} benchmark 1.896, PET mm {pet * 1000} benchmark 0.104"
  IO.println s!"global error {globalError s.mb * 1e15} (1e-15 cm)"
  -- calibration part of the unit test
  let s ← orDie (bmiInitialize env lines)
  let s ← orDie (setValue s "smcmax" (.dbls [0.3513, 0.3773, 0.3617]))
  let s ← orDie (setValue s "van_genuchten_n" (.dbls [1.44260592334, 1.14965918354, 1.39051695249]))
  let s ← orDie (setValue s "van_genuchten_alpha" (.dbls [0.0021297, 0.0073272, 0.0027454]))
  let s ← orDie (setValue s "hydraulic_conductivity" (.dbls [0.446, 0.0743, 0.415]))
  let s ← orDie (setValue s "field_capacity" (.dbls [103.3]))
  let s ← orDie (setValue s "ponded_depth_max" (.dbls [1.0]))
  let s ← orDie (setValue s "precipitation_rate" (.dbls [1.2]))
  let s ← orDie (setValue s "potential_evapotranspiration_rate" (.dbls [3.0]))
  let s ← orDie (update 100000 true s)
  IO.println (showFronts s.head)
  IO.println s!"global error {globalError s.mb * 1e15} (1e-15 cm)"

def synth (k : String) (nmax : Nat) (verbose : Bool := false) : IO Unit := do
  let dir := "/repo/tests"
  let (env, lines) ← loadEnv dir s!"configs/config_lasam_synth_{k}.txt"
  let ff := String.ofList ((findForcing lines).getD [])
  let content ← IO.FS.readFile (dir ++ "/" ++ ff)
  let mut s ← orDie (bmiInitialize env lines)
  let q := endTime s / timeStep s
  let nsteps := floatToInt q
  let f ← orDie (readForcing env content.toList)
  let ref ← IO.FS.readFile (dir ++ s!"/outputs/synthetic{k}/data_variables.csv")
  let rows := ((ref.splitOn "\n").drop 1).toArray
  IO.println s!"steps {nsteps}, forcing rows {f.pet.length}, reference rows {rows.size}"
  let precip := f.precip.toArray
  let pet := f.pet.toArray
  let mut worst : Float := 0
  let mut worstAt := 0
  let mut firstBad : Option Nat := none
  let N := min nsteps.toNat nmax
  let mut done := 0
  for i in [0:N] do
    s ← orDie (setValue s "precipitation_rate" (.dbls [precip[i]!]))
    s ← orDie (setValue s "potential_evapotranspiration_rate" (.dbls [pet[i]!]))
    match update 1000000 true s with
    | .error e => IO.println s!"step {i}: {show' e}"; break
    | .ok s' => s := s'
    let vals ← orDie (getAll s driverOutputs)
    let mine := vals.map (fun d => (dbls d).headD 0)
    let cells := ((rows[i]!).splitOn ",").drop 1
    let refv := cells.map (fun c => ((strtod c.toList).map (·.1)).getD 0)
    -- the recorded file has one column less when it predates groundwater_to_stream_recharge
    for (a, b) in mine.zip refv do
      let d := (a - b).abs
      if d > worst then worst := d; worstAt := i
    if firstBad.isNone && (mine.zip refv).any (fun (a, b) => (a - b).abs > 1e-9) then
      firstBad := some i
      IO.println s!"first step differing by more than 1e-9 m: {i}\n model {mine}\n reference {refv}"
    done := i + 1
    if verbose then IO.println s!"{i} {mine.map (· * 1e9)}\n{showFronts s.head}"
  IO.println s!"{done} steps compared, largest difference {worst * 1e15} (1e-15 m) at step {worstAt}; global error {globalError s.mb * 1e15} (1e-15 cm)"
  IO.println (showFronts s.head)

/-- Run a configuration without reference output: report how it ends and the global error. -/
def run (dir cfg : String) (nmax : Nat) : IO Unit := do
  let (env, lines) ← loadEnv dir cfg
  let ff := String.ofList ((findForcing lines).getD [])
  let content ← IO.FS.readFile (dir ++ "/" ++ ff)
  let mut s ← orDie (bmiInitialize env lines)
  let f ← orDie (readForcing env content.toList)
  let precip := f.precip.toArray
  let pet := f.pet.toArray
  let mut maxPond : Float := 0
  for i in [0:min nmax (floatToInt (endTime s / timeStep s)).toNat] do
    s ← orDie (setValue s "precipitation_rate" (.dbls [precip[i]!]))
    s ← orDie (setValue s "potential_evapotranspiration_rate" (.dbls [pet[i]!]))
    match update 1000000 true s with
    | .error e => IO.println s!"step {i}: {show' e}\n{showFronts s.head}"; break
    | .ok s' => s := s'
    if s.mb.volonT > maxPond then maxPond := s.mb.volonT
    if i % 1000 == 0 then IO.println s!"step {i} fronts {s.head.length} global error {globalError s.mb * 1e9} (1e-9 cm)"; (← IO.getStdout).flush
  IO.println s!"end: time {currentTime s} global error {globalError s.mb * 1e9} (1e-9 cm), largest ponding {maxPond}"

def main (args : List String) : IO Unit :=
  match args with
  | ["unit"] => unit
  | ["synth", k] => synth k 1000000000
  | ["synth", k, n] => synth k n.toNat!
  | ["synth", k, n, "v"] => synth k n.toNat! true
  | ["run", dir, cfg, n] => run dir cfg n.toNat!
  | _ => IO.println "unit | synth K [nsteps]"
