import Verif.Model.Update
/-
Initialisation: InitializeWettingFronts (/repo/src/lgar.cxx 733-771), the tail of InitFromConfigFile (538-723),
lgar_initialize (73-139), BmiLGAR::Initialize (/repo/src/bmi_lgar.cxx 32-58), and the soil parameter file
(lgar_read_vG_param_file, /repo/src/lgar.cxx 2277-2356).
-/
namespace LGAR

variable {α : Type} [Add α] [Sub α] [Mul α] [Div α] [Neg α] [Zero α] [One α] [OfScientific α]
  [LT α] [LE α] [DecidableLT α] [DecidableLE α] [BEq α] [CMath α]

/-- InitializeWettingFronts, lgar.cxx 743-769: layers `layer, layer+1, ...`, `n` left. -/
def initFrontsGo (g : Geo α) (psi : α) : Nat → Nat → List (Front α) → Res (List (Front α))
  | 0, _, l => .ok l
  | n + 1, layer, l => do
    let s ← g.soil layer
    let th ← calcThetaFromH psi s.vgAlpha s.vgM s.vgN s.thetaE s.thetaR
    let c ← idx g.cum layer
    let (p, l') ← listInsertFront 0 0 c th (Int.ofNat layer) layer true l
    let f ← derefOpt l' p
    let Se ← calcSeFromTheta f.theta s.thetaE s.thetaR
    let ff ← idx g.frozen layer
    let K ← calcKFromSe Se (ff * s.Ksat) s.vgM
    initFrontsGo g psi n (layer + 1) (l'.set (p.getD 0) { f with psi := psi, K := K })

/-- InitializeWettingFronts, lgar.cxx 733-771 (called with an empty list). -/
def initFronts (g : Geo α) (psi : α) : Res (List (Front α)) := initFrontsGo g psi g.numLayers 1 []

/-- cum_layer_thickness_cm for `layer_thickness`, lgar.cxx 262-270 (entry 0 is 0). -/
def cumGo : α → List α → List α
  | _, [] => []
  | c, t :: ts => (c + t) :: cumGo (c + t) ts

/-- The array `cum_layer_thickness_cm[0..num_layers]`. -/
def cumThickness (thick : List α) : List α := 0 :: cumGo 0 thick

/-- `giuh_ordinates_temp[i] / giuh_factor`, lgar.cxx 647 (not evaluated when the factor is 0: the inner loop is empty). -/
def giuhPart (factor : Nat) (o : α) : Res α :=
  if factor = 0 then .ok 0 else cdiv o (CMath.ofInt (Int.ofNat factor))

/-- GIUH resampling, lgar.cxx 639-650, without the unused index 0: every hourly ordinate is replaced by `factor` equal
parts. -/
def giuhResample (factor : Nat) : List α → Res (List α)
  | [] => .ok []
  | o :: os => do
    let q ← giuhPart factor o
    let r ← giuhResample factor os
    return List.replicate factor q ++ r

/-- The values of the configuration file, after reading it (see `Model/Config`).  `none` = key not set. -/
structure Cfg (α : Type) where
  thick : Option (List α) := none
  soilType : Option (List Int) := none
  giuh : Option (List α) := none
  soilZ : Option (List α) := none
  initialPsi : Option α := none
  numTypes : Option Int := none
  soilFile : Option (List Char) := none
  wp : Option α := none
  fc : Option α := none
  closed : Bool := false
  adaptive : Bool := false
  timestep : Option α := none
  endtime : Option α := none
  forcingRes : Option α := none
  sft : Bool := false
  pondMax : Option α := none
  calib : Bool := false

/-- One record of the soil file as `sscanf` leaves it in the local variables (lgar.cxx 2309). -/
structure SoilRec (α : Type) where
  name : List Char
  thetaR : α
  thetaE : α
  alpha : α
  n : α
  Ksat : α

/-- Store record `r` (lgar.cxx 2310-2345) into the array element that held `old`.
`wp` is the value of theta_wp, computed by the code from an uninitialised `vg_m` (line 2323) and never used. -/
def soilOfRec (wp : α) (old : SoilProps α) (r : SoilRec α) : Res (SoilProps α) := do
  if 30 ≤ r.name.length then .error (.ub "soil_name[30] overflow")
  else if 25 < r.name.length then .error (.exit 0)
  else if r.name.length = 25 then .error (.ub "strcpy into soil_name[25]")
  else
    let q ← cdiv 1 r.n
    let s : SoilProps α := { old with thetaR := r.thetaR, thetaE := r.thetaE, vgAlpha := r.alpha, vgN := r.n,
                                      vgM := 1 - q, Ksat := r.Ksat, thetaWp := wp }
    let s ← if 1 < r.n then do
        let q ← cdiv 1 r.n
        let m := 1 - q
        let q2 ← cdiv 2.0 m
        let p := 1 + q2
        let lam ← cdiv 2.0 (p - 3.0)
        let b ← cdiv ((p + 3.0) * (147.8 + 8.1 * p + 0.092 * p * p))
          (2.0 * r.alpha * p * (p - 1) * (55.6 + 7.4 * p + p * p))
        cassert (0 < b) "0.0 < bc_psib_cm"
        .ok { s with bcLambda := lam, bcPsib := b }
      else .ok s
    let q3 ← cdiv 3.0 s.bcLambda
    let h ← cdiv (s.bcPsib * (2.0 + q3)) (1 + q3)
    return { s with hMin := h }

/-- `sscanf(jstr,"%s %lf %lf %lf %lf %lf", ...)`: conversions stop at the first failure and leave the remaining
variables as they were.  `scanF` models `%lf` (skips blanks, parses a prefix, returns the rest). -/
def scanFields (scanF : List Char → Option (α × List Char)) (r : SoilRec α) (s : List Char) : SoilRec α :=
  match scanF s with
  | none => r
  | some (tr, s) =>
    let r := { r with thetaR := tr }
    match scanF s with
    | none => r
    | some (te, s) =>
      let r := { r with thetaE := te }
      match scanF s with
      | none => r
      | some (a, s) =>
        let r := { r with alpha := a }
        match scanF s with
        | none => r
        | some (n, s) =>
          let r := { r with n := n }
          match scanF s with
          | none => r
          | some (k, _) => { r with Ksat := k }

/-- A blank as `%s` sees it. -/
def isBlank (c : Char) : Bool := c == ' ' || c == '\t' || c == '\n' || c == '\r'

/-- The whole `sscanf` call: `%s` takes the first blank-free word; on an empty line nothing is converted. -/
def scanLine (scanF : List Char → Option (α × List Char)) (r : SoilRec α) (line : List Char) : SoilRec α :=
  let s := line.dropWhile isBlank
  if s.isEmpty then r
  else
    let name := s.takeWhile (fun c => !isBlank c)
    scanFields scanF { r with name := name } (s.drop name.length)

/-- The read loop of lgar_read_vG_param_file, lgar.cxx 2307-2351: lines after the header, `soil` the next index,
`count` records read so far.  Result: array and number of records. -/
def readSoilsGo (scanF : List Char → Option (α × List Char)) (wp : α) (numTypes : Int) :
    List (List Char) → Nat → Int → SoilRec α → List (SoilProps α) → Res (List (SoilProps α) × Int)
  | [], _, count, _, soils => .ok (soils, count)
  | line :: rest, soil, count, r, soils => do
    let r := scanLine scanF r line
    let old ← idx soils soil
    let s ← soilOfRec wp old r
    let soils ← setIdx soils soil s
    if numTypes = count + 1 then return (soils, count + 1)
    else readSoilsGo scanF wp numTypes rest (soil + 1) (count + 1) r soils

/-- lgar_read_vG_param_file, lgar.cxx 2277-2356.  `lines` are the results of successive `fgets` calls (`fgetsAll` in
`Model/SoilFile` makes them from the text of the file); `r0`, `fresh` stand for uninitialised locals and array contents. -/
def readSoils (scanF : List Char → Option (α × List Char)) (wp : α) (numTypes : Int) (lines : List (List Char))
    (r0 : SoilRec α) (fresh : List (SoilProps α)) : Res (List (SoilProps α) × Int) :=
  readSoilsGo scanF wp numTypes (lines.drop 1) 1 0 r0 fresh

/-- The check at lgar.cxx 556-568, layers `layer, ...` (`n` left): is some soil type larger than `numTypes`? -/
def invalidTypes (soilType : List Int) (numTypes : Int) : Nat → Nat → Res Bool
  | 0, _ => .ok false
  | n + 1, layer => do
    let t ← idx soilType layer
    if numTypes < t then return true else invalidTypes soilType numTypes n (layer + 1)

/-- Soil parameters of layers `layer, ...` (`n` left), collected for the calibration arrays (lgar.cxx 98-113). -/
def calibInit (g : Geo α) : Nat → Nat → Res (List (SoilProps α))
  | 0, _ => .ok []
  | n + 1, layer => do
    let s ← g.soil layer
    let r ← calibInit g n (layer + 1)
    return s :: r

/-- Values a C++ program leaves uninitialised, and the environment: contents of the soil file (`none` if it cannot be
opened) and number parsing. -/
structure Env (α : Type) where
  stod : List Char → Option α
  stoi : List Char → Option Int
  scanF : List Char → Option (α × List Char)
  files : List Char → Option (List (List Char))
  junk : α
  junkRec : SoilRec α
  junkSoil : SoilProps α
  junkConv : Conv α
  junkMb : MassVars α

/-- Entry of `layer_soil_type` with the unused entry 0. -/
def typeArray (ts : List Int) : List Int := 0 :: ts

/-- A value that has to be set. -/
def need {β : Type} (e : Err) : Option β → Res β
  | none => .error e
  | some x => .ok x

/-- InitFromConfigFile after the configuration file has been read (lgar.cxx 538-723), lgar_initialize (73-139) and
BmiLGAR::Initialize (bmi_lgar.cxx 32-58).  `new soil_properties_[n+1]` with negative `n+1` throws;
`new double[num_cells_temp]` (line 667) reads num_cells_temp before the test of soil_z throws. -/
def lgarInit (env : Env α) (c : Cfg α) : Res (State α) := do
  let numTypes := c.numTypes.getD 15
  let ts ← need (.throw "does not set layer_soil_type") c.soilType
  let file ← need (.throw "does not set soil_params_file") c.soilFile
  let _ ← need (.throw "bad_array_new_length") (if numTypes + 1 < 0 then none else some ())
  let lines ← need (.exit (-1)) (env.files file)
  let (soils, _) ← readSoils env.scanF env.junk numTypes lines env.junkRec
    (List.replicate (numTypes + 1).toNat env.junkSoil)
  -- num_layers is read here; it is uninitialised when layer_thickness is not set
  let thick ← need (.ub "num_layers uninitialised") c.thick
  let N := thick.length
  let types := typeArray ts
  let invalid ← invalidTypes types numTypes N 1
  let psi ← need (.throw "does not set initial_psi") c.initialPsi
  let dt ← need (.throw "does not set timestep") c.timestep
  let endt ← need (.throw "does not set endtime") c.endtime
  let wp ← need (.throw "does not set wilting_point_psi") c.wp
  let fc ← need (.throw "does not set field_capacity_psi") c.fc
  let res ← need (.throw "does not set forcing_resolution") c.forcingRes
  let ords ← need (.throw "does not set giuh_ordinates") c.giuh
  let inv ← cdiv 1 res
  let factor := CMath.toInt inv
  let giuh ← giuhResample factor.toNat ords
  let soilZ ← need (.ub "num_cells_temp uninitialised") (if c.sft then c.soilZ else some [0])
  let q ← cdiv res dt
  let cum := cumThickness thick
  let depth ← idx cum N
  let frozen := List.replicate (N + 1) (1 : α)
  let g : Geo α := { numLayers := N, cum := cum, soilType := types, frozen := frozen, soils := soils }
  let head ← initFronts g psi
  let volstart ← massBal cum head
  cassert (N = head.length) "num_layers == listLength(head)"
  let cs ← calibInit g N 1
  let pond := c.pondMax.getD 0
  let jm := env.junkMb
  return {
    head := head, prev := [], soils := soils,
    p := { layerThickness := 0 :: thick, layerSoilType := types, numLayers := N, numWf := (N : Int), cum := cum,
           soilDepth := depth, initialPsi := psi, timestepH := dt, forcingResH := res, minTimestepH := dt,
           forcingInterval := CMath.toInt (q + 1.0e-8), numSoilTypes := numTypes,
           moistureWf := head.map (fun f => f.theta), depthWf := head.map (fun f => f.depth * 0.01),
           soilTemp := soilZ.map (fun _ => 0), soilTempZ := soilZ, frozen := frozen, wpPsi := wp, fcPsi := fc,
           closedG := c.closed, adaptive := c.adaptive, pondMax := pond, precipPrev := 0, nint := 120, timeS := 0,
           endtimeS := endt, timesteps := 0, sftCoupled := c.sft, calibFlag := c.calib, invalidSoil := invalid },
    mb := { jm with volprecip := 0, volin := 0, volend := 0, volAET := 0, volrech := 0, volrunoff := 0, volgiuh := 0,
                    volQ := 0, volPET := 0, volon := 0, volonT := 0, volQgwT := 0, volcalib := 0,
                    volstart := volstart },
    precipMm := -1, petMm := -1,
    calib := { thetaE := cs.map (fun s => s.thetaE), thetaR := cs.map (fun s => s.thetaR),
               vgN := cs.map (fun s => s.vgN), vgAlpha := cs.map (fun s => s.vgAlpha),
               Ksat := cs.map (fun s => s.Ksat), fcPsi := fc, pondMax := pond },
    conv := env.junkConv,
    numGiuh := giuh.length, giuhOrd := giuh, giuhQueue := List.replicate (giuh.length + 1) 0 }

end LGAR
