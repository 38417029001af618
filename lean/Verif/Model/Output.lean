import Verif.Model.Driver
/-
The two files that the stand-alone driver writes, /repo/src/bmi_main_lgar.cxx: main 95-162 (data_variables.csv and
data_layers.csv), write_state 265-280.
-/
namespace LGAR

variable {α : Type} [Add α] [Sub α] [Mul α] [Div α] [Neg α] [Zero α] [One α] [OfScientific α]
  [LT α] [LE α] [DecidableLT α] [DecidableLE α] [BEq α] [CMath α]

/-- The character of the last decimal digit of `n`. -/
def digit (n : Nat) : Char := Char.ofNat (48 + n % 10)

/-- The last `w` decimal digits of `n`. -/
def digitsW : Nat → Nat → List Char
  | 0, _ => []
  | w + 1, n => digitsW w (n / 10) ++ [digit n]

/-- The decimal digits of `n`, no leading zeros (`fuel` at least the number of digits). -/
def natGo : Nat → Nat → List Char
  | 0, _ => []
  | fuel + 1, n => if n < 10 then [digit n] else natGo fuel (n / 10) ++ [digit n]

/-- `%d` of a number that is not negative. -/
def natChars (n : Nat) : List Char := natGo (n + 1) n

/-- `%d`. -/
def intChars (i : Int) : List Char := if i < 0 then '-' :: natChars i.natAbs else natChars i.natAbs

/-- The C library's `printf("%.pf", x)` for finite `x` (`%6.15f` is `fixed 15`: the width 6 is always exceeded; `%lf` is
`fixed 6`). -/
class CPrint (α : Type) where
  fixed : Nat → α → List Char

/-- `|x| * 10^p` rounded to an integer, ties to even. -/
def roundDec (p : Nat) (x : α) : Nat :=
  let y := CMath.fabs x * CMath.ofInt (10 ^ p)
  let k := CMath.toInt y
  let d := y - CMath.ofInt k
  if d < 0.5 then k.toNat else if 0.5 < d then k.toNat + 1 else if k % 2 == 0 then k.toNat else k.toNat + 1

/-- `%.pf` with `p` at least 1, exact: sign, integer part, point, `p` digits of the value rounded to `p` decimals. -/
def exactFixed (p : Nat) (x : α) : List Char :=
  let n := roundDec p x
  let s := natChars (n / 10 ^ p) ++ '.' :: digitsW p (n % 10 ^ p)
  if x < 0 then '-' :: s else s

variable [CPrint α]

/-- Items separated by commas, newline after the last: the loops in bmi_main_lgar.cxx 104-110 and 143-152. -/
def csvItems : List (List Char) → List Char
  | [] => []
  | [x] => x ++ ['\n']
  | x :: xs => x ++ ',' :: csvItems xs

/-- The heading, bmi_main_lgar.cxx 103-110. -/
def headerText : List Char := "Time,".toList ++ csvItems (driverOutputs.map String.toList)

/-- `double value; GetValue(name, &value)`: the single double that is stored. -/
def Data.value : Data α → Res α
  | .dbls [x] => .ok x
  | _ => .error (.ub "double value")

/-- One line of data_variables.csv, bmi_main_lgar.cxx 141-152. -/
def rowText (r : Row α) : Res (List Char) := do
  let vs ← r.vals.mapM Data.value
  return r.time ++ ',' :: csvItems (vs.map (CPrint.fixed 15))

/-- One front, bmi_main_lgar.cxx 273: depth and capillary head in mm. -/
def frontText (c : Front α) : List Char :=
  '(' :: (CPrint.fixed 6 (c.depth * 10.0) ++ ',' :: (CPrint.fixed 6 c.theta ++ ',' :: (natChars c.layer ++ ',' ::
    (intChars c.front ++ ',' :: (CPrint.fixed 6 (c.psi * 10.0) ++ [')'])))))

/-- The fronts after the first, bmi_main_lgar.cxx 275. -/
def barFronts : List (Front α) → List Char
  | [] => []
  | c :: cs => '|' :: (frontText c ++ barFronts cs)

/-- write_state, bmi_main_lgar.cxx 265-280. -/
def writeState (l : List (Front α)) : List Char :=
  match l with
  | [] => "[]\n".toList
  | c :: cs => '[' :: (frontText c ++ (barFronts cs ++ "]\n".toList))

/-- `"# Timestep = %d, %s \n"`, bmi_main_lgar.cxx 156. -/
def stepText (i : Nat) (t : List Char) : List Char :=
  "# Timestep = ".toList ++ (natChars i ++ (", ".toList ++ (t ++ " \n".toList)))

/-- The time loop from step `i`, `n` steps left, with what it appends to the two files, bmi_main_lgar.cxx 116-162. -/
def filesLoop (fuel : Nat) (standalone : Bool) (f : Forcing α) : Nat → Nat → State α →
    Res (State α × List Char × List Char)
  | 0, _, s => .ok (s, [], [])
  | n + 1, i, s => do
    let (s, r) ← driverStep fuel standalone f i s
    let line ← rowText r
    let (s', data, layers) ← filesLoop fuel standalone f n (i + 1) s
    return (s', line ++ data, stepText i r.time ++ (writeState s.head ++ layers))

/-- main, bmi_main_lgar.cxx 32-179: the last state and the texts of data_variables.csv and data_layers.csv. -/
def driverFiles (fuel : Nat) (standalone : Bool) (env : Env α) (config : List (List Char))
    (contents : List Char → Option (List Char)) : Res (State α × List Char × List Char) := do
  let s ← bmiInitialize env config
  let q ← cdiv (endTime s) (timeStep s)
  let nsteps := CMath.toInt q
  let file ← match findForcing config with
    | none => .error (.throw "does not provide forcing_file")
    | some f => .ok f
  let content ← match contents file with
    | none => .error (.abort "forcing file does not exist")
    | some c => .ok c
  let f ← readForcing env content
  cassert (nsteps ≤ (f.pet.length : Int)) "nsteps <= int(PET.size())"
  let (s, data, layers) ← filesLoop fuel standalone f nsteps.toNat 0 s
  return (s, headerText ++ data, layers)

end LGAR
