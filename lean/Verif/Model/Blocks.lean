import Verif.Model.Bmi
import Verif.Model.Heap
/-
The arrays and structures the BMI object allocates with `new` (the wetting fronts are in `Model/Heap`): which pointer
variable each address is stored in, which calls allocate and which release.  Contents and lengths of the arrays are in the
other model files; here only the lifetime counts.

/repo/include/bmi_lgar.hxx 32-33 (constructor), /repo/src/bmi_lgar.cxx 24-58 (destructor, Initialize), 64-71
(realloc_soil), 662-690 (Finalize), 887-951 (GetValuePtr); /repo/src/lgar.cxx 83-91, 260-332, 558, 642, 665-688, 716.

Simplifications: `new` does not fail; only calls of Initialize that return are described; a configuration file is named (with an
empty name Initialize reads through the uninitialised `state`).
-/
namespace LGAR

/-- The pointer variables that own memory: of the object (`state`, `objOrdinates`, `objQueue`) and of `*state`. -/
inductive Block where
  | state | objOrdinates | objQueue
  | thickness | cum | soilType | tempZ | soils | ordinates | temp | frozen | input
  | depthWf | moistureWf | thetaE | thetaR | vgN | vgAlpha | Ksat
  deriving DecidableEq, Repr

/-- Is the variable a member of the object itself (else it is a member of `*state`)? -/
def Block.inObject : Block → Bool
  | .state | .objOrdinates | .objQueue => true
  | _ => false

/-- The value of a pointer variable. -/
inductive Ptr where
  | unset
  | null
  | addr (a : Nat)
  deriving DecidableEq, Repr

/-- The pointer variables, the addresses in use, and the history of allocations (oldest first). -/
structure Store where
  ptr : Block → Ptr
  live : List Nat
  log : List Ev

/-- The constructor sets the two GIUH arrays to nullptr; `state` is left uninitialised. -/
def Store.construct : Store where
  ptr b := match b with
    | .objOrdinates | .objQueue => .null
    | _ => .unset
  live := []
  log := []

/-- Can the variable be accessed?  Members of `*state` need a live `state`. -/
def Store.reach (m : Store) (b : Block) : Res Unit :=
  if b.inObject then .ok ()
  else match m.ptr .state with
    | .unset => .error (.ub "uninitialised pointer dereferenced")
    | .null => .error (.ub "NULL dereference")
    | .addr a => if a ∈ m.live then .ok () else .error (.uaf "access to released state")

/-- `variable = new ...`: the old value of the variable is overwritten.  The members of a new `*state` are uninitialised. -/
def Store.new (pick : Store → Nat) (m : Store) (b : Block) : Res Store := do
  m.reach b
  let a := pick m
  .ok { ptr := fun c =>
          if c = b then .addr a
          else if b = .state ∧ c.inObject = false then .unset
          else m.ptr c
        live := a :: m.live
        log := m.log ++ [.malloc a] }

/-- `delete variable` or `delete[] variable`: nothing for nullptr; the variable keeps its value. -/
def Store.del (m : Store) (b : Block) : Res Store := do
  m.reach b
  match m.ptr b with
  | .unset => .error (.ub "delete of an uninitialised pointer")
  | .null => .ok m
  | .addr a =>
    if a ∈ m.live then .ok { m with live := m.live.erase a, log := m.log ++ [.free a] }
    else .error (.uaf "delete of released memory")

/-- Several `new`. -/
def Store.news (pick : Store → Nat) (m : Store) : List Block → Res Store
  | [] => .ok m
  | b :: bs => do
    let m ← m.new pick b
    m.news pick bs

/-- Several `delete`. -/
def Store.dels (m : Store) : List Block → Res Store
  | [] => .ok m
  | b :: bs => do
    let m ← m.del b
    m.dels bs

/-- What one line of the configuration file allocates, lgar.cxx 263-264, 293, 324. -/
def lineBlocks (line : List Char) : List Block :=
  match keyOf (paramKey line) with
  | some .thick => [.thickness, .cum]
  | some .soilType => [.soilType]
  | some .soilZ => [.tempZ]
  | _ => []

/-- What Initialize allocates after reading the file: soil properties (558), ordinates (642), temperatures (665-677), frozen
factors (688), inputs (716), lgar_initialize 83-91, and the two arrays of the object (bmi_lgar.cxx 47-48). -/
def initBlocks (coupled : Bool) : List Block :=
  [.soils, .ordinates, .temp] ++ (if coupled then [] else [.tempZ]) ++
  [.frozen, .input, .depthWf, .moistureWf, .thetaE, .thetaR, .vgN, .vgAlpha, .Ksat, .objOrdinates, .objQueue]

/-- Initialize, bmi_lgar.cxx 32-58. -/
def Store.initialize (pick : Store → Nat) (lines : List (List Char)) (coupled : Bool) (m : Store) : Res Store :=
  m.news pick (.state :: lines.flatMap lineBlocks ++ initBlocks coupled)

/-- realloc_soil, bmi_lgar.cxx 64-71. -/
def Store.reallocSoil (pick : Store → Nat) (m : Store) : Res Store := do
  let m ← m.dels [.depthWf, .moistureWf]
  m.news pick [.depthWf, .moistureWf]

/-- Update: realloc_soil unless the soil type is not supported (bmi_lgar.cxx 77-103, 505-508). -/
def Store.update (pick : Store → Nat) (invalidSoil : Bool) (m : Store) : Res Store :=
  if invalidSoil then .ok m else m.reallocSoil pick

/-- A number of calls of Update. -/
def Store.updates (pick : Store → Nat) (invalidSoil : Bool) : Nat → Store → Res Store
  | 0, m => .ok m
  | n + 1, m => do
    let m ← m.update pick invalidSoil
    m.updates pick invalidSoil n

/-- Finalize, bmi_lgar.cxx 669-689. -/
def Store.finalize (m : Store) : Res Store :=
  m.dels [.soils, .depthWf, .moistureWf, .temp, .tempZ, .soilType, .thetaE, .thetaR, .vgN, .vgAlpha, .Ksat,
    .thickness, .cum, .ordinates, .frozen, .input, .state]

/-- The destructor, bmi_lgar.cxx 24-27. -/
def Store.destroy (m : Store) : Res Store := m.dels [.objOrdinates, .objQueue]

/-- A use of the object: Initialize with the lines of a file, Updates, Finalize. -/
structure Session where
  lines : List (List Char)
  coupled : Bool
  invalidSoil : Bool
  updates : Nat

/-- The calls of one use. -/
def Store.session (pick : Store → Nat) (j : Session) (m : Store) : Res Store := do
  let m ← m.initialize pick j.lines j.coupled
  let m ← m.updates pick j.invalidSoil j.updates
  m.finalize

/-- One use after the other on the same object. -/
def Store.sessions (pick : Store → Nat) : List Session → Store → Res Store
  | [], m => .ok m
  | j :: js, m => do
    let m ← m.session pick j
    m.sessions pick js

/-- Construct, use, destroy. -/
def Store.life (pick : Store → Nat) (js : List Session) : Res Store := do
  let m ← Store.construct.sessions pick js
  m.destroy

/-- The variable that owns the memory a pointer returned by GetValuePtr points into; `none` for the object itself. -/
def Ref.block : Ref → Option Block
  | .precipRate | .petRate => some .input
  | .precip | .pet | .aet | .runoff | .giuh | .storage | .Q | .infil | .rech | .Qgw | .massBalance => none
  | .cum => some .cum
  | .moistureWf => some .moistureWf
  | .depthWf => some .depthWf
  | .numWf | .calPondMax | .calFcPsi => some .state
  | .soilTemp => some .temp
  | .calThetaE => some .thetaE
  | .calThetaR => some .thetaR
  | .calVgN => some .vgN
  | .calVgAlpha => some .vgAlpha
  | .calKsat => some .Ksat

/-- The memory behind the pointer GetValuePtr returns now (`none` for the object itself). -/
def Store.valuePtr (m : Store) (r : Ref) : Res (Option Nat) :=
  match r.block with
  | none => .ok none
  | some b => do
    m.reach b
    match m.ptr b with
    | .unset => .error (.ub "uninitialised pointer")
    | .null => .error (.ub "NULL dereference")
    | .addr a => .ok (some a)

end LGAR
