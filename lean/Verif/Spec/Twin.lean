import Verif.Model.Config
import Verif.Spec.Cut
/-
What it means for two objects to differ only in memory that the program has not initialised.
-/
namespace LGAR

/-- Two environments with the same files and number parsing; what the program leaves uninitialised may differ. -/
structure Env.SameFiles {α : Type} (e e' : Env α) : Prop where
  stod : e'.stod = e.stod
  stoi : e'.stoi = e.stoi
  scanF : e'.scanF = e.scanF
  files : e'.files = e.files

/-- Equal up to `theta_wp`, which the code computes from an uninitialised variable (lgar.cxx 2323) and never reads. -/
def SoilSame {α : Type} (s s' : SoilProps α) : Prop := ∃ w, s' = { s with thetaWp := w }

/-- Two soil arrays of one length that agree for the types 1..`n`. -/
structure SoilsSame {α : Type} (n : Int) (S S' : List (SoilProps α)) : Prop where
  len : S'.length = S.length
  get : ∀ t : Nat, 1 ≤ t → (t : Int) ≤ n → ∀ x, S[t]? = some x → ∃ x', S'[t]? = some x' ∧ SoilSame x x'

/-- Both calls end with the same error, or both return and the values are related by `R`. -/
def Both {β : Type} (R : β → β → Prop) : Res β → Res β → Prop
  | .ok a, .ok b => R a b
  | .error e, .error e' => e' = e
  | _, _ => False

/-- The soil file sets everything: each of its lines that is read sets all six variables of the scan whatever they held before, to a
soil with n > 1. -/
def FullLine {α : Type} [LT α] [One α] (scanF : List Char → Option (α × List Char)) (line : List Char) : Prop :=
  ∃ r, 1 < r.n ∧ ∀ r0, scanLine scanF r0 line = r

/-- Objects that differ only where the program has not written: soils of types outside 1..`n`, `theta_wp`, the ground-water total,
and what the first Update fills (`fresh`: nothing has filled it yet). -/
structure Twin {α : Type} (n : Int) (fresh : Prop) (s s' : State α) : Prop where
  head : s'.head = s.head
  prev : s'.prev = s.prev
  p : s'.p = s.p
  precip : s'.precipMm = s.precipMm
  pet : s'.petMm = s.petMm
  calib : s'.calib = s.calib
  numGiuh : s'.numGiuh = s.numGiuh
  giuhOrd : s'.giuhOrd = s.giuhOrd
  giuhQueue : s'.giuhQueue = s.giuhQueue
  soils : SoilsSame n s.soils s'.soils
  onT : s'.mb.volonT = s.mb.volonT
  QgwT : s'.mb.volQgwT = s.mb.volQgwT
  start : s'.mb.volstart = s.mb.volstart
  last : s'.mb.volend = s.mb.volend
  precipTot : s'.mb.volprecip = s.mb.volprecip
  inTot : s'.mb.volin = s.mb.volin
  on : s'.mb.volon = s.mb.volon
  runoffTot : s'.mb.volrunoff = s.mb.volrunoff
  aetTot : s'.mb.volAET = s.mb.volAET
  petTot : s'.mb.volPET = s.mb.volPET
  rechTot : s'.mb.volrech = s.mb.volrech
  giuhTot : s'.mb.volgiuh = s.mb.volgiuh
  QTot : s'.mb.volQ = s.mb.volQ
  calibTot : s'.mb.volcalib = s.mb.volcalib
  filled : ¬ fresh → s'.conv = { s.conv with massBalance := s'.conv.massBalance } ∧
    s'.mb = { s.mb with volQgw := s'.mb.volQgw, localMb := s'.mb.localMb } ∧
    (0 < s.p.forcingInterval → s'.conv = s.conv ∧ s'.mb.localMb = s.mb.localMb)

/-- All entries of `layer_soil_type` (without the unused entry 0) are in 1..`n`. -/
def TypesIn {α : Type} (n : Int) (s : State α) : Prop := ∀ k t, 1 ≤ k → s.p.layerSoilType[k]? = some t → 1 ≤ t ∧ t ≤ n

/-- The soil file provides every soil that the configuration names: the lines read (at most `max_valid_soil_types`) are full, and all
entries of `layer_soil_type` are numbers of such lines. -/
def SoilFileFull {α : Type} [LT α] [One α] (env : Env α) (c : Cfg α) : Prop :=
  ∀ ts file lines, c.soilType = some ts → c.soilFile = some file → env.files file = some lines →
    (∀ line ∈ (lines.drop 1).take (c.numTypes.getD 15).toNat, FullLine env.scanF line) ∧
    ∀ t ∈ ts, 1 ≤ t ∧ t ≤ c.numTypes.getD 15 ∧ t < lines.length

variable {α : Type} [Add α] [Sub α] [Mul α] [Div α] [Neg α] [Zero α] [One α] [OfScientific α]
  [LT α] [LE α] [DecidableLT α] [DecidableLE α] [BEq α] [CMath α]

/-- Updates one after the other, each with its inputs. -/
def drives (fuel : Nat) (sa : Bool) : List (Drive α) → State α → Res (State α)
  | [], s => .ok s
  | x :: xs, s => do
    let s1 ← update fuel sa (x.set s)
    drives fuel sa xs s1

end LGAR
