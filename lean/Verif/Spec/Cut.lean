import Verif.Spec.Run
/-
Vocabulary for comparing two runs with forcing intervals of different length.
-/
namespace LGAR

/-- The inputs of one Update: precipitation and PET (mm/h), soil temperatures, calibration values. -/
structure Drive (α : Type) where
  precip : α
  pet : α
  temp : List α
  cal : Calib α

/-- Set the inputs. -/
def Drive.set {α : Type} (x : Drive α) (s : State α) : State α :=
  { s with precipMm := x.precip, petMm := x.pet, calib := x.cal, p := { s.p with soilTemp := x.temp } }

variable {α : Type} [Add α] [Sub α] [Mul α] [Div α] [Neg α] [Zero α] [One α] [OfScientific α]
  [LT α] [LE α] [DecidableLT α] [DecidableLE α] [BEq α] [CMath α]

/-- `Driven fuel sa s0 xs s`: from `s0` one Update for each element of `xs`, in order; all return and, when stand-alone, none of
them reaches the end time. -/
inductive Driven (fuel : Nat) (sa : Bool) : State α → List (Drive α) → State α → Prop
  | nil {s : State α} : Driven fuel sa s [] s
  | cons {s s1 s2 : State α} {x : Drive α} {xs : List (Drive α)} :
      update fuel sa (x.set s) = .ok s1 → (sa = true → ¬ s1.p.endtimeS ≤ s1.p.timeS) → Driven fuel sa s1 xs s2 →
      Driven fuel sa s (x :: xs) s2

/-- Each input repeated `k` times. -/
def repeated {β : Type} (k : Nat) : List β → List β
  | [] => []
  | x :: xs => List.replicate k x ++ repeated k xs

/-- Same fronts, snapshot, soils, ponded water, clock and parameters; the forcing interval, the routing and the totals may
differ. -/
structure SamePhysics {α : Type} (a b : State α) : Prop where
  head : a.head = b.head
  prev : a.prev = b.prev
  soils : a.soils = b.soils
  pond : a.mb.volonT = b.mb.volonT
  params : b.p = { a.p with forcingResH := b.p.forcingResH, forcingInterval := b.p.forcingInterval }

/-- Same totals since the start (all but those of the routing). -/
structure SameTotals {α : Type} (a b : State α) : Prop where
  start : a.mb.volstart = b.mb.volstart
  precip : a.mb.volprecip = b.mb.volprecip
  infil : a.mb.volin = b.mb.volin
  runoff : a.mb.volrunoff = b.mb.volrunoff
  aet : a.mb.volAET = b.mb.volAET
  pet : a.mb.volPET = b.mb.volPET
  rech : a.mb.volrech = b.mb.volrech
  calib : a.mb.volcalib = b.mb.volcalib

/-- The number of sub-timesteps per Update is `n` (bmi_lgar.cxx 212). -/
def SubSteps (s : State α) (n : Nat) : Prop :=
  ∃ q, cdiv s.p.forcingResH s.p.timestepH = .ok q ∧ (CMath.toInt (q + 1.0e-8)).toNat = n

/-- The arrays of the routing have the lengths that Initialize gives them. -/
structure Routes {α : Type} (s : State α) : Prop where
  num : s.numGiuh = s.giuhOrd.length
  pos : s.giuhOrd ≠ []
  len : s.giuhQueue.length = s.giuhOrd.length + 1

/-- What the comparison assumes of the two starting states: the same column and parameters, a fixed sub-timestep, `na = k * nb`
sub-timesteps per Update in the first and `nb` in the second. -/
structure Comparable (a b : State α) (k na nb : Nat) : Prop where
  same : SamePhysics a b
  fixed : a.p.adaptive = false
  valid : a.p.invalidSoil = false
  frozen : a.p.frozen ≠ []
  stepsA : SubSteps a na
  stepsB : SubSteps b nb
  cut : na = k * nb
  routesA : Routes a
  routesB : Routes b

end LGAR
