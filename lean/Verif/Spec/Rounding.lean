import Verif.Num.Rounded
import Verif.Spec.Run
/-
Vocabulary for statements about rounded arithmetic: the states inside an Update, bounds for the volumes in the books.
-/
namespace LGAR
open Rounded

variable {α : Type} [Add α] [Sub α] [Mul α] [Div α] [Neg α] [Zero α] [One α] [OfScientific α]
  [LT α] [LE α] [DecidableLT α] [DecidableLE α] [BEq α] [CMath α]

/-- The states of a loop of at most `n` sub-timesteps, the first included. -/
def loopStates (c : StepCfg α) : Nat → SubSt α → List (SubSt α)
  | 0, s => [s]
  | n + 1, s => s :: match subStep c s with
    | .ok s' => if c.endtimeS ≤ s'.timeS ∧ c.standalone = true then [s'] else loopStates c n s'
    | .error _ => []

/-- The states inside an Update. -/
def innerStates (fuel : Nat) (standalone : Bool) (s : State α) : List (SubSt α) :=
  match updatePre s with
  | .error _ => []
  | .ok (s, _) => match massBal s.p.cum s.head with
    | .error _ => []
    | .ok v => loopStates (stepCfg fuel standalone s) s.p.forcingInterval.toNat (subInit s v)

variable [Rounded α]

/-- No volume in the books of a sub-timestep exceeds `M` in size. -/
structure SubBooksIn (M : ℝ) (u : SubSt α) : Prop where
  precip : |val u.precipT| ≤ M
  infil : |val u.volinT| ≤ M
  runoff : |val u.runoffT| ≤ M
  aet : |val u.aetT| ≤ M
  rech : |val u.rechT| ≤ M
  pond : |val u.volon| ≤ M
  store : |val u.volend| ≤ M

/-- No total in the books exceeds `M` in size. -/
structure BooksIn (M : ℝ) (m : MassVars α) : Prop where
  precip : |val m.volprecip| ≤ M
  infil : |val m.volin| ≤ M
  runoff : |val m.volrunoff| ≤ M
  aet : |val m.volAET| ≤ M
  rech : |val m.volrech| ≤ M
  calib : |val m.volcalib| ≤ M

/-- A run in which no volume in the books exceeds `M` in size, neither between Updates nor inside one, and no Update works with
a negative maximum ponding depth. -/
inductive RunIn (M : ℝ) (s0 : State α) : List (State α) → State α → Prop
  | nil : RunIn M s0 [] s0
  | step {hist : List (State α)} {s s1 s2 : State α} {fuel : Nat} {standalone : Bool} :
      RunIn M s0 hist s → Inputs s s1 → update fuel standalone s1 = .ok s2 →
      (∀ u ∈ innerStates fuel standalone s1, SubBooksIn M u) → BooksIn M s2.mb → 0 ≤ val s2.p.pondMax →
      RunIn M s0 (hist ++ [s2]) s2

/-- The front with the real numbers its fields stand for. -/
noncomputable def frontVal (f : Front α) : Front ℝ :=
  { depth := val f.depth, theta := val f.theta, psi := val f.psi, K := val f.K, layer := f.layer, front := f.front,
    toBottom := f.toBottom, dzdt := val f.dzdt }

/-- A time given as a number and a unit, in hours: seconds unless a unit is given; numbers with an unknown unit are hours. -/
noncomputable def hoursOf (u : List Char) (x : ℝ) : ℝ :=
  if u ∈ ["[s]".toList, "[sec]".toList, []] then x / 3600
  else if u ∈ ["[min]".toList, "[minute]".toList] then x / 60
  else x

/-- Sum of the numbers meant. -/
noncomputable def sumVal (l : List α) : ℝ := (l.map val).sum

end LGAR
