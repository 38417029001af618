import Verif.Model.Update
/-
Executions: what a caller does between Updates, and sequences of Updates of any length.
-/
namespace LGAR
variable {α : Type} [Add α] [Sub α] [Mul α] [Div α] [Neg α] [Zero α] [One α] [OfScientific α]
  [LT α] [LE α] [DecidableLT α] [DecidableLE α] [BEq α] [CMath α]

/-- What a caller may change between two Updates: the input variables (precipitation, PET, soil temperatures) and the
calibration variables. -/
def Inputs (s s' : State α) : Prop :=
  ∃ pr pet temp cal, s' = { s with precipMm := pr, petMm := pet, calib := cal, p := { s.p with soilTemp := temp } }

/-- `Run s0 hist s`: from `s0` a number of Updates, each after an arbitrary choice of inputs, all returned; `hist` are the
states after the Updates in order and `s` is the last state. -/
inductive Run (s0 : State α) : List (State α) → State α → Prop
  | nil : Run s0 [] s0
  | step {hist : List (State α)} {s s1 s2 : State α} {fuel : Nat} {standalone : Bool} :
      Run s0 hist s → Inputs s s1 → update fuel standalone s1 = .ok s2 → Run s0 (hist ++ [s2]) s2

/-- The same with one build of the code: `standalone` is a compile-time choice. -/
inductive RunAs (standalone : Bool) (s0 : State α) : List (State α) → State α → Prop
  | nil : RunAs standalone s0 [] s0
  | step {hist : List (State α)} {s s1 s2 : State α} {fuel : Nat} :
      RunAs standalone s0 hist s → Inputs s s1 → update fuel standalone s1 = .ok s2 →
      RunAs standalone s0 (hist ++ [s2]) s2

theorem RunAs.run {sa : Bool} {s0 s : State α} {hist : List (State α)} (h : RunAs sa s0 hist s) : Run s0 hist s := by
  induction h with
  | nil => exact .nil
  | step _ hi hu ih => exact .step ih hi hu

end LGAR
