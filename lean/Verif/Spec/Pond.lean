import Verif.Spec.Ties
/-
The exact coincidence in which lgar_insert_water assigns nothing (lgar.cxx 2061-2078): the water that would stay on the
surface is exactly the maximum.
-/
namespace LGAR
variable {α : Type} [Add α] [Sub α] [Mul α] [Div α] [Neg α] [Zero α] [One α] [OfScientific α]
  [LT α] [LE α] [DecidableLT α] [DecidableLE α] [BEq α] [CMath α]

/-- In this subcycle the surface water less the infiltration capacity is not exactly the positive maximum. -/
def StepNoPondTie (c : StepCfg α) (s : SubSt α) : Prop :=
  ¬ 0 < c.pondMax ∨ Res.Holds (aetDemand c (CMath.fmax s.petMm 0 * 0.1) s.head) fun aet =>
    Res.Holds (fpCapacity c.fuel c.closed c.nint c.geo c.dt aet (CMath.fmax s.precipMm 0 * 0.1 * c.dt + s.volon)
      (CMath.fmax s.precipMm 0 * 0.1) (wettingFrontFreeDrainage s.head) s.head) fun fp =>
        CMath.fmax s.precipMm 0 * 0.1 * c.dt + s.volon ≠ c.pondMax + fp * c.dt

/-- No such coincidence in the next `n` subcycles. -/
def LoopNoPondTie (c : StepCfg α) : Nat → SubSt α → Prop
  | 0, _ => True
  | n + 1, s => StepNoPondTie c s ∧ Res.Holds (subStep c s) fun s' => LoopNoPondTie c n s'

/-- No such coincidence in an Update. -/
def UpdateNoPondTie (fuel : Nat) (standalone : Bool) (s : State α) : Prop :=
  Res.Holds (updatePre s) fun (s1, _) =>
    Res.Holds (massBal s1.p.cum s1.head) fun v =>
      LoopNoPondTie (stepCfg fuel standalone s1) s1.p.forcingInterval.toNat (subInit s1 v)

/-- Runs whose Updates all start from a state with the property `P`. -/
inductive RunWith (P : Nat → Bool → State α → Prop) (s0 : State α) : List (State α) → State α → Prop
  | nil : RunWith P s0 [] s0
  | step {hist : List (State α)} {s s1 s2 : State α} {fuel : Nat} {standalone : Bool} :
      RunWith P s0 hist s → Inputs s s1 → P fuel standalone s1 → update fuel standalone s1 = .ok s2 →
      RunWith P s0 (hist ++ [s2]) s2

theorem RunWith.run {P : Nat → Bool → State α → Prop} {s0 s : State α} {hist : List (State α)} (h : RunWith P s0 hist s) :
    Run s0 hist s := by
  induction h with
  | nil => exact .nil
  | step _ hi _ hu ih => exact .step ih hi hu

end LGAR
