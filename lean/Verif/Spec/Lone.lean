import Verif.Spec.Fits
/-
Condition on sub-timesteps that start with a single front (C26, C59 for columns of one layer).
-/
namespace LGAR
variable {α : Type} [Add α] [Sub α] [Mul α] [Div α] [Neg α] [Zero α] [One α] [OfScientific α]
  [LT α] [LE α] [DecidableLT α] [DecidableLE α] [BEq α] [CMath α]

/-- The search for the moisture leaves no negative ET, and the mass correction leaves the ET as it is. -/
def MoveLeaves (fuel : Nat) (g : Geo α) (dt precip : α) (nFd : Nat) (oldMass aet : α) (prev l : List (Front α)) : Prop :=
  Res.Holds (moveOnes fuel g dt precip nFd l.length prev l.length l aet) fun (l1, aet1) =>
    0 ≤ aet1 ∧ Res.Holds (moveTop g oldMass precip l1 aet1) fun (_, aet2, _) => aet2 = aet1

/-- The same in the water movement of a sub-timestep. -/
def FlowLeaves (c : StepCfg α) (s : SubSt α) (create : Bool) (nFd : Nat) (rate ponded aet : α) : Prop :=
  if create = true then MoveLeaves c.fuel c.geo c.dt 0 nFd s.volend aet s.head s.head
  else Res.Holds (surfaceFlow c s nFd rate ponded aet) fun (_, volin, _, _) =>
    MoveLeaves c.fuel c.geo c.dt volin nFd s.volend aet s.head s.head

/-- The same in a sub-timestep. -/
def StepLeaves (c : StepCfg α) (s : SubSt α) : Prop :=
  Res.Holds (aetDemand c (CMath.fmax s.petMm 0 * 0.1) s.head) fun aet =>
    Res.Holds (deref s.head 0) fun h0 =>
      Res.Holds (c.geo.soil h0.layer) fun hs =>
        FlowLeaves c s
          (wantsFront s.precipPrev (CMath.fmax s.precipMm 0 * 0.1 * c.dt) h0.theta hs.thetaE (volonClean s.volon))
          (wettingFrontFreeDrainage s.head) (CMath.fmax s.precipMm 0 * 0.1)
          (CMath.fmax s.precipMm 0 * 0.1 * c.dt + s.volon) aet

/-- The same in those of the next `n` sub-timesteps that start with a single front. -/
def LoopLone (c : StepCfg α) : Nat → SubSt α → Prop
  | 0, _ => True
  | n + 1, s => (s.head.length = 1 → StepLeaves c s) ∧ Res.Holds (subStep c s) fun s' => LoopLone c n s'

/-- The same in an Update. -/
def UpdateLone (fuel : Nat) (standalone : Bool) (s : State α) : Prop :=
  Res.Holds (updatePre s) fun (s1, _) =>
    Res.Holds (massBal s1.p.cum s1.head) fun v =>
      LoopLone (stepCfg fuel standalone s1) s1.p.forcingInterval.toNat (subInit s1 v)

end LGAR
