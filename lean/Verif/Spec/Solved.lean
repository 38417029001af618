import Verif.Spec.Fits
/-
Condition of the theorem on the mass-balance check: the search for the moisture of a lone front ends near its target.
-/
namespace LGAR
variable {α : Type} [Add α] [Sub α] [Mul α] [Div α] [Neg α] [Zero α] [One α] [OfScientific α]
  [LT α] [LE α] [DecidableLT α] [DecidableLE α] [BEq α] [CMath α]

/-- A lone front has the required storage within 1e-5 cm or is saturated (then the mass correction follows). -/
def LoneSolved (g : Geo α) (target : α) : List (Front α) → Prop
  | [f] => CMath.fabs (f.theta * f.depth - target) ≤ 1e-5 ∨ Res.Holds (g.soil 1) fun s => CMath.fabs (f.theta - s.thetaE) < 1e-15
  | _ => True

instance LoneSolved.dec (g : Geo α) (target : α) (l : List (Front α)) : Decidable (LoneSolved g target l) :=
  match l with
  | [] => isTrue trivial
  | [_] => by unfold LoneSolved; infer_instance
  | _ :: _ :: _ => isTrue trivial

/-- If the column has a single front, its moisture after the movement is that of the required storage within 1e-5 cm, or it is
saturated. -/
def MoveSolved (fuel : Nat) (g : Geo α) (dt precip : α) (nFd : Nat) (oldMass aet : α) (prev l : List (Front α)) : Prop :=
  Res.Holds (moveOnes fuel g dt precip nFd l.length prev l.length l aet) fun (l1, aet1) =>
    LoneSolved g (oldMass + precip - aet1) l1

instance (fuel : Nat) (g : Geo α) (dt precip : α) (nFd : Nat) (oldMass aet : α) (prev l : List (Front α)) :
    Decidable (MoveSolved fuel g dt precip nFd oldMass aet prev l) := by unfold MoveSolved; infer_instance

/-- The same in the water movement of a subcycle. -/
def FlowSolved (c : StepCfg α) (s : SubSt α) (create : Bool) (nFd : Nat) (rate ponded aet : α) : Prop :=
  if create = true then MoveSolved c.fuel c.geo c.dt 0 nFd s.volend aet s.head s.head
  else Res.Holds (surfaceFlow c s nFd rate ponded aet) fun (_, volin, _, _) =>
    MoveSolved c.fuel c.geo c.dt volin nFd s.volend aet s.head s.head

instance (c : StepCfg α) (s : SubSt α) (b : Bool) (nFd : Nat) (rate ponded aet : α) :
    Decidable (FlowSolved c s b nFd rate ponded aet) := by unfold FlowSolved; infer_instance

/-- The same in a subcycle. -/
def StepSolved (c : StepCfg α) (s : SubSt α) : Prop :=
  Res.Holds (aetDemand c (CMath.fmax s.petMm 0 * 0.1) s.head) fun aet =>
    Res.Holds (deref s.head 0) fun h0 =>
      Res.Holds (c.geo.soil h0.layer) fun hs =>
        FlowSolved c s
          (wantsFront s.precipPrev (CMath.fmax s.precipMm 0 * 0.1 * c.dt) h0.theta hs.thetaE (volonClean s.volon))
          (wettingFrontFreeDrainage s.head) (CMath.fmax s.precipMm 0 * 0.1)
          (CMath.fmax s.precipMm 0 * 0.1 * c.dt + s.volon) aet

instance (c : StepCfg α) (s : SubSt α) : Decidable (StepSolved c s) := by unfold StepSolved; infer_instance

/-- The same in the next `n` subcycles. -/
def LoopSolved (c : StepCfg α) : Nat → SubSt α → Prop
  | 0, _ => True
  | n + 1, s => StepSolved c s ∧ Res.Holds (subStep c s) fun s' => LoopSolved c n s'

instance LoopSolved.dec (c : StepCfg α) : ∀ n (s : SubSt α), Decidable (LoopSolved c n s)
  | 0, _ => isTrue trivial
  | n + 1, s => by
    have := LoopSolved.dec c n
    unfold LoopSolved; infer_instance

/-- The same in an Update. -/
def UpdateSolved (fuel : Nat) (standalone : Bool) (s : State α) : Prop :=
  Res.Holds (updatePre s) fun (s1, _) =>
    Res.Holds (massBal s1.p.cum s1.head) fun v =>
      LoopSolved (stepCfg fuel standalone s1) s1.p.forcingInterval.toNat (subInit s1 v)

instance (fuel : Nat) (sa : Bool) (s : State α) : Decidable (UpdateSolved fuel sa s) := by unfold UpdateSolved; infer_instance

end LGAR
