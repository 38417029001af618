import Verif.Spec.Ties
/-
Conditions of the safety theorems: inputs that fit the configuration, and columns whose top layer holds enough water.
-/
namespace LGAR
variable {α : Type} [Add α] [Sub α] [Mul α] [Div α] [Neg α] [Zero α] [One α] [OfScientific α]
  [LT α] [LE α] [DecidableLT α] [DecidableLE α] [BEq α] [CMath α]

/-- The temperature cells reach below the bottom of the last but one layer. -/
def CellsReach (cum : List α) (cells : List (α × α)) : Prop := ∃ c ∈ cells, ∀ b ∈ cum.dropLast, b < c.1

/-- The calibration arrays have an entry for every layer. -/
structure CalibFits (N : Nat) (c : Calib α) : Prop where
  te : N ≤ c.thetaE.length
  tr : N ≤ c.thetaR.length
  n : N ≤ c.vgN.length
  alpha : N ≤ c.vgAlpha.length
  ksat : N ≤ c.Ksat.length

/-- What the caller supplies fits: temperature cells reach deep enough if they are used, and the calibration arrays have an
entry for every layer if they are used. -/
structure InputsFit (s : State α) : Prop where
  cells : s.p.sftCoupled = true → CellsReach s.p.cum (s.p.soilTempZ.zip s.p.soilTemp)
  calib : s.p.calibFlag = true → CalibFits s.p.numLayers s.calib

/-- Every front of layer 1 that has another one below it in layer 1 stays below the surface, and the water it holds beyond the
moisture of the front below, with the infiltration and without the ET demand if it is the front that supplies them, is not
negative. -/
def TopHolds (g : Geo α) (dt precip aet : α) (nFd : Nat) (l : List (Front α)) : Prop :=
  ∀ i c n column, l[i]? = some c → l[i + 1]? = some n → c.layer = 1 → n.layer = 1 → g.cum[g.numLayers]? = some column →
    0 < CMath.fmin (c.depth + c.dzdt * dt) column ∧
      0 ≤ c.depth * (c.theta - n.theta) + (if nFd = i + 1 then precip - CMath.fmax aet 0 else 0)

/-- The same for the movement in a subcycle. -/
def FlowHolds (c : StepCfg α) (s : SubSt α) (create : Bool) (nFd : Nat) (rate ponded aet : α) : Prop :=
  if create = true then TopHolds c.geo c.dt 0 aet nFd s.head
  else Res.Holds (surfaceFlow c s nFd rate ponded aet) fun (_, volin, _, _) => TopHolds c.geo c.dt volin aet nFd s.head

/-- The same for a subcycle. -/
def StepHolds (c : StepCfg α) (s : SubSt α) : Prop :=
  Res.Holds (aetDemand c (CMath.fmax s.petMm 0 * 0.1) s.head) fun aet =>
    Res.Holds (deref s.head 0) fun h0 =>
      Res.Holds (c.geo.soil h0.layer) fun hs =>
        FlowHolds c s
          (wantsFront s.precipPrev (CMath.fmax s.precipMm 0 * 0.1 * c.dt) h0.theta hs.thetaE (volonClean s.volon))
          (wettingFrontFreeDrainage s.head) (CMath.fmax s.precipMm 0 * 0.1)
          (CMath.fmax s.precipMm 0 * 0.1 * c.dt + s.volon) aet

/-- The same for the next `n` subcycles. -/
def LoopHolds (c : StepCfg α) : Nat → SubSt α → Prop
  | 0, _ => True
  | n + 1, s => StepHolds c s ∧ Res.Holds (subStep c s) fun s' => LoopHolds c n s'

/-- The same for an Update. -/
def UpdateHolds (fuel : Nat) (standalone : Bool) (s : State α) : Prop :=
  Res.Holds (updatePre s) fun (s1, _) =>
    Res.Holds (massBal s1.p.cum s1.head) fun v =>
      LoopHolds (stepCfg fuel standalone s1) s1.p.forcingInterval.toNat (subInit s1 v)

/-- The mass correction at the end of lgar_move_wetting_fronts leaves the ET as it is: it is not needed, or it converges before
its iteration limit. -/
def MoveConverges (fuel : Nat) (g : Geo α) (dt precip : α) (nFd : Nat) (oldMass aet : α) (prev l : List (Front α)) : Prop :=
  Res.Holds (moveOnes fuel g dt precip nFd l.length prev l.length l aet) fun (l1, aet1) =>
    Res.Holds (moveTop g oldMass precip l1 aet1) fun (_, aet2, _) => aet2 = aet1

/-- The same in the water movement of a subcycle. -/
def FlowConverges (c : StepCfg α) (s : SubSt α) (create : Bool) (nFd : Nat) (rate ponded aet : α) : Prop :=
  if create = true then MoveConverges c.fuel c.geo c.dt 0 nFd s.volend aet s.head s.head
  else Res.Holds (surfaceFlow c s nFd rate ponded aet) fun (_, volin, _, _) =>
    MoveConverges c.fuel c.geo c.dt volin nFd s.volend aet s.head s.head

/-- The same in a subcycle. -/
def StepConverges (c : StepCfg α) (s : SubSt α) : Prop :=
  Res.Holds (aetDemand c (CMath.fmax s.petMm 0 * 0.1) s.head) fun aet =>
    Res.Holds (deref s.head 0) fun h0 =>
      Res.Holds (c.geo.soil h0.layer) fun hs =>
        FlowConverges c s
          (wantsFront s.precipPrev (CMath.fmax s.precipMm 0 * 0.1 * c.dt) h0.theta hs.thetaE (volonClean s.volon))
          (wettingFrontFreeDrainage s.head) (CMath.fmax s.precipMm 0 * 0.1)
          (CMath.fmax s.precipMm 0 * 0.1 * c.dt + s.volon) aet

/-- The same in the next `n` subcycles. -/
def LoopConverges (c : StepCfg α) : Nat → SubSt α → Prop
  | 0, _ => True
  | n + 1, s => StepConverges c s ∧ Res.Holds (subStep c s) fun s' => LoopConverges c n s'

/-- The same in an Update. -/
def UpdateConverges (fuel : Nat) (standalone : Bool) (s : State α) : Prop :=
  Res.Holds (updatePre s) fun (s1, _) =>
    Res.Holds (massBal s1.p.cum s1.head) fun v =>
      LoopConverges (stepCfg fuel standalone s1) s1.p.forcingInterval.toNat (subInit s1 v)

end LGAR
