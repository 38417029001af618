import Verif.Spec.Fronts
import Verif.Spec.Run
/-
Runs in which no front that is not flagged as touching a layer bottom lies exactly on an inner layer bottom at a moment when
the layer crossing is tested (lgar.cxx 1325, 1458, 2164).  An exact coincidence is needed to leave this class, but it can
happen (C15_cross_stray_fails).
-/
namespace LGAR

/-- The property holds of the result, if there is one. -/
def Res.Holds {β : Type} (x : Res β) (p : β → Prop) : Prop :=
  match x with
  | .ok b => p b
  | .error _ => True

instance Res.decHolds {β : Type} (x : Res β) (p : β → Prop) [∀ b, Decidable (p b)] : Decidable (Res.Holds x p) :=
  match x with
  | .ok b => inferInstanceAs (Decidable (p b))
  | .error _ => isTrue trivial

variable {α : Type} [Add α] [Sub α] [Mul α] [Div α] [Neg α] [Zero α] [One α] [OfScientific α]
  [LT α] [LE α] [DecidableLT α] [DecidableLE α] [BEq α] [CMath α]

/-- No stray front at the two layer crossings of lgar_move_wetting_fronts. -/
def MoveTieFree (fuel : Nat) (g : Geo α) (dt precip : α) (nFd : Nat) (oldMass aet : α) (prev l : List (Front α)) : Prop :=
  Res.Holds (moveOnes fuel g dt precip nFd l.length prev l.length l aet) fun (l1, aet1) =>
    NoStrayAtBottom g.numLayers g.cum l1 ∧
    Res.Holds (moveTop g oldMass precip l1 aet1) fun (l2, _, _) =>
      Res.Holds (checkFix g 0 l2) fun (l3, _) =>
        Res.Holds (mergeFronts g l3) fun l4 => NoStrayAtBottom g.numLayers g.cum l4

/-- No stray front at the layer crossing of lgar_create_surficial_front. -/
def CreateTieFree (g : Geo α) (ponded dry theta1 : α) (l : List (Front α)) : Prop :=
  Res.Holds (createFront g ponded dry theta1 l) fun (_, _, l1) =>
    Res.Holds (mergeFronts g l1) fun l2 => NoStrayAtBottom g.numLayers g.cum l2

/-- No stray front in the water movement of a subcycle (the two branches of `subFlow`). -/
def FlowTieFree (c : StepCfg α) (s : SubSt α) (create : Bool) (nFd : Nat) (rate ponded aet : α) : Prop :=
  if create = true then
    MoveTieFree c.fuel c.geo c.dt 0 nFd s.volend aet s.head s.head ∧
    Res.Holds (moveFronts c.fuel c.geo c.dt 0 nFd s.volend aet s.head s.head) fun (l, _, _) =>
      Res.Holds (calcDryDepth c.fuel c.closed c.nint c.geo c.dt l) fun (dry, _) =>
        Res.Holds (deref l 0) fun h => CreateTieFree c.geo ponded dry h.theta l
  else
    Res.Holds (surfaceFlow c s nFd rate ponded aet) fun (_, volin, _, _) =>
      MoveTieFree c.fuel c.geo c.dt volin nFd s.volend aet s.head s.head

/-- No stray front in a subcycle. -/
def StepTieFree (c : StepCfg α) (s : SubSt α) : Prop :=
  Res.Holds (aetDemand c (CMath.fmax s.petMm 0 * 0.1) s.head) fun aet =>
    Res.Holds (deref s.head 0) fun h0 =>
      Res.Holds (c.geo.soil h0.layer) fun hs =>
        FlowTieFree c s
          (wantsFront s.precipPrev (CMath.fmax s.precipMm 0 * 0.1 * c.dt) h0.theta hs.thetaE (volonClean s.volon))
          (wettingFrontFreeDrainage s.head) (CMath.fmax s.precipMm 0 * 0.1)
          (CMath.fmax s.precipMm 0 * 0.1 * c.dt + s.volon) aet

/-- No stray front in the next `n` subcycles. -/
def LoopTieFree (c : StepCfg α) : Nat → SubSt α → Prop
  | 0, _ => True
  | n + 1, s => StepTieFree c s ∧ Res.Holds (subStep c s) fun s' => LoopTieFree c n s'

/-- No stray front in an Update. -/
def UpdateTieFree (fuel : Nat) (standalone : Bool) (s : State α) : Prop :=
  Res.Holds (updatePre s) fun (s1, _) =>
    Res.Holds (massBal s1.p.cum s1.head) fun v =>
      LoopTieFree (stepCfg fuel standalone s1) s1.p.forcingInterval.toNat (subInit s1 v)

/-- Runs (Spec/Run.lean) without such a coincidence. -/
inductive TieFreeRun (s0 : State α) : List (State α) → State α → Prop
  | nil : TieFreeRun s0 [] s0
  | step {hist : List (State α)} {s s1 s2 : State α} {fuel : Nat} {standalone : Bool} :
      TieFreeRun s0 hist s → Inputs s s1 → UpdateTieFree fuel standalone s1 → update fuel standalone s1 = .ok s2 →
      TieFreeRun s0 (hist ++ [s2]) s2

theorem TieFreeRun.run {s0 s : State α} {hist : List (State α)} (h : TieFreeRun s0 hist s) : Run s0 hist s := by
  induction h with
  | nil => exact .nil
  | step _ hi _ hu ih => exact .step ih hi hu

end LGAR
