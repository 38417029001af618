import Verif.Lemmas.Placed
import Verif.Lemmas.ThetaLoop
/-
The stop by the mass-balance check (bmi_lgar.cxx 454-475) comes from no other function than the sub-timestep itself.
-/
set_option linter.unusedSectionVars false
set_option linter.unusedTactic false
set_option linter.unreachableTactic false
namespace LGAR

/-- The stop when a sub-timestep does not balance. -/
def balanceStop : Err := .abort "local mass balance larger than expected"

/-- The result is not that stop. -/
structure NS {β : Type} (x : Res β) : Prop where
  ne : x ≠ .error balanceStop

namespace NS
variable {β γ : Type}

theorem err {e : Err} (h : e ≠ balanceStop) : NS (.error e : Res β) := ⟨by intro x; cases x; exact h rfl⟩
theorem ok {a : β} : NS (.ok a : Res β) := ⟨by intro x; cases x⟩
theorem pure {a : β} : NS (Pure.pure a : Res β) := ⟨by intro x; cases x⟩
theorem bind {x : Res β} {f : β → Res γ} (hx : NS x) (hf : ∀ a, x = .ok a → NS (f a)) : NS (x >>= f) := by
  cases x with
  | error e => exact ⟨fun h => hx.ne (by simpa [error_bind] using h)⟩
  | ok a => rw [ok_bind]; exact hf a rfl
theorem bind2 {δ : Type} {x : Res (β × δ)} {f : β × δ → Res γ} (hx : NS x) (hf : ∀ a b, NS (f (a, b))) : NS (x >>= f) :=
  bind hx fun _ _ => hf _ _
theorem idx {a : List β} {i : Nat} : NS (LGAR.idx a i) := by
  unfold LGAR.idx; split
  · exact ok
  · exact err (by simp [balanceStop])
theorem idxI {a : List β} {i : Int} : NS (LGAR.idxI a i) := by
  unfold LGAR.idxI; split
  · exact err (by simp [balanceStop])
  · exact idx
theorem idxPred {a : List β} {i : Nat} : NS (LGAR.idxPred a i) := by
  unfold LGAR.idxPred; split
  · exact err (by simp [balanceStop])
  · exact idx
theorem cassert {p : Prop} [Decidable p] {w : String} : NS (LGAR.cassert p w) := by
  unfold LGAR.cassert; split
  · exact ok
  · exact err (by simp [balanceStop])
theorem cdiv {α : Type} [Div α] [CMath α] {a b : α} : NS (LGAR.cdiv a b) := by
  unfold LGAR.cdiv; split
  · exact ok
  · exact err (by simp [balanceStop])
theorem cpow {α : Type} [CMath α] {a b : α} : NS (LGAR.cpow a b) := by
  unfold LGAR.cpow; split
  · exact ok
  · exact err (by simp [balanceStop])
theorem csqrt {α : Type} [CMath α] {a : α} : NS (LGAR.csqrt a) := by
  unfold LGAR.csqrt; split
  · exact ok
  · exact err (by simp [balanceStop])
theorem soil {α : Type} {g : Geo α} {k : Nat} : NS (g.soil k) := by
  unfold Geo.soil; exact bind idx fun _ _ => idxI
theorem deref {α : Type} {l : List (Front α)} {i : Nat} : NS (LGAR.deref l i) := by
  unfold LGAR.deref; split
  · exact ok
  · exact err (by simp [balanceStop])
theorem derefOpt {α : Type} {l : List (Front α)} {i : Option Nat} : NS (LGAR.derefOpt l i) := by
  unfold LGAR.derefOpt; split
  · exact deref
  · exact err (by simp [balanceStop])
theorem delete {α : Type} {k : Int} {l : List (Front α)} : NS (listDeleteFront k l) := by
  unfold listDeleteFront; split
  · exact err (by simp [balanceStop])
  · exact ok
theorem ptr {i d : Nat} : NS (ptrAfterDelete i d) := by
  unfold ptrAfterDelete; split
  · exact err (by simp [balanceStop])
  · split <;> exact ok
theorem setIdx {a : List β} {i : Nat} {v : β} : NS (LGAR.setIdx a i v) := by
  unfold LGAR.setIdx; split
  · exact ok
  · exact err (by simp [balanceStop])
theorem setPred {a : List β} {i : Nat} {v : β} : NS (LGAR.setPred a i v) := by
  unfold LGAR.setPred; split
  · exact err (by simp [balanceStop])
  · exact setIdx
end NS

/-- Walks through a `do` block. -/
macro "nostop" : tactic => `(tactic| repeat' with_reducible first
  | exact NS.ok | exact NS.pure | exact NS.err (by simp [balanceStop]) | exact NS.soil | exact NS.idx | exact NS.idxI
  | exact NS.idxPred | exact NS.cassert | exact NS.cdiv | exact NS.cpow | exact NS.csqrt
  | exact NS.deref | exact NS.derefOpt | exact NS.delete | exact NS.ptr | exact NS.setIdx | exact NS.setPred
  | assumption
  | apply NS.bind2 | apply NS.bind
  | intro _ _ | dsimp only | split)

section Free
variable {α : Type} [Add α] [Sub α] [Mul α] [Div α] [Neg α] [Zero α] [One α] [OfScientific α]
  [LT α] [LE α] [DecidableLT α] [DecidableLE α] [BEq α] [CMath α]

theorem NS.massBal {cum : List α} {l : List (Front α)} : NS (massBal cum l) := by
  unfold LGAR.massBal
  generalize (0 : α) = s
  induction l generalizing s with
  | nil => unfold massBalGo; exact NS.ok
  | cons f t ih =>
    unfold massBalGo
    refine NS.bind NS.idxPred fun _ _ => ?_
    split
    · split <;> exact ih _
    · exact ih _

theorem NS.thetaH {h a m n e r : α} : NS (calcThetaFromH h a m n e r) := by unfold calcThetaFromH; nostop
theorem NS.hSe {Se a m n : α} : NS (calcHFromSe Se a m n) := by unfold calcHFromSe; nostop
theorem NS.kSe {Se k m : α} : NS (calcKFromSe Se k m) := by unfold calcKFromSe; nostop
theorem NS.seTheta {t e r : α} : NS (calcSeFromTheta t e r) := by unfold calcSeFromTheta; nostop
theorem NS.seH {h a m n : α} : NS (calcSeFromH h a m n) := by unfold calcSeFromH; nostop

/-- `nostop` with the functions of soil_funcs and the storage. -/
macro "nostop!" : tactic => `(tactic| repeat' with_reducible first
  | exact NS.ok | exact NS.pure | exact NS.err (by simp [balanceStop]) | exact NS.soil | exact NS.idx | exact NS.idxI
  | exact NS.idxPred | exact NS.cassert | exact NS.cdiv | exact NS.cpow | exact NS.csqrt
  | exact NS.deref | exact NS.derefOpt | exact NS.delete | exact NS.ptr | exact NS.setIdx | exact NS.setPred
  | exact NS.massBal | exact NS.thetaH | exact NS.hSe | exact NS.kSe | exact NS.seTheta | exact NS.seH
  | assumption
  | apply NS.bind2 | apply NS.bind
  | intro _ _ | dsimp only | split)

theorem NS.psiKOf {g : Geo α} {k : Nat} {th : α} : NS (psiKOf g k th) := by unfold LGAR.psiKOf; nostop!
theorem NS.psiOf {s : SoilProps α} {th : α} : NS (psiOf s th) := by unfold LGAR.psiOf; nostop!

theorem NS.calcAet {P dt w f : α} {g : Geo α} {l : List (Front α)} : NS (calcAet P dt w f g l) := by
  unfold LGAR.calcAet; nostop!

theorem NS.mergeStep {g : Geo α} {cur : Nat} {l : List (Front α)} : NS (mergeStep g cur l) := by
  unfold LGAR.mergeStep; nostop!; exact NS.psiKOf

theorem NS.crossStep {g : Geo α} {cur : Nat} {l : List (Front α)} : NS (crossStep g cur l) := by
  unfold LGAR.crossStep; nostop!

theorem NS.updAbove {g : Geo α} {psi : α} {k : Nat} {l : List (Front α)} : NS (updAbove g psi k l) := by
  induction l with
  | nil => unfold LGAR.updAbove; nostop!
  | cons f t ih => unfold LGAR.updAbove; nostop!

theorem NS.fixDryRepair {g : Geo α} {c : Front α} {l : List (Front α)} : NS (fixDryRepair g c l) := by
  unfold LGAR.fixDryRepair; nostop!; exact NS.updAbove

theorem NS.moveLayers {g : Geo α} {p0 p : α} {b : Option (α × α)} {n k : Nat} {a : MoveAcc α} :
    NS (moveLayers g p0 p b n k a) := by
  have hb : ∀ (s : SoilProps α) (x : Option α), NS (belowTheta s x) := by
    intro s x; unfold belowTheta; nostop!
  induction n generalizing k a with
  | zero => unfold LGAR.moveLayers; nostop!
  | succ n ih =>
    unfold LGAR.moveLayers; nostop!
    · exact hb _ _
    · exact hb _ _
    · exact ih

theorem NS.moveReadAbove {w : Nat} {l : List (Front α)} : NS (moveReadAbove w l) := by
  unfold LGAR.moveReadAbove; nostop!

theorem NS.moveTopLayer {dt p col : α} {b : Bool} {c n o on : Front α} {s : SoilProps α} {aet : α} :
    NS (moveTopLayer dt p col b c n o on s aet) := by
  unfold LGAR.moveTopLayer; nostop!

theorem NS.mcLoop {g : Geo α} {target column : α} {p fuel : Nat} {st : McState α} : NS (mcLoop g target column p fuel st) := by
  induction fuel generalizing st with
  | zero => unfold LGAR.mcLoop; nostop!
  | succ n ih =>
    unfold LGAR.mcLoop
    nostop!
    all_goals exact ih

theorem NS.giuhAdd {r : α} {o : List α} {n i : Nat} {q : List α} : NS (giuhAdd r o n i q) := by
  induction n generalizing i q with
  | zero => unfold LGAR.giuhAdd; nostop!
  | succ n ih => unfold LGAR.giuhAdd; nostop!; exact ih

theorem NS.giuhShift {n i : Nat} {q : List α} : NS (giuhShift n i q) := by
  induction n generalizing i q with
  | zero => unfold LGAR.giuhShift; nostop!
  | succ n ih => unfold LGAR.giuhShift; nostop!; exact ih

theorem NS.giuhConv {r : α} {N : Nat} {o q : List α} : NS (giuhConv r N o q) := by
  unfold LGAR.giuhConv; nostop!
  · exact NS.giuhAdd
  · exact NS.giuhShift

theorem NS.refreshOne {g : Geo α} {f : Front α} : NS (refreshOne g f) := by
  unfold LGAR.refreshOne; nostop!; exact NS.psiKOf

theorem NS.refresh {g : Geo α} {l : List (Front α)} : NS (refresh g l) := by
  induction l with
  | nil => unfold LGAR.refresh; nostop!
  | cons f t ih =>
    cases t with
    | nil => unfold LGAR.refresh; nostop!
    | cons n t => unfold LGAR.refresh; nostop!; exact NS.refreshOne

theorem NS.fixSingle {g : Geo α} {l : List (Front α)} : NS (fixSingle g l) := by
  unfold LGAR.fixSingle; nostop!

theorem NS.frozenCells {b s : α} {c : Nat} {l : List (α × α)} : NS (frozenCells b s c l) := by
  induction l generalizing s c with
  | nil => unfold LGAR.frozenCells; nostop!
  | cons x t ih => unfold LGAR.frozenCells; nostop!; exact ih

theorem NS.frozenLayers {bs : List α} {l : List (α × α)} : NS (frozenLayers bs l) := by
  induction bs generalizing l with
  | nil => unfold LGAR.frozenLayers; nostop!
  | cons x t ih =>
    unfold LGAR.frozenLayers; nostop!
    · exact NS.frozenCells
    · exact ih

theorem NS.frozenFactor {cum : List α} {c : List (α × α)} {o : List α} : NS (frozenFactor cum c o) := by
  unfold LGAR.frozenFactor; nostop!; exact NS.frozenLayers

theorem NS.calibFront {st : List Int} {c : Calib α} {so : List (SoilProps α)} {f : Front α} :
    NS (calibFront st c so f) := by
  unfold LGAR.calibFront; nostop!

theorem NS.calibLoop {st : List Int} {c : Calib α} {n : Nat} {so : List (SoilProps α)} {l : List (Front α)} :
    NS (calibLoop st c n so l) := by
  induction n generalizing so l with
  | zero => unfold LGAR.calibLoop; nostop!
  | succ n ih =>
    cases l with
    | nil => unfold LGAR.calibLoop; nostop!
    | cons f t =>
      unfold LGAR.calibLoop; nostop!
      · exact NS.calibFront
      · exact ih

theorem NS.updatePre {s : State α} : NS (updatePre s) := by
  have h1 : NS (applyFrozen s) := by unfold applyFrozen; nostop!; exact NS.frozenFactor
  have h2 : ∀ s : State α, NS (applyCalib s) := by
    intro s; unfold applyCalib updateCalib; nostop!; exact NS.calibLoop
  unfold LGAR.updatePre; nostop!; exact h2 _

theorem NS.updatePost {s : State α} {d : α} {u : SubSt α} : NS (updatePost s d u) := by
  unfold LGAR.updatePost; nostop!; exact NS.giuhConv

theorem NS.fpBottomSum {g : Geo α} {n : Nat} {s : α} : NS (fpBottomSum g n s) := by
  induction n generalizing s with
  | zero => unfold LGAR.fpBottomSum; nostop!
  | succ n ih => unfold LGAR.fpBottomSum; nostop!; exact ih

theorem NS.maxStorage {g : Geo α} : NS (maxStorage g) := by
  have : ∀ n k (s : α), NS (maxStorageGo g n k s) := by
    intro n
    induction n with
    | zero => intro k s; unfold maxStorageGo; nostop!
    | succ n ih => intro k s; unfold maxStorageGo; nostop!; exact ih _ _
  exact this _ _ _

theorem NS.partitionPond {dt p v m f : α} : NS (partitionPond dt p v m f) := by
  unfold LGAR.partitionPond; nostop!

theorem NS.createFront {g : Geo α} {p d t : α} {l : List (Front α)} : NS (createFront g p d t l) := by
  have : ∀ a b c d : α, NS (surficialSplit a b c d) := by intro a b c d; unfold surficialSplit; nostop!
  unfold LGAR.createFront; nostop!; exact this _ _ _ _

theorem NS.dzdtTerm {g : Geo α} {layer k : Nat} {psi : α} : NS (dzdtTerm g layer psi k) := by
  unfold LGAR.dzdtTerm; nostop!

theorem NS.dzdtDenom {g : Geo α} {layer n k : Nat} {psi d : α} : NS (dzdtDenom g layer psi n k d) := by
  induction n generalizing k d with
  | zero => unfold LGAR.dzdtDenom; nostop!
  | succ n ih =>
    unfold LGAR.dzdtDenom; nostop!
    · exact NS.dzdtTerm
    · exact ih

theorem NS.dzdtBottomSum {g : Geo α} {c : Front α} : NS (dzdtBottomSum g c) := by
  unfold LGAR.dzdtBottomSum; nostop!

theorem NS.dzdtRaw {g : Geo α} {k G h b : α} {c n : Front α} : NS (dzdtRaw g k G h b c n) := by
  unfold LGAR.dzdtRaw; nostop!; all_goals exact NS.dzdtDenom


theorem NS.crossLayer {g : Geo α} {l : List (Front α)} : NS (crossLayer g l) := by
  have : ∀ fuel wf cur (l : List (Front α)), NS (crossLoop g fuel wf cur l) := by
    intro fuel
    induction fuel with
    | zero => intros; unfold LGAR.crossLoop; nostop!
    | succ n ih =>
      intros; unfold LGAR.crossLoop; nostop!
      · exact NS.crossStep
      · exact ih ..
  exact this ..

theorem NS.mergeFronts {g : Geo α} {l : List (Front α)} : NS (mergeFronts g l) := by
  have : ∀ fuel wf cur (l : List (Front α)), NS (mergeLoop g fuel wf cur l) := by
    intro fuel
    induction fuel with
    | zero => intros; unfold LGAR.mergeLoop; nostop!
    | succ n ih =>
      intros; unfold LGAR.mergeLoop; nostop!
      · exact NS.mergeStep
      · exact ih ..
  exact this ..

theorem NS.crossDomain {g : Geo α} {dom : α} {l : List (Front α)} : NS (crossDomain g dom l) := by
  have : ∀ len fuel wf cur (l : List (Front α)), NS (domainLoop g dom len fuel wf cur l) := by
    intro len fuel
    induction fuel with
    | zero => intros; unfold LGAR.domainLoop; nostop!
    | succ n ih =>
      intros; unfold LGAR.domainLoop; nostop!
      · exact NS.psiKOf
      · exact ih ..
  exact this ..

theorem NS.checkFix {g : Geo α} {mc : α} {l : List (Front α)} : NS (checkFix g mc l) := by
  have : ∀ fuel cnt cur (l : List (Front α)) (mc : α), NS (fixDryLoop g fuel cnt cur l mc) := by
    intro fuel
    induction fuel with
    | zero => intros; unfold LGAR.fixDryLoop; nostop!
    | succ n ih =>
      intros; unfold LGAR.fixDryLoop; nostop!
      · exact NS.fixDryRepair
      all_goals exact ih ..
  have h1 : NS (checkDry l) := by unfold checkDry; nostop!
  have h2 : NS (fixDry g mc l) := by unfold fixDry; nostop!; exact this ..
  unfold LGAR.checkFix; nostop!

theorem NS.moveTop {g : Geo α} {o p aet : α} {l : List (Front α)} : NS (moveTop g o p l aet) := by
  have h1 : ∀ (w : Front α) x, NS (mcFactor w x) := by intro w x; unfold mcFactor; nostop!
  unfold LGAR.moveTop; nostop!
  · exact NS.crossLayer
  · exact h1 _ _
  · exact NS.mcLoop

theorem NS.movePost {g : Geo α} {l : List (Front α)} {aet flux : α} : NS (movePost g l aet flux) := by
  unfold LGAR.movePost; nostop!
  all_goals first | exact NS.checkFix | exact NS.mergeFronts | exact NS.crossLayer | exact NS.crossDomain | exact NS.refresh | exact NS.fixSingle

theorem NS.createSurficial {g : Geo α} {p d t : α} {l : List (Front α)} : NS (createSurficial g p d t l) := by
  unfold LGAR.createSurficial; nostop!
  all_goals first | exact NS.createFront | exact NS.mergeFronts | exact NS.crossLayer

theorem NS.calcGeff {fuel : Nat} {closed : Bool} {t1 t2 e r a n m Ks : α} {nint : Int} {la ps : α} :
    NS (calcGeff fuel closed t1 t2 e r a n m Ks nint la ps) := by
  have : ∀ (hi : α) fuel (h2 dh K1 G : α), NS (geffLoop a m n Ks hi fuel h2 dh K1 G) := by
    intro hi fuel
    induction fuel with
    | zero => intros; unfold geffLoop; nostop!
    | succ f ih => intros; unfold geffLoop; nostop!; all_goals exact ih ..
  unfold LGAR.calcGeff; nostop!; exact this ..

theorem NS.dzdtCalc {fuel : Nat} {closed : Bool} {nint : Int} {hp : α} {g : Geo α} {l : List (Front α)} :
    NS (dzdtCalc fuel closed nint hp g l) := by
  have h0 : ∀ (s : SoilProps α) (ff : α) c n, NS (dzdtVel fuel closed nint hp g s ff c n) := by
    intros; unfold dzdtVel dzdtOne; nostop!
    all_goals first | exact NS.dzdtBottomSum | exact NS.calcGeff | exact NS.dzdtRaw
  have : ∀ l : List (Front α), NS (dzdtGo fuel closed nint hp g l) := by
    intro l
    induction l with
    | nil => unfold dzdtGo; nostop!
    | cons c t ih =>
      unfold dzdtGo; nostop!
      all_goals first | exact h0 .. | exact ih
  unfold LGAR.dzdtCalc; nostop!; exact this _

theorem NS.thetaMassBalance {fuel : Nat} {g : Geo α} {layer : Nat} {s : SoilProps α} {psi nm pr aet : α} {dT dK : List α} :
    NS (thetaMassBalance fuel g layer s psi nm pr aet dT dK) := by
  have h1 : ∀ (psi : α) n k (m : α), NS (tmLayers g psi dT dK n k m) := by
    intro psi n
    induction n with
    | zero => intros; unfold tmLayers; nostop!
    | succ n ih => intros; unfold tmLayers; nostop!; exact ih ..
  have h2 : ∀ psi : α, NS (tmMass g layer s dT dK psi) := by intro psi; unfold tmMass; nostop!; exact h1 ..
  have h3 : ∀ fuel (st : TmState α), NS (tmLoop g layer s dT dK pr fuel st) := by
    intro fuel
    induction fuel with
    | zero => intros; unfold tmLoop; nostop!
    | succ n ih =>
      intro st; unfold tmLoop
      split
      · dsimp only
        split
        · exact NS.ok
        · rename_i e he
          exact NS.err fun hx => (h2 _).ne (by rw [he, hx])
        · nostop!; all_goals exact ih _
      · exact NS.ok
  unfold LGAR.thetaMassBalance; nostop!; exact h3 ..

theorem NS.moveOne {fuel : Nat} {g : Geo α} {dt p : α} {nFd n wf : Nat} {prev l : List (Front α)} {aet : α} :
    NS (moveOne fuel g dt p nFd n wf prev l aet) := by
  have h1 : ∀ b c o (s : SoilProps α), NS (moveDeepest fuel g dt p b c o s aet) := by
    intros; unfold moveDeepest; nostop!
    all_goals first | exact NS.moveLayers | exact NS.thetaMassBalance | exact NS.psiOf
  have h2 : ∀ b c n o on os (s : SoilProps α), NS (moveInner fuel g dt p b c n o on os s aet) := by
    intros; unfold moveInner; nostop!
    all_goals first | exact NS.moveLayers | exact NS.thetaMassBalance
  unfold LGAR.moveOne; nostop!
  all_goals first | exact h1 .. | exact h2 .. | exact NS.moveTopLayer | exact NS.psiOf | exact NS.moveReadAbove

theorem NS.moveFronts {fuel : Nat} {g : Geo α} {dt p : α} {nFd : Nat} {o aet : α} {prev l : List (Front α)} :
    NS (moveFronts fuel g dt p nFd o aet prev l) := by
  have h1 : ∀ n k (l : List (Front α)) aet, NS (moveOnes fuel g dt p nFd n prev k l aet) := by
    intro n k
    induction k with
    | zero => intros; unfold moveOnes; nostop!
    | succ k ih =>
      intros; unfold moveOnes; nostop!
      · exact NS.moveOne
  unfold LGAR.moveFronts moveMain; nostop!
  · exact h1 ..
  · exact NS.moveTop
  · exact NS.movePost

theorem NS.calcDryDepth {fuel : Nat} {closed : Bool} {nint : Int} {g : Geo α} {dt : α} {l : List (Front α)} :
    NS (calcDryDepth fuel closed nint g dt l) := by
  unfold LGAR.calcDryDepth; nostop!; exact NS.calcGeff

theorem NS.insertWater {fuel : Nat} {closed : Bool} {nint : Int} {g : Geo α} {dt a po v pr : α} {nFd : Nat} {pm : α}
    {l : List (Front α)} : NS (insertWater fuel closed nint g dt a po v pr nFd pm l) := by
  unfold LGAR.insertWater fpCapacity fpPotential; nostop!
  all_goals first | exact NS.calcGeff | exact NS.fpBottomSum | exact NS.maxStorage | exact NS.partitionPond

theorem NS.subFlow {c : StepCfg α} {s : SubSt α} {b : Bool} {prev : List (Front α)} {nFd : Nat} {r p aet : α} :
    NS (subFlow c s b prev nFd r p aet) := by
  unfold LGAR.subFlow flowCreate flowMove surfaceFlow; nostop!
  all_goals first | exact NS.moveFronts | exact NS.calcDryDepth | exact NS.createSurficial | exact NS.insertWater

theorem NS.aetDemand {c : StepCfg α} {p : α} {l : List (Front α)} : NS (aetDemand c p l) := by
  unfold LGAR.aetDemand; nostop!; exact NS.calcAet

end Free
end LGAR
