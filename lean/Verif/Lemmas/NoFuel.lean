import Verif.Lemmas.Placed
import Verif.Lemmas.ThetaLoop
/-
Every loop over the list of fronts, the layers, the GIUH ordinates and the corrections of mass ends by itself: none of them
exhausts the fuel the model gives it.  No law of arithmetic is used.
-/
namespace LGAR

/-- The result is not the exhausted fuel. -/
structure NF {β : Type} (x : Res β) : Prop where
  ne : x ≠ .error .fuel

namespace NF
variable {β γ : Type}

theorem err {e : Err} (h : e ≠ .fuel) : NF (.error e : Res β) := ⟨by intro x; cases x; exact h rfl⟩
theorem ok {a : β} : NF (.ok a : Res β) := ⟨by intro x; cases x⟩
theorem pure {a : β} : NF (Pure.pure a : Res β) := ⟨by intro x; cases x⟩
theorem bind {x : Res β} {f : β → Res γ} (hx : NF x) (hf : ∀ a, x = .ok a → NF (f a)) : NF (x >>= f) :=
  ⟨bind_ne_fuel hx.ne fun a h => (hf a h).ne⟩
theorem bind2 {δ : Type} {x : Res (β × δ)} {f : β × δ → Res γ} (hx : NF x) (hf : ∀ a b, NF (f (a, b))) : NF (x >>= f) :=
  bind hx fun _ _ => hf _ _
theorem idx {a : List β} {i : Nat} : NF (LGAR.idx a i) := ⟨idx_ne_fuel⟩
theorem idxI {a : List β} {i : Int} : NF (LGAR.idxI a i) := ⟨idxI_ne_fuel⟩
theorem idxPred {a : List β} {i : Nat} : NF (LGAR.idxPred a i) := by
  unfold LGAR.idxPred; split
  · exact err (by simp)
  · exact idx
theorem cassert {p : Prop} [Decidable p] {w : String} : NF (LGAR.cassert p w) := by
  unfold LGAR.cassert; split
  · exact ok
  · exact err (by simp)
theorem cdiv {α : Type} [Div α] [CMath α] {a b : α} : NF (LGAR.cdiv a b) := ⟨cdiv_ne_fuel⟩
theorem cpow {α : Type} [CMath α] {a b : α} : NF (LGAR.cpow a b) := ⟨cpow_ne_fuel⟩
theorem csqrt {α : Type} [CMath α] {a : α} : NF (LGAR.csqrt a) := ⟨csqrt_ne_fuel⟩
theorem soil {α : Type} {g : Geo α} {k : Nat} : NF (g.soil k) := ⟨soil_ne_fuel⟩
theorem deref {α : Type} {l : List (Front α)} {i : Nat} : NF (LGAR.deref l i) := by
  unfold LGAR.deref; split
  · exact ok
  · exact err (by simp)
theorem derefOpt {α : Type} {l : List (Front α)} {i : Option Nat} : NF (LGAR.derefOpt l i) := by
  unfold LGAR.derefOpt; split
  · exact deref
  · exact err (by simp)
theorem delete {α : Type} {k : Int} {l : List (Front α)} : NF (listDeleteFront k l) := by
  unfold listDeleteFront; split
  · exact err (by simp)
  · exact ok
theorem ptr {i d : Nat} : NF (ptrAfterDelete i d) := by
  unfold ptrAfterDelete; split
  · exact err (by simp)
  · split <;> exact ok
theorem setIdx {a : List β} {i : Nat} {v : β} : NF (LGAR.setIdx a i v) := by
  unfold LGAR.setIdx; split
  · exact ok
  · exact err (by simp)
theorem setPred {a : List β} {i : Nat} {v : β} : NF (LGAR.setPred a i v) := by
  unfold LGAR.setPred; split
  · exact err (by simp)
  · exact setIdx
end NF

/-- Walks through a `do` block. -/
macro "nofuel" : tactic => `(tactic| repeat' with_reducible first
  | exact NF.ok | exact NF.pure | exact NF.err (by simp) | exact NF.soil | exact NF.idx | exact NF.idxI
  | exact NF.idxPred | exact NF.cassert | exact NF.cdiv | exact NF.cpow | exact NF.csqrt
  | exact NF.deref | exact NF.derefOpt | exact NF.delete | exact NF.ptr | exact NF.setIdx | exact NF.setPred
  | assumption
  | apply NF.bind2 | apply NF.bind
  | intro _ _ | dsimp only | split)

section Free
variable {α : Type} [Add α] [Sub α] [Mul α] [Div α] [Neg α] [Zero α] [One α] [OfScientific α]
  [LT α] [LE α] [DecidableLT α] [DecidableLE α] [BEq α] [CMath α]

theorem NF.massBal {cum : List α} {l : List (Front α)} : NF (massBal cum l) := by
  unfold LGAR.massBal
  generalize (0 : α) = s
  induction l generalizing s with
  | nil => unfold massBalGo; exact NF.ok
  | cons f t ih =>
    unfold massBalGo
    refine NF.bind NF.idxPred fun _ _ => ?_
    split
    · split <;> exact ih _
    · exact ih _

theorem NF.thetaH {h a m n e r : α} : NF (calcThetaFromH h a m n e r) := by unfold calcThetaFromH; nofuel
theorem NF.hSe {Se a m n : α} : NF (calcHFromSe Se a m n) := by unfold calcHFromSe; nofuel
theorem NF.kSe {Se k m : α} : NF (calcKFromSe Se k m) := by unfold calcKFromSe; nofuel
theorem NF.seTheta {t e r : α} : NF (calcSeFromTheta t e r) := by unfold calcSeFromTheta; nofuel
theorem NF.seH {h a m n : α} : NF (calcSeFromH h a m n) := by unfold calcSeFromH; nofuel

/-- `nofuel` with the functions of soil_funcs and the storage. -/
macro "nofuel!" : tactic => `(tactic| repeat' with_reducible first
  | exact NF.ok | exact NF.pure | exact NF.err (by simp) | exact NF.soil | exact NF.idx | exact NF.idxI
  | exact NF.idxPred | exact NF.cassert | exact NF.cdiv | exact NF.cpow | exact NF.csqrt
  | exact NF.deref | exact NF.derefOpt | exact NF.delete | exact NF.ptr | exact NF.setIdx | exact NF.setPred
  | exact NF.massBal | exact NF.thetaH | exact NF.hSe | exact NF.kSe | exact NF.seTheta | exact NF.seH
  | assumption
  | apply NF.bind2 | apply NF.bind
  | intro _ _ | dsimp only | split)

theorem NF.psiKOf {g : Geo α} {k : Nat} {th : α} : NF (psiKOf g k th) := by unfold LGAR.psiKOf; nofuel!
theorem NF.psiOf {s : SoilProps α} {th : α} : NF (psiOf s th) := by unfold LGAR.psiOf; nofuel!

theorem NF.calcAet {P dt w f : α} {g : Geo α} {l : List (Front α)} : NF (calcAet P dt w f g l) := by
  unfold LGAR.calcAet; nofuel!

theorem NF.mergeStep {g : Geo α} {cur : Nat} {l : List (Front α)} : NF (mergeStep g cur l) := by
  unfold LGAR.mergeStep; nofuel!; exact NF.psiKOf

theorem NF.crossStep {g : Geo α} {cur : Nat} {l : List (Front α)} : NF (crossStep g cur l) := by
  unfold LGAR.crossStep; nofuel!

theorem NF.updAbove {g : Geo α} {psi : α} {k : Nat} {l : List (Front α)} : NF (updAbove g psi k l) := by
  induction l with
  | nil => unfold LGAR.updAbove; nofuel!
  | cons f t ih => unfold LGAR.updAbove; nofuel!

theorem NF.fixDryRepair {g : Geo α} {c : Front α} {l : List (Front α)} : NF (fixDryRepair g c l) := by
  unfold LGAR.fixDryRepair; nofuel!; exact NF.updAbove

theorem NF.moveLayers {g : Geo α} {p0 p : α} {b : Option (α × α)} {n k : Nat} {a : MoveAcc α} :
    NF (moveLayers g p0 p b n k a) := by
  have hb : ∀ (s : SoilProps α) (x : Option α), NF (belowTheta s x) := by
    intro s x; unfold belowTheta; nofuel!
  induction n generalizing k a with
  | zero => unfold LGAR.moveLayers; nofuel!
  | succ n ih =>
    unfold LGAR.moveLayers; nofuel!
    · exact hb _ _
    · exact hb _ _
    · exact ih

theorem NF.moveReadAbove {w : Nat} {l : List (Front α)} : NF (moveReadAbove w l) := by
  unfold LGAR.moveReadAbove; nofuel!

theorem NF.moveTopLayer {dt p col : α} {b : Bool} {c n o on : Front α} {s : SoilProps α} {aet : α} :
    NF (moveTopLayer dt p col b c n o on s aet) := by
  unfold LGAR.moveTopLayer; nofuel!

theorem NF.mcLoop {g : Geo α} {target column : α} {p fuel : Nat} {st : McState α} (h : 10001 < st.iter + fuel)
    (h1 : st.iter ≤ 10001) : NF (mcLoop g target column p fuel st) := by
  induction fuel generalizing st with
  | zero => omega
  | succ n ih =>
    unfold LGAR.mcLoop
    nofuel!
    all_goals exact ih (by simp only; omega) (by simp only; omega)

theorem NF.giuhAdd {r : α} {o : List α} {n i : Nat} {q : List α} : NF (giuhAdd r o n i q) := by
  induction n generalizing i q with
  | zero => unfold LGAR.giuhAdd; nofuel!
  | succ n ih => unfold LGAR.giuhAdd; nofuel!; exact ih

theorem NF.giuhShift {n i : Nat} {q : List α} : NF (giuhShift n i q) := by
  induction n generalizing i q with
  | zero => unfold LGAR.giuhShift; nofuel!
  | succ n ih => unfold LGAR.giuhShift; nofuel!; exact ih

theorem NF.giuhConv {r : α} {N : Nat} {o q : List α} : NF (giuhConv r N o q) := by
  unfold LGAR.giuhConv; nofuel!
  · exact NF.giuhAdd
  · exact NF.giuhShift

theorem NF.refreshOne {g : Geo α} {f : Front α} : NF (refreshOne g f) := by
  unfold LGAR.refreshOne; nofuel!; exact NF.psiKOf

theorem NF.refresh {g : Geo α} {l : List (Front α)} : NF (refresh g l) := by
  induction l with
  | nil => unfold LGAR.refresh; nofuel!
  | cons f t ih =>
    cases t with
    | nil => unfold LGAR.refresh; nofuel!
    | cons n t => unfold LGAR.refresh; nofuel!; exact NF.refreshOne

theorem NF.fixSingle {g : Geo α} {l : List (Front α)} : NF (fixSingle g l) := by
  unfold LGAR.fixSingle; nofuel!

theorem NF.frozenCells {b s : α} {c : Nat} {l : List (α × α)} : NF (frozenCells b s c l) := by
  induction l generalizing s c with
  | nil => unfold LGAR.frozenCells; nofuel!
  | cons x t ih => unfold LGAR.frozenCells; nofuel!; exact ih

theorem NF.frozenLayers {bs : List α} {l : List (α × α)} : NF (frozenLayers bs l) := by
  induction bs generalizing l with
  | nil => unfold LGAR.frozenLayers; nofuel!
  | cons x t ih =>
    unfold LGAR.frozenLayers; nofuel!
    · exact NF.frozenCells
    · exact ih

theorem NF.frozenFactor {cum : List α} {c : List (α × α)} {o : List α} : NF (frozenFactor cum c o) := by
  unfold LGAR.frozenFactor; nofuel!; exact NF.frozenLayers

theorem NF.calibFront {st : List Int} {c : Calib α} {so : List (SoilProps α)} {f : Front α} :
    NF (calibFront st c so f) := by
  unfold LGAR.calibFront; nofuel!

theorem NF.calibLoop {st : List Int} {c : Calib α} {n : Nat} {so : List (SoilProps α)} {l : List (Front α)} :
    NF (calibLoop st c n so l) := by
  induction n generalizing so l with
  | zero => unfold LGAR.calibLoop; nofuel!
  | succ n ih =>
    cases l with
    | nil => unfold LGAR.calibLoop; nofuel!
    | cons f t =>
      unfold LGAR.calibLoop; nofuel!
      · exact NF.calibFront
      · exact ih

theorem NF.updatePre {s : State α} : NF (updatePre s) := by
  have h1 : NF (applyFrozen s) := by unfold applyFrozen; nofuel!; exact NF.frozenFactor
  have h2 : ∀ s : State α, NF (applyCalib s) := by
    intro s; unfold applyCalib updateCalib; nofuel!; exact NF.calibLoop
  unfold LGAR.updatePre; nofuel!; exact h2 _

theorem NF.updatePost {s : State α} {d : α} {u : SubSt α} : NF (updatePost s d u) := by
  unfold LGAR.updatePost; nofuel!; exact NF.giuhConv

theorem NF.fpBottomSum {g : Geo α} {n : Nat} {s : α} : NF (fpBottomSum g n s) := by
  induction n generalizing s with
  | zero => unfold LGAR.fpBottomSum; nofuel!
  | succ n ih => unfold LGAR.fpBottomSum; nofuel!; exact ih

theorem NF.maxStorage {g : Geo α} : NF (maxStorage g) := by
  have : ∀ n k (s : α), NF (maxStorageGo g n k s) := by
    intro n
    induction n with
    | zero => intro k s; unfold maxStorageGo; nofuel!
    | succ n ih => intro k s; unfold maxStorageGo; nofuel!; exact ih _ _
  exact this _ _ _

theorem NF.partitionPond {dt p v m f : α} : NF (partitionPond dt p v m f) := by
  unfold LGAR.partitionPond; nofuel!

theorem NF.createFront {g : Geo α} {p d t : α} {l : List (Front α)} : NF (createFront g p d t l) := by
  have : ∀ a b c d : α, NF (surficialSplit a b c d) := by intro a b c d; unfold surficialSplit; nofuel!
  unfold LGAR.createFront; nofuel!; exact this _ _ _ _

theorem NF.dzdtTerm {g : Geo α} {layer k : Nat} {psi : α} : NF (dzdtTerm g layer psi k) := by
  unfold LGAR.dzdtTerm; nofuel!

theorem NF.dzdtDenom {g : Geo α} {layer n k : Nat} {psi d : α} : NF (dzdtDenom g layer psi n k d) := by
  induction n generalizing k d with
  | zero => unfold LGAR.dzdtDenom; nofuel!
  | succ n ih =>
    unfold LGAR.dzdtDenom; nofuel!
    · exact NF.dzdtTerm
    · exact ih

theorem NF.dzdtBottomSum {g : Geo α} {c : Front α} : NF (dzdtBottomSum g c) := by
  unfold LGAR.dzdtBottomSum; nofuel!

theorem NF.dzdtRaw {g : Geo α} {k G h b : α} {c n : Front α} : NF (dzdtRaw g k G h b c n) := by
  unfold LGAR.dzdtRaw; nofuel!; all_goals exact NF.dzdtDenom

theorem crossStep_next {g : Geo α} {cur : Nat} {l l' : List (Front α)} (h : crossStep g cur l = .ok l') :
    cur + 1 < l.length := by
  unfold crossStep at h
  simp only [bind_ok_iff, deref_ok_iff] at h
  obtain ⟨_, _, _, _, _, _, n, hn, _⟩ := h
  exact (List.getElem?_eq_some_iff.mp hn).1

theorem mergeStep_next {g : Geo α} {cur : Nat} {l : List (Front α)} {r : Nat × List (Front α)}
    (h : mergeStep g cur l = .ok r) : cur + 1 < l.length := by
  unfold mergeStep at h
  simp only [bind_ok_iff, deref_ok_iff] at h
  obtain ⟨_, _, n, hn, _⟩ := h
  exact (List.getElem?_eq_some_iff.mp hn).1

theorem NF.crossLoop {g : Geo α} {fuel wf cur : Nat} {l : List (Front α)} (h : l.length < cur + fuel + 1) (h1 : 1 ≤ fuel) :
    NF (crossLoop g fuel wf cur l) := by
  induction fuel generalizing wf cur l with
  | zero => omega
  | succ n ih =>
    unfold LGAR.crossLoop
    split
    · exact NF.ok
    · refine NF.bind NF.crossStep fun l' hl => ?_
      have h2 := crossStep_next hl
      have : l'.length = l.length := by
        rcases crossStep_inv hl with rfl | ⟨a, c, n, nn, b, s, ff, s2, bot, psi, Kc, thetaNew, Se, z, rfl, _, _, _, _, _, _, _, _, _, _,
          _, _, _, rfl⟩ <;> simp
      exact ih (by omega) (by omega)

theorem NF.crossLayer {g : Geo α} {l : List (Front α)} : NF (crossLayer g l) :=
  NF.crossLoop (by omega) (by omega)

theorem NF.mergeLoop {g : Geo α} {fuel wf cur : Nat} {l : List (Front α)} (hn : NumFrom 1 l)
    (h : l.length < cur + fuel + 1) (h1 : 1 ≤ fuel) : NF (mergeLoop g fuel wf cur l) := by
  induction fuel generalizing wf cur l with
  | zero => omega
  | succ n ih =>
    unfold LGAR.mergeLoop
    split
    · exact NF.ok
    · refine NF.bind NF.mergeStep fun r hr => ?_
      have h2 := mergeStep_next hr
      have h3 := mergeStep_num hn hr
      have : r.1 = cur + 1 ∧ r.2.length ≤ l.length := by
        rcases mergeStep_inv hn hr with rfl | ⟨a, c, n, nn, b, d, psi, Kc, rfl, _, _, _, _, _, _, _, rfl⟩
        · simp
        · simp
      obtain ⟨cur', l'⟩ := r
      simp only at this h3 ⊢
      exact ih h3 (by omega) (by omega)

theorem NF.mergeFronts {g : Geo α} {l : List (Front α)} (hn : NumFrom 1 l) : NF (mergeFronts g l) :=
  NF.mergeLoop hn (by omega) (by omega)

theorem NF.domainLoop {g : Geo α} {dom : α} {len fuel wf cur : Nat} {l : List (Front α)}
    (h : l.length < wf + fuel) (h1 : wf ≤ l.length) : NF (domainLoop g dom len fuel wf cur l) := by
  induction fuel generalizing wf cur with
  | zero => omega
  | succ n ih =>
    unfold LGAR.domainLoop
    split
    · exact NF.ok
    · split
      · exact NF.ok
      · nofuel!
        · exact NF.psiKOf
        · exact ih (by omega) (by omega)

theorem NF.crossDomain {g : Geo α} {dom : α} {l : List (Front α)} : NF (crossDomain g dom l) := by
  unfold LGAR.crossDomain
  cases l with
  | nil => unfold LGAR.domainLoop; simp only [List.length_nil, Nat.zero_le, if_true]; split <;> exact NF.ok
  | cons f t => exact NF.domainLoop (by omega) (by simp)

theorem NF.fixDryLoop {g : Geo α} {fuel cnt cur : Nat} {l : List (Front α)} {mc : α} (hn : NumFrom 1 l)
    (h : l.length + 1 < cnt + fuel) (h1 : 1 ≤ fuel) : NF (fixDryLoop g fuel cnt cur l mc) := by
  induction fuel generalizing cnt cur l mc with
  | zero => omega
  | succ n ih =>
    unfold LGAR.fixDryLoop
    split
    · exact NF.ok
    · split
      · refine NF.bind NF.deref fun c hc => NF.bind NF.deref fun nx hnx => ?_
        rw [deref_ok_iff] at hc hnx
        split
        · refine NF.bind NF.fixDryRepair fun r hr => ?_
          obtain ⟨a, b, rfl, rfl⟩ := split2 hc hnx
          have h3 := fixDryRepair_num hn hr
          have h4 : r.2.1.length ≤ (a ++ c :: nx :: b).length := by
            obtain ⟨m0, m1, l2, _, _, rfl, hx⟩ := fixDryRepair_inv hn hr
            rcases hx with ⟨_, rfl⟩ | ⟨_, d, b', s, Se, psi, hb, _, _, _, hu⟩
            · simp
            · have := congrArg List.length (updAbove_lay hu)
              simp only [List.cons.injEq] at hb
              obtain ⟨rfl, rfl⟩ := hb
              simp only [List.length_map] at this
              simp only [this]; simp
          obtain ⟨del, l', dm⟩ := r
          simp only at h3 h4 ⊢
          exact NF.bind NF.deref fun _ _ => ih h3 (by omega) (by omega)
        · exact ih hn (by omega) (by omega)
      · exact ih hn (by omega) (by omega)

theorem NF.checkFix {g : Geo α} {mc : α} {l : List (Front α)} (hn : NumFrom 1 l) : NF (checkFix g mc l) := by
  have h1 : NF (checkDry l) := by unfold checkDry; nofuel!
  have h2 : NF (fixDry g mc l) := by
    unfold fixDry; exact NF.bind NF.deref fun _ _ => NF.fixDryLoop hn (by omega) (by omega)
  unfold LGAR.checkFix; nofuel!

theorem NF.moveTop {g : Geo α} {o p aet : α} {l : List (Front α)} : NF (moveTop g o p l aet) := by
  have h1 : ∀ (w : Front α) x, NF (mcFactor w x) := by intro w x; unfold mcFactor; nofuel!
  unfold LGAR.moveTop; nofuel!
  · exact NF.crossLayer
  · exact h1 _ _
  · exact NF.mcLoop (by simp [mcFuel]) (by simp)

theorem NF.movePost {g : Geo α} {l : List (Front α)} {aet flux : α} (hs : Placed l) : NF (movePost g l aet flux) := by
  unfold LGAR.movePost
  refine NF.bind (NF.checkFix hs.num) fun r1 h1 => ?_
  obtain ⟨l1, mc1⟩ := r1
  have s1 := hs.checkFix h1
  refine NF.bind (NF.mergeFronts s1.num) fun l2 h2 => ?_
  have s2 := s1.merge h2
  refine NF.bind NF.crossLayer fun l3 h3 => ?_
  have s3 := s2.cross h3
  refine NF.bind (NF.checkFix s3.num) fun r4 h4 => ?_
  obtain ⟨l4, mc4⟩ := r4
  have s4 := s3.checkFix h4
  refine NF.bind (NF.mergeFronts s4.num) fun l5 h5 => ?_
  have s5 := s4.merge h5
  refine NF.bind NF.idx fun col _ => ?_
  refine NF.bind NF.crossDomain fun r6 h6 => ?_
  obtain ⟨f6, l6⟩ := r6
  have s6 := s5.domain h6
  refine NF.bind (NF.checkFix s6.num) fun r7 h7 => ?_
  nofuel!
  · exact NF.refresh
  · exact NF.fixSingle

theorem NF.createSurficial {g : Geo α} {p d t : α} {l : List (Front α)} (hs : Placed l) :
    NF (createSurficial g p d t l) := by
  unfold LGAR.createSurficial
  refine NF.bind NF.createFront fun r h1 => ?_
  have s1 := hs.createFront h1
  nofuel!
  · exact NF.mergeFronts s1.num
  · exact NF.crossLayer

end Free
end LGAR
