import Verif.Lemmas.ColumnRun
import Verif.Lemmas.PassSafe
import Verif.Spec.Fits
/-
No NULL dereference and no out-of-range access in lgar_move_wetting_fronts and the functions it calls, from a column with the
structure of `Good`.
-/
set_option linter.unusedSectionVars false
namespace LGAR

section Free
variable {α : Type} [Add α] [Sub α] [Mul α] [Div α] [Neg α] [Zero α] [One α] [OfScientific α]
  [LT α] [LE α] [DecidableLT α] [DecidableLE α] [BEq α] [CMath α] {fb : Guard}

theorem spec_derefOpt {l : List (Front α)} {i : Nat} (hi : i < l.length) :
    Spec fb (derefOpt l (some i)) fun f => l[i]? = some f := by
  unfold derefOpt; exact spec_deref' hi

theorem spec_belowTheta (s : SoilProps α) (p : Option α) : Spec fb (belowTheta s p) fun _ => True := by
  unfold belowTheta
  split
  · exact Spec.ok trivial
  · exact spec_calcThetaFromH _ _ _ _ _ _

theorem spec_moveLayers {g : Geo α} (hg : g.Valid) (p0 p1 : α) (below : Option (α × α)) : ∀ (n k : Nat) (a : MoveAcc α),
    1 ≤ k → n + k ≤ g.numLayers + 1 →
      Spec fb (moveLayers g p0 p1 below n k a) fun r => r.dTheta.length = a.dTheta.length + n ∧
        r.dThick.length = a.dThick.length + n
  | 0, k, a, _, _ => by unfold moveLayers; exact Spec.ok ⟨rfl, rfl⟩
  | n + 1, k, a, h1, h2 => by
    unfold moveLayers
    refine Spec.bindT (spec_soil hg h1 (by omega)) fun s _ => ?_
    refine Spec.bindT (spec_calcThetaFromH _ _ _ _ _ _) fun _ _ => ?_
    refine Spec.bindT (spec_belowTheta _ _) fun _ _ => ?_
    refine Spec.bindT (spec_cum hg (by omega)) fun _ _ => ?_
    refine Spec.bindT (spec_cumPred hg h1 (by omega)) fun _ _ => ?_
    refine Spec.bindT (spec_calcThetaFromH _ _ _ _ _ _) fun _ _ => ?_
    refine Spec.bindT (spec_belowTheta _ _) fun _ _ => ?_
    refine (spec_moveLayers hg p0 p1 below n (k + 1) _ (by omega) (by omega)).mono fun r _ h => ?_
    simp only [List.length_append, List.length_cons, List.length_nil] at h
    omega

theorem spec_tmLayers {g : Geo α} (hg : g.Valid) (psi : α) (dTheta dThick : List α) : ∀ (n k : Nat) (m : α), 1 ≤ k →
    n + k ≤ g.numLayers + 1 → n + k ≤ dTheta.length → n + k ≤ dThick.length →
      Spec fb (tmLayers g psi dTheta dThick n k m) fun _ => True
  | 0, k, m, _, _, _, _ => by unfold tmLayers; exact Spec.ok trivial
  | n + 1, k, m, h1, h2, h3, h4 => by
    unfold tmLayers
    refine Spec.bindT (spec_soil hg h1 (by omega)) fun s _ => ?_
    refine Spec.bindT (spec_calcThetaFromH _ _ _ _ _ _) fun _ _ => ?_
    refine Spec.bindT (spec_idx (by omega) trivial) fun _ _ => ?_
    refine Spec.bindT (spec_idx (by omega) trivial) fun _ _ => ?_
    exact spec_tmLayers hg psi dTheta dThick n (k + 1) _ (by omega) (by omega) (by omega) (by omega)

theorem spec_tmMass {g : Geo α} (hg : g.Valid) {layer : Nat} (h1 : 1 ≤ layer) (h2 : layer ≤ g.numLayers) (s : SoilProps α)
    {dTheta dThick : List α} (h3 : layer < dTheta.length) (h4 : layer < dThick.length) (psi : α) :
    Spec fb (tmMass g layer s dTheta dThick psi) fun _ => True := by
  unfold tmMass
  refine Spec.bindT (spec_calcThetaFromH _ _ _ _ _ _) fun _ _ => ?_
  refine Spec.bindT (spec_idx h4 trivial) fun _ _ => ?_
  refine Spec.bindT (spec_idx h3 trivial) fun _ _ => ?_
  refine Spec.bindT (spec_tmLayers hg _ _ _ _ _ _ le_rfl (by omega) (by omega) (by omega)) fun _ _ => ?_
  exact Spec.pure trivial

variable {u : Bool}

theorem spec_tmLoop {g : Geo α} (hg : g.Valid) {layer : Nat} (h1 : 1 ≤ layer) (h2 : layer ≤ g.numLayers) (s : SoilProps α)
    {dTheta dThick : List α} (h3 : layer < dTheta.length) (h4 : layer < dThick.length) (prior : α) : ∀ (fuel : Nat)
    (st : TmState α), Spec ⟨false, u⟩ (tmLoop g layer s dTheta dThick prior fuel st) fun _ => True
  | 0, st => by unfold tmLoop; exact Spec.error (by simp [Err.bad])
  | fuel + 1, st => by
    unfold tmLoop
    refine Spec.ite (fun _ => ?_) fun _ => Spec.ok trivial
    dsimp only
    have hm := spec_tmMass (fb := ⟨false, u⟩) hg h1 h2 s h3 h4 (tmMove prior st).psi
    split
    · exact Spec.ok trivial
    · rename_i e _ he
      rw [he] at hm
      exact hm
    · refine Spec.ite (fun _ => Spec.ok trivial) fun _ => ?_
      refine Spec.ite (fun _ => Spec.ok trivial) fun _ => ?_
      refine Spec.ite (fun _ => Spec.ok trivial) fun _ => ?_
      refine Spec.ite (fun _ => Spec.ok trivial) fun _ => ?_
      exact spec_tmLoop hg h1 h2 s h3 h4 prior fuel _

theorem spec_thetaMassBalance {g : Geo α} (hg : g.Valid) {layer : Nat} (h1 : 1 ≤ layer) (h2 : layer ≤ g.numLayers)
    (s : SoilProps α) {dTheta dThick : List α} (h3 : layer < dTheta.length) (h4 : layer < dThick.length)
    (fuel : Nat) (psi newMass prior aet : α) :
    Spec ⟨false, u⟩ (thetaMassBalance fuel g layer s psi newMass prior aet dTheta dThick) fun _ => True := by
  unfold thetaMassBalance
  dsimp only
  refine Spec.ite (fun _ => ?_) fun _ => ?_
  · exact Spec.bindT (spec_calcThetaFromH _ _ _ _ _ _) fun _ _ => Spec.pure trivial
  · refine Spec.bindT (spec_tmLoop hg h1 h2 s h3 h4 prior fuel _) fun r _ => ?_
    split <;> exact Spec.pure trivial

theorem spec_psiOf (s : SoilProps α) (t : α) : Spec fb (psiOf s t) fun _ => True := by
  unfold psiOf
  exact Spec.bindT (spec_calcSeFromTheta _ _ _) fun _ _ => spec_calcHFromSe _ _ _ _

theorem spec_moveDeepest {g : Geo α} (hg : g.Valid) (fuel : Nat) (dt precip : α) (isFd : Bool) {c : Front α} (old : Front α)
    (h1 : 1 ≤ c.layer) (h2 : c.layer ≤ g.numLayers) (s : SoilProps α) (aet : α) :
    Spec ⟨false, u⟩ (moveDeepest fuel g dt precip isFd c old s aet) fun _ => True := by
  unfold moveDeepest
  dsimp only
  refine Spec.bindT (spec_cumPred hg h1 h2) fun _ _ => ?_
  refine Spec.bind _ (spec_moveLayers hg _ _ _ _ _ _ le_rfl (by omega)) fun a _ ha => ?_
  simp only [List.length_cons, List.length_nil] at ha
  refine Spec.bindT (spec_thetaMassBalance hg h1 h2 s (by simp; omega) (by simp; omega) _ _ _ _ _) fun _ _ => ?_
  exact Spec.bindT (spec_psiOf _ _) fun _ _ => Spec.pure trivial

theorem spec_moveInner {g : Geo α} (hg : g.Valid) (fuel : Nat) (dt precip : α) (isFd : Bool) {c : Front α}
    (n old oldNext oldSucc : Front α) (h1 : 1 ≤ c.layer) (h2 : c.layer ≤ g.numLayers) (s : SoilProps α) (aet : α) :
    Spec ⟨false, u⟩ (moveInner fuel g dt precip isFd c n old oldNext oldSucc s aet) fun _ => True := by
  unfold moveInner
  dsimp only
  refine Spec.bindT (spec_cumPred hg h1 h2) fun _ _ => ?_
  refine Spec.bind _ (spec_moveLayers hg _ _ _ _ _ _ le_rfl (by omega)) fun a _ ha => ?_
  simp only [List.length_cons, List.length_nil] at ha
  refine Spec.bindT (spec_thetaMassBalance hg h1 h2 s (by simp; omega) (by simp; omega) _ _ _ _ _) fun _ _ => ?_
  exact Spec.pure trivial

theorem spec_moveTopLayer (dt precip column : α) (isFd : Bool) (c n old oldNext : Front α) (s : SoilProps α) (aet : α) :
    Spec fb (moveTopLayer dt precip column isFd c n old oldNext s aet) fun _ => True := by
  unfold moveTopLayer
  dsimp only
  refine Spec.ite (fun _ => Spec.pure trivial) fun _ => ?_
  refine Spec.bindT (spec_cdiv fun _ => trivial) fun _ _ => ?_
  exact Spec.ite (fun _ => Spec.pure trivial) fun _ => Spec.pure trivial

/-- The list of the previous state is the empty one or has a front for every number. -/
def OldsOk (prev l : List (Front α)) : Prop := prev = [] ∨ (NumFrom 1 prev ∧ prev.length = l.length)

theorem find_olds {prev l : List (Front α)} (ho : OldsOk prev l) (hn : NumFrom 1 l) {wf : Nat} (h1 : 1 ≤ wf)
    (h2 : wf ≤ l.length) : listFindFront (Int.ofNat wf) l prev = some (wf - 1) ∧
      wf - 1 < (if prev.isEmpty then l else prev).length := by
  rcases ho with rfl | ⟨a, b⟩
  · exact ⟨find_num hn h1 h2, by simp; omega⟩
  · have hp : prev.isEmpty = false := by
      cases prev with
      | nil => simp at b; omega
      | cons _ _ => rfl
    have hl : l.isEmpty = false := by
      cases l with
      | nil => simp at h2; omega
      | cons _ _ => rfl
    have := find_num a h1 (by omega : wf ≤ prev.length)
    simp only [listFindFront, hp, hl, Bool.false_eq_true, if_false, List.isEmpty_nil, if_true] at this ⊢
    exact ⟨this, by omega⟩

/-- The front of layer 1 with number `wf` is not drained below the residual moisture. -/
def NotDrained (g : Geo α) (dt precip : α) (nFd wf : Nat) (prev l : List (Front α)) (aet : α) : Prop :=
  ∀ column c nx s old oldNext, g.cum[g.numLayers]? = some column → l[wf - 1]? = some c → l[wf]? = some nx → g.soil c.layer = .ok s →
    nx.layer = c.layer → c.layer = 1 → (if prev.isEmpty then l else prev)[wf - 1]? = some old →
    (if prev.isEmpty then l else prev)[wf]? = some oldNext →
    moveTopLayer dt precip column (nFd == wf) c nx old oldNext s aet ≠ .ok none

theorem spec_moveOne {g : Geo α} (hg : g.Valid) (fuel : Nat) {dt precip : α} {nFd n wf : Nat} {prev l : List (Front α)} {aet : α}
    (hn : NumFrom 1 l) (hr : InRange g.numLayers l) (ho : OldsOk prev l) (hlen : n = l.length) (h1 : 1 ≤ wf) (h2 : wf ≤ n)
    (hd : u = true → NotDrained g dt precip nFd wf prev l aet) :
    Spec ⟨false, u⟩ (moveOne fuel g dt precip nFd n wf prev l aet) fun _ => True := by
  unfold moveOne
  refine Spec.bind (fun column => g.cum[g.numLayers]? = some column) ?_ fun column _ hcol => ?_
  · exact spec_idx (by have := hg.cum_len; omega) (List.getElem?_eq_getElem _)
  obtain ⟨fo, lo⟩ := find_olds ho hn h1 (by omega)
  rw [find_num hn h1 (by omega)]
  refine Spec.bind _ (spec_derefOpt (by omega)) fun c _ hc => ?_
  obtain ⟨r1, r2⟩ := hr c (List.mem_of_getElem? hc)
  refine Spec.bind (fun s => g.soil c.layer = .ok s) (Spec.of_ok (spec_soil hg r1 r2) fun _ h => h) fun s _ hs => ?_
  refine Spec.bindT (x := moveReadAbove wf l) ?_ fun _ _ => ?_
  · unfold moveReadAbove
    refine Spec.ite (fun _ => Spec.ok trivial) fun hne => ?_
    have e : Int.ofNat wf - 1 = Int.ofNat (wf - 1) := by simp only [Int.ofNat_eq_natCast]; omega
    rw [e, find_num hn (by omega) (by omega)]
    exact Spec.bindT ((spec_derefOpt (by omega)).mono fun _ _ _ => trivial) fun _ _ => Spec.ok trivial
  refine Spec.ite (fun hwf => ?_) fun hwf => ?_
  · have e1 : (Int.ofNat wf + 1) = Int.ofNat (wf + 1) := rfl
    obtain ⟨fo', lo'⟩ := find_olds ho hn (by omega : 1 ≤ wf + 1) (by omega)
    rw [if_pos hwf, if_pos hwf, e1, find_num hn (by omega) (by omega), fo, fo']
    simp only [Nat.add_sub_cancel] at lo' ⊢
    refine Spec.bind _ (spec_derefOpt (by omega)) fun nx _ hnx => ?_
    refine Spec.ite (fun _ => ?_) fun hl => ?_
    · exact Spec.bindT (spec_calcThetaFromH _ _ _ _ _ _) fun _ _ => Spec.pure trivial
    rw [not_not] at hl
    refine Spec.ite (fun hl1 => ?_) fun _ => ?_
    · refine Spec.bind _ (spec_derefOpt lo) fun old _ hold => ?_
      refine Spec.bind _ (spec_derefOpt lo') fun oldNext _ holdn => ?_
      refine Spec.bind (fun o => moveTopLayer dt precip column (nFd == wf) c nx old oldNext s aet = .ok o)
        (Spec.of_ok (spec_moveTopLayer _ _ _ _ _ _ _ _ _ _) fun _ h => h) fun o _ hm => ?_
      split
      · cases u with
        | false =>
          have hdel : Spec (⟨false, false⟩ : Guard) (listDeleteFront c.front l) fun _ => True := by
            unfold listDeleteFront
            split
            · exact Spec.error (by simp [Err.bad])
            · exact Spec.ok trivial
          exact Spec.bindT hdel fun _ _ => Spec.error (by simp [Err.bad])
        | true => exact absurd hm (hd rfl column c nx s old oldNext hcol hc hnx hs hl hl1 hold holdn)
      · exact Spec.bindT (spec_psiOf _ _) fun _ _ => Spec.pure trivial
    · refine Spec.bind _ (spec_derefOpt lo) fun old _ hold => ?_
      refine Spec.bind _ (spec_derefOpt lo') fun oldNext _ holdn => ?_
      simp only [Option.map_some]
      refine Spec.bind _ (spec_derefOpt (by omega)) fun oldSucc _ _ => ?_
      refine Spec.bindT (spec_moveInner hg fuel _ _ _ _ _ _ _ r1 r2 _ _) fun _ _ => ?_
      exact Spec.bindT (spec_psiOf _ _) fun _ _ => Spec.pure trivial
  · refine Spec.ite (fun _ => ?_) fun _ => Spec.pure trivial
    rw [fo]
    refine Spec.bind _ (spec_derefOpt lo) fun old _ hold => ?_
    exact Spec.bindT (spec_moveDeepest hg fuel _ _ _ _ r1 r2 _ _) fun _ _ => Spec.pure trivial

theorem inRange_tags {N : Nat} {l l' : List (Front α)} (h : l'.map Front.tag = l.map Front.tag) (hr : InRange N l) :
    InRange N l' := by
  intro f hf
  have : f.tag ∈ l'.map Front.tag := List.mem_map_of_mem hf
  rw [h] at this
  obtain ⟨x, hx, he⟩ := List.mem_map.mp this
  rw [← (Front.tag_eq he).1]; exact hr x hx

/-- No front of layer 1 is drained in the iterations `wf, wf-1, ..., 1`. -/
def NeverDrained (fuel : Nat) (g : Geo α) (dt precip : α) (nFd n : Nat) (prev : List (Front α)) : Nat → List (Front α) → α → Prop
  | 0, _, _ => True
  | wf + 1, l, aet => NotDrained g dt precip nFd (wf + 1) prev l aet ∧
      Res.Holds (moveOne fuel g dt precip nFd n (wf + 1) prev l aet) fun r => NeverDrained fuel g dt precip nFd n prev wf r.1 r.2

theorem spec_moveOnes {g : Geo α} (hg : g.Valid) (fuel : Nat) {dt precip : α} {nFd n : Nat} {prev : List (Front α)} :
    ∀ {wf : Nat} {l : List (Front α)} {aet : α}, NumFrom 1 l → InRange g.numLayers l → OldsOk prev l → n = l.length → wf ≤ n →
      (u = true → NeverDrained fuel g dt precip nFd n prev wf l aet) →
      Spec ⟨false, u⟩ (moveOnes fuel g dt precip nFd n prev wf l aet) fun _ => True
  | 0, l, aet, _, _, _, _, _, _ => by unfold moveOnes; exact Spec.ok trivial
  | wf + 1, l, aet, hn, hr, ho, hl, hw, hd => by
    unfold moveOnes
    refine Spec.bindT (spec_moveOne hg fuel hn hr ho hl (by omega) hw fun hu => (hd hu).1) fun r h1 => ?_
    obtain ⟨c, c', hc, hl1, hm⟩ := moveOne_cases hn hl (by omega) hw h1
    have ht : r.1.map Front.tag = l.map Front.tag := by rw [hl1]; exact set_tags hc hm.tag_eq
    have hlen : r.1.length = l.length := by rw [hl1]; simp
    refine spec_moveOnes hg fuel (tags_num ht hn) (inRange_tags ht hr) ?_ (by rw [hlen]; exact hl) (by omega)
      (fun hu => (hd hu).2.of_ok h1)
    rcases ho with h | ⟨a, b⟩
    · exact .inl h
    · exact .inr ⟨a, by rw [hlen]; exact b⟩

theorem spec_refreshOne {g : Geo α} (hg : g.Valid) {f : Front α} (h1 : 1 ≤ f.layer) (h2 : f.layer ≤ g.numLayers) :
    Spec fb (refreshOne g f) fun _ => True := by
  unfold refreshOne
  refine Spec.ite (fun _ => ?_) fun _ => Spec.ok trivial
  exact Spec.bindT (spec_psiKOf hg h1 h2 _) fun _ _ => Spec.ok trivial

theorem spec_refresh {g : Geo α} (hg : g.Valid) : ∀ {l : List (Front α)}, l ≠ [] → InRange g.numLayers l →
    Spec fb (refresh g l) fun _ => True
  | [], h, _ => absurd rfl h
  | [f], _, _ => by unfold refresh; exact Spec.ok trivial
  | f :: n :: t, _, hr => by
    unfold refresh
    refine Spec.bindT (spec_refreshOne hg (hr f (by simp)).1 (hr f (by simp)).2) fun _ _ => ?_
    refine Spec.bindT (spec_refresh hg (by simp) fun x hx => hr x (by simp at hx ⊢; tauto)) fun _ _ => ?_
    exact Spec.pure trivial

theorem spec_fixSingle {g : Geo α} (hg : g.Valid) (hN : 1 ≤ g.numLayers) (l : List (Front α)) :
    Spec fb (fixSingle g l) fun _ => True := by
  unfold fixSingle
  split
  · refine Spec.bindT (spec_cum hg hN) fun _ _ => ?_
    exact Spec.ite (fun _ => Spec.pure trivial) fun _ => Spec.pure trivial
  · exact Spec.ok trivial

theorem spec_checkFix {g : Geo α} (hg : g.Valid) {l : List (Front α)} {mc : α} {k : Int} (hn : NumFrom k l)
    (hr : InRange g.numLayers l) (hne : l ≠ []) : Spec fb (checkFix g mc l) fun _ => True := by
  unfold checkFix
  refine Spec.bindT (spec_checkDry hne) fun b _ => ?_
  exact Spec.ite (fun _ => (spec_fixDry hg hn hr hne).mono fun _ _ _ => trivial) fun _ => Spec.pure trivial

theorem spec_mcLoop {g : Geo α} (hg : g.Valid) (target column : α) {p : Nat} : ∀ (fuel : Nat) (st : McState α),
    p < st.list.length → InRange g.numLayers st.list → 10001 < fuel + st.iter → 0 < fuel → st.iter ≤ 10000 →
      Spec fb (mcLoop g target column p fuel st) fun _ => True
  | 0, st, _, _, _, h0, _ => absurd h0 (by omega)
  | fuel + 1, st, hp, hr, hf, _, hi => by
    unfold mcLoop
    refine Spec.ite (fun _ => ?_) fun _ => Spec.ok trivial
    dsimp only
    refine Spec.ite (fun _ => Spec.ok trivial) fun hit => ?_
    refine Spec.bind _ (spec_deref' hp) fun w _ hw => ?_
    have hr' : ∀ d, InRange g.numLayers (st.list.set p { w with depth := d }) := by
      intro d f hf
      rcases List.mem_or_eq_of_mem_set hf with hf | rfl
      · exact hr f hf
      · exact hr w (List.mem_of_getElem? hw)
    refine Spec.bindT (spec_massBalGo hg _ (hr' _) _) fun m _ => ?_
    exact spec_mcLoop hg target column fuel _ (by simpa using hp) (hr' _) (by simp; omega) (by omega) (by simp; omega)

theorem spec_mcFactor (w : Front α) (nx : Option (Front α)) : Spec fb (mcFactor w nx) fun _ => True := by
  unfold mcFactor
  split
  · exact Spec.ite (fun _ => spec_cdiv fun _ => trivial) fun _ => Spec.ok trivial
  · exact Spec.ok trivial

end Free

section Exact
variable {K : Type} [Field K] [LinearOrder K] [IsStrictOrderedRing K] [CMath K] [LawfulNum K] {fb : Guard}

/-- All fronts above the one found by wetting_front_free_drainage are alone in their layers, so its number is its layer. -/
theorem freeDrainageGo_layer {N : Nat} {cum : List K} : ∀ {l : List (Front K)} {s : Nat} (k : Nat), Col N cum s l →
    ∃ f, l[freeDrainageGo k l - k]? = some f ∧ f.layer = s + (freeDrainageGo k l - k)
  | [], s, k, h => absurd rfl h.ne_nil
  | [f], s, k, h => by
    refine ⟨f, by simp [freeDrainageGo], ?_⟩
    simp only [freeDrainageGo, Nat.sub_self, Nat.add_zero]
    exact h.head
  | f :: n :: t, s, k, h => by
    unfold freeDrainageGo
    split
    · refine ⟨f, by simp, ?_⟩
      simp only [Nat.sub_self, Nat.add_zero]
      exact h.head
    · rename_i hl
      have h' := h
      rw [col_cons_iff] at h'
      obtain ⟨f', h1, h2⟩ := freeDrainageGo_layer (k + 1) h.tail
      obtain ⟨k1, k2, _⟩ := freeDrainageGo_spec (k + 1) (n :: t) (by simp)
      have e : freeDrainageGo (k + 1) (n :: t) - k = (freeDrainageGo (k + 1) (n :: t) - (k + 1)) + 1 := by omega
      refine ⟨f', by rw [e, List.getElem?_cons_succ]; exact h1, ?_⟩
      rw [h2, e]
      rcases h'.2.1 with e1 | e1
      · rw [h'.1, e1] at hl; exact absurd rfl hl
      · rw [e1]; omega

theorem list_set_self {β : Type} {l : List β} {i : Nat} {x : β} (h : l[i]? = some x) : l.set i x = l := by
  obtain ⟨hi, rfl⟩ := List.getElem?_eq_some_iff.mp h
  exact List.set_getElem_self hi

theorem freeDrainage_layer {N : Nat} {cum : List K} {l : List (Front K)} (h : Col N cum 1 l) :
    ∃ f, l[wettingFrontFreeDrainage l - 1]? = some f ∧ f.layer = wettingFrontFreeDrainage l := by
  obtain ⟨f1, f2, _⟩ := freeDrainage_spec h.ne_nil
  have e : wettingFrontFreeDrainage l = freeDrainageGo 1 l := by
    obtain ⟨h1, h2, h3⟩ := freeDrainageGo_spec 1 l h.ne_nil
    unfold wettingFrontFreeDrainage
    simp only
    rw [if_neg (by omega)]
  obtain ⟨f, h1, h2⟩ := freeDrainageGo_layer 1 h
  rw [← e] at h1 h2
  exact ⟨f, h1, by omega⟩

theorem Good.range {g : Geo K} {l : List (Front K)} (hl : Good g l) : InRange g.numLayers l := hl.col.range

theorem Good.pos {g : Geo K} {l : List (Front K)} (hl : Good g l) : 0 < l.length := List.length_pos_of_ne_nil hl.col.ne_nil

theorem Good.layers_pos {g : Geo K} {l : List (Front K)} (hl : Good g l) : 1 ≤ g.numLayers := by
  obtain ⟨a, f, rfl, e, _⟩ := hl.col.last
  have := hl.col.range f (by simp)
  omega

theorem Good.lastDepth {g : Geo K} {l : List (Front K)} (hl : Good g l) :
    ∀ f, l.getLast? = some f → g.cum[g.numLayers]? = some f.depth := by
  intro f hf
  obtain ⟨a, x, rfl, _, _, hd⟩ := hl.col.last
  simp at hf; subst hf; exact hd

theorem Good.lastBottom {g : Geo K} {l : List (Front K)} (hl : Good g l) : LastBottom l := by
  obtain ⟨a, x, rfl, _, hb, _⟩ := hl.col.last
  simp [LastBottom, hb]

/-- Tie-freeness of one crossing, or one layer. -/
abbrev Apart (g : Geo K) (l : List (Front K)) : Prop := g.numLayers = 1 ∨ NoStrayAtBottom g.numLayers g.cum l

theorem spec_cross {g : Geo K} {l : List (Front K)} (hg : g.Valid) (hinc : g.cum.Pairwise (· < ·)) (hl : Good g l) :
    Spec fb (crossLayer g l) fun _ => True := spec_crossLayer hg hinc hl.range hl.lastDepth hl.col.ne_nil

theorem spec_moveTop {g : Geo K} {oldMass precip aet : K} {l : List (Front K)} (hg : g.Valid)
    (hinc : g.cum.Pairwise (· < ·)) (hl : Good g l) (ht : Apart g l) :
    Spec fb (moveTop g oldMass precip l aet) fun _ => True := by
  unfold moveTop
  refine Spec.bindT (spec_cum hg le_rfl) fun column _ => ?_
  refine Spec.bindT (spec_cross hg hinc hl) fun l1 h1 => ?_
  have g1 := hl.cross ht h1
  obtain ⟨f, hf, hfl⟩ := freeDrainage_layer g1.col
  obtain ⟨f1, f2, _⟩ := freeDrainage_spec g1.col.ne_nil
  have hr := g1.range f (List.mem_of_getElem? hf)
  dsimp only
  rw [find_num g1.sound.num f1 f2]
  refine Spec.bindT (spec_soil hg (by omega) (by omega)) fun s1 _ => ?_
  refine Spec.bindT (spec_cassert fun _ => trivial) fun _ _ => ?_
  refine Spec.bind _ (spec_derefOpt (by omega)) fun w _ hw => ?_
  refine Spec.ite (fun _ => ?_) fun _ => Spec.pure trivial
  refine Spec.bindT (spec_massBalGo hg _ g1.range _) fun m _ => ?_
  refine Spec.bindT (spec_mcFactor _ _) fun fa _ => ?_
  refine Spec.bind (fun r => InRange g.numLayers r.1.list) (Spec.of_ok (spec_mcLoop hg _ _ _ _ (by simp; omega) g1.range
    (by simp [mcFuel]) (by simp [mcFuel]) (by simp)) fun r hr => ?_) fun r _ hr => ?_
  · obtain ⟨d, e, _⟩ := mcLoop_inv (l := l1) (by simpa using hw) (⟨w.depth, by rw [show ({ w with depth := w.depth } : Front K) = w from rfl, list_set_self (by simpa using hw)], fun _ _ => .inl rfl⟩) hr
    rw [e]
    intro x hx
    rcases List.mem_or_eq_of_mem_set hx with hx | rfl
    · exact g1.range x hx
    · exact g1.range w (List.mem_of_getElem? hw)
  · refine Spec.ite (fun _ => ?_) fun _ => Spec.pure trivial
    exact Spec.bindT (spec_massBalGo hg _ hr _) fun _ _ => Spec.pure trivial

theorem spec_check {g : Geo K} {mc : K} {l : List (Front K)} (hg : g.Valid) (hl : Good g l) :
    Spec fb (checkFix g mc l) fun r => Good g r.1 :=
  Spec.of_ok (spec_checkFix hg hl.sound.num hl.range hl.col.ne_nil) fun _ h => hl.checkFix h

theorem spec_merge {g : Geo K} {l : List (Front K)} (hg : g.Valid) (hl : Good g l) :
    Spec fb (mergeFronts g l) fun r => Good g r :=
  Spec.of_ok (spec_mergeFronts hg hl.sound.num hl.range hl.lastBottom hl.col.ne_nil) fun _ h => hl.merge h

theorem spec_movePost {g : Geo K} {l : List (Front K)} {aet flux : K} (hg : g.Valid) (hinc : g.cum.Pairwise (· < ·))
    (hl : Good g l)
    (ht : g.numLayers = 1 ∨ Res.Holds (checkFix g 0 l) fun (l3, _) => Res.Holds (mergeFronts g l3) fun l4 =>
      NoStrayAtBottom g.numLayers g.cum l4) :
    Spec fb (movePost g l aet flux) fun _ => True := by
  unfold movePost
  refine Spec.bind _ (spec_check hg hl) fun r1 h1 g1 => ?_
  refine Spec.bind _ (spec_merge hg g1) fun l2 h2 g2 => ?_
  have t2 : Apart g l2 := ht.imp_right fun t => (t.of_ok h1).of_ok h2
  refine Spec.bind (fun l3 => Good g l3) (Spec.of_ok (spec_cross hg hinc g2) fun _ h => g2.cross t2 h) fun l3 h3 g3 => ?_
  refine Spec.bind _ (spec_check hg g3) fun r4 h4 g4 => ?_
  refine Spec.bind _ (spec_merge hg g4) fun l5 h5 g5 => ?_
  refine Spec.bind (fun c => g.cum[g.numLayers]? = some c) (Spec.of_ok (spec_cum hg le_rfl) fun _ h => idx_ok_iff.mp h)
    fun column _ hc => ?_
  refine Spec.bind (fun r => Good g r.2) (Spec.of_ok (spec_crossDomain hg g5.sound.num g5.range g5.col.ne_nil)
    fun _ h => g5.domain hinc hc h) fun r6 h6 g6 => ?_
  refine Spec.bind _ (spec_check hg g6) fun r7 h7 g7 => ?_
  refine Spec.bindT (spec_refresh hg g7.col.ne_nil g7.range) fun l8 _ => ?_
  refine Spec.bindT (spec_fixSingle hg g7.layers_pos _) fun l9 _ => ?_
  exact Spec.pure trivial

variable {u : Bool}

theorem spec_moveFronts {fuel : Nat} {g : Geo K} {dt oldMass precip : K} {nFd : Nat} {prev l : List (Front K)}
    {aet : K} (hg : g.Valid) (hinc : g.cum.Pairwise (· < ·)) (hl : Good g l) (ho : OldsOk prev l)
    (ht : g.numLayers = 1 ∨ MoveTieFree fuel g dt precip nFd oldMass aet prev l)
    (hd : u = true → NeverDrained fuel g dt precip nFd l.length prev l.length l aet) :
    Spec ⟨false, u⟩ (moveFronts fuel g dt precip nFd oldMass aet prev l) fun _ => True := by
  unfold moveFronts moveMain
  rw [if_neg (by simpa using hl.col.ne_nil)]
  refine Spec.bind (fun r => ∃ l0 aet0, moveOnes fuel g dt precip nFd l.length prev l.length l aet = .ok (l0, aet0) ∧
      moveTop g oldMass precip l0 aet0 = .ok r) ?_ fun r _ hr => ?_
  · refine Spec.bindT (spec_moveOnes hg fuel hl.sound.num hl.range ho rfl le_rfl hd) fun r0 h0 => ?_
    have g0 : Good g r0.1 := moveOnes_good hl rfl le_rfl h0
    exact Spec.of_ok (spec_moveTop hg hinc g0 (ht.imp_right fun t => (t.of_ok h0).1)) fun r h => ⟨r0.1, r0.2, h0, h⟩
  · obtain ⟨l0, aet0, h0, h1⟩ := hr
    have g0 : Good g l0 := moveOnes_good hl rfl le_rfl h0
    exact spec_movePost hg hinc (g0.moveTop (ht.imp_right fun t => (t.of_ok h0).1) h1)
      (ht.imp_right fun t => (t.of_ok h0).2.of_ok h1)

theorem Spec.mem {β : Type} {x : Res β} {Q : β → Prop} (h : Spec .mem x Q) : Spec ⟨false, u⟩ x Q :=
  h.weaken (fun h => absurd h (by simp)) fun _ => rfl

theorem spec_calcAet {g : Geo K} {pet dt wp fc : K} {l : List (Front K)} (hg : g.Valid) (hl : Good g l) :
    Spec fb (calcAet pet dt wp fc g l) fun _ => True := by
  unfold calcAet
  refine Spec.bind _ (spec_deref' hl.pos) fun c _ hc => ?_
  obtain ⟨r1, r2⟩ := hl.range c (List.mem_of_getElem? hc)
  refine Spec.bindT (spec_soil hg r1 r2) fun s _ => ?_
  refine Spec.bindT (spec_calcThetaFromH ..) fun _ _ => ?_
  refine Spec.bindT (spec_calcThetaFromH ..) fun _ _ => ?_
  refine Spec.bindT (spec_calcSeFromTheta ..) fun _ _ => ?_
  refine Spec.bindT (spec_calcHFromSe ..) fun _ _ => ?_
  refine Spec.bindT (spec_cdiv fun _ => trivial) fun _ _ => ?_
  refine Spec.bindT (spec_cpow fun _ => trivial) fun _ _ => ?_
  refine Spec.bindT (spec_cdiv fun _ => trivial) fun _ _ => ?_
  exact Spec.ite (fun _ => Spec.pure trivial) fun _ => Spec.ite (fun _ => Spec.pure trivial) fun _ => Spec.pure trivial

theorem spec_fpBottomSum {g : Geo K} (hg : g.Valid) : ∀ {n : Nat} {s : K}, n ≤ g.numLayers →
    Spec fb (fpBottomSum g n s) fun _ => True
  | 0, s, _ => Spec.ok trivial
  | n + 1, s, h => by
    unfold fpBottomSum
    refine Spec.bindT (spec_soil hg (by omega) h) fun _ _ => ?_
    refine Spec.bindT (spec_frozen hg h) fun _ _ => ?_
    refine Spec.bindT (spec_cum hg h) fun _ _ => ?_
    refine Spec.bindT (spec_cum hg (by omega)) fun _ _ => ?_
    refine Spec.bindT (spec_cdiv fun _ => trivial) fun _ _ => ?_
    exact spec_fpBottomSum hg (by omega)

theorem spec_maxStorageGo {g : Geo K} (hg : g.Valid) : ∀ {n k : Nat} {s : K}, 1 ≤ k → n + k ≤ g.numLayers + 1 →
    Spec fb (maxStorageGo g n k s) fun _ => True
  | 0, k, s, _, _ => Spec.ok trivial
  | n + 1, k, s, h1, h2 => by
    unfold maxStorageGo
    refine Spec.bindT (spec_soil hg h1 (by omega)) fun _ _ => ?_
    refine Spec.bindT (spec_cum hg (by omega)) fun _ _ => ?_
    refine Spec.bindT (spec_cumPred hg h1 (by omega)) fun _ _ => ?_
    exact spec_maxStorageGo hg (by omega) (by omega)

theorem spec_fpPotential {fuel : Nat} {closed : Bool} {nint : Int} {g : Geo K} {dt aet ponded precip : K}
    {l : List (Front K)} (hg : g.Valid) (hl : Good g l) :
    Spec .mem (fpPotential fuel closed nint g dt aet ponded precip (wettingFrontFreeDrainage l) l) fun _ => True := by
  obtain ⟨f, hf, hfl⟩ := freeDrainage_layer hl.col
  obtain ⟨f1, f2, _⟩ := freeDrainage_spec hl.col.ne_nil
  unfold fpPotential
  dsimp only
  rw [find_num hl.sound.num f1 f2]
  refine Spec.bind _ (spec_derefOpt (by omega)) fun fd _ hfd => ?_
  obtain ⟨r1, r2⟩ := hl.range fd (List.mem_of_getElem? hfd)
  refine Spec.bind _ (spec_deref' hl.pos) fun h0 _ hh0 => ?_
  obtain ⟨t1, t2⟩ := hl.range h0 (List.mem_of_getElem? hh0)
  refine Spec.bindT (spec_soil hg r1 r2) fun s _ => ?_
  refine Spec.bindT (spec_frozen hg t2) fun ff _ => ?_
  have hE : ∀ fp, Spec .mem (do
      let sTop ← g.soil h0.layer
      if fd.layer = g.numLayers ∧ (fd.theta == sTop.thetaE) = true ∧ g.numLayers = l.length then do
        let q ← cdiv aet dt
        return CMath.fmin fp q
      else return fp : Res K) fun _ => True := by
    intro fp
    refine Spec.bindT (spec_soil hg t1 t2) fun _ _ => ?_
    refine Spec.ite (fun _ => ?_) fun _ => Spec.pure trivial
    exact Spec.bindT (spec_cdiv fun _ => trivial) fun _ _ => Spec.pure trivial
  refine Spec.ite (fun _ => ?_) fun hne => ?_
  · refine Spec.bindT (Spec.ok trivial) fun Geff _ => ?_
    refine Spec.ite (fun _ => ?_) fun _ => ?_
    · exact Spec.bindT (spec_cdiv fun _ => trivial) fun _ _ => Spec.bindT (Spec.ok trivial) fun fp _ => hE fp
    · refine Spec.bindT (spec_cumPred hg r1 r2) fun _ _ => ?_
      refine Spec.bindT (spec_cdiv fun _ => trivial) fun _ _ => ?_
      refine Spec.bindT (spec_fpBottomSum hg (by omega)) fun _ _ => ?_
      refine Spec.bindT (spec_cdiv fun _ => trivial) fun _ _ => ?_
      refine Spec.bindT (spec_cdiv fun _ => trivial) fun _ _ => ?_
      exact Spec.bindT (Spec.ok trivial) fun fp _ => hE fp
  · have hlt : wettingFrontFreeDrainage l < l.length := by
      rcases lt_or_eq_of_le f2 with h | h
      · exact h
      · obtain ⟨a, x, e, e1, _⟩ := hl.col.last
        have hx : f = x := by
          rw [h, ← List.getLast?_eq_getElem?, e] at hf
          simpa using hf.symm
        rw [hx, e1] at hfl
        omega
    have e1 : (Int.ofNat (wettingFrontFreeDrainage l) + 1) = Int.ofNat (wettingFrontFreeDrainage l + 1) := rfl
    rw [e1, find_num hl.sound.num (by omega) (by omega)]
    refine Spec.bindT ((spec_derefOpt (by omega)).mono fun _ _ _ => trivial) fun _ _ => ?_
    refine Spec.bindT (spec_calcGeff ..) fun Geff _ => ?_
    refine Spec.ite (fun _ => ?_) fun _ => ?_
    · exact Spec.bindT (spec_cdiv fun _ => trivial) fun _ _ => Spec.bindT (Spec.ok trivial) fun fp _ => hE fp
    · refine Spec.bindT (spec_cumPred hg r1 r2) fun _ _ => ?_
      refine Spec.bindT (spec_cdiv fun _ => trivial) fun _ _ => ?_
      refine Spec.bindT (spec_fpBottomSum hg (by omega)) fun _ _ => ?_
      refine Spec.bindT (spec_cdiv fun _ => trivial) fun _ _ => ?_
      refine Spec.bindT (spec_cdiv fun _ => trivial) fun _ _ => ?_
      exact Spec.bindT (Spec.ok trivial) fun fp _ => hE fp

theorem spec_surfaceFlow {c : StepCfg K} {s : SubSt K} {rate ponded aet : K} (hg : c.geo.Valid) (hl : Good c.geo s.head) :
    Spec .mem (surfaceFlow c s (wettingFrontFreeDrainage s.head) rate ponded aet) fun _ => True := by
  unfold surfaceFlow
  refine Spec.ite (fun _ => ?_) fun _ => Spec.ite (fun _ => Spec.ok trivial) fun _ => Spec.ok trivial
  refine Spec.bindT ?_ fun _ _ => Spec.ite (fun _ => Spec.error (by simp [Err.bad])) fun _ => Spec.ok trivial
  unfold insertWater
  refine Spec.bindT ?_ fun _ _ => ?_
  · unfold fpCapacity
    refine Spec.bindT (spec_fpPotential hg hl) fun _ _ => ?_
    refine Spec.bindT (spec_massBalGo hg _ hl.range _) fun _ _ => ?_
    refine Spec.bindT (spec_maxStorageGo hg le_rfl (by omega)) fun _ _ => ?_
    exact Spec.bindT (spec_cdiv fun _ => trivial) fun _ _ => Spec.pure trivial
  · unfold partitionPond
    refine Spec.bindT (spec_cdiv fun _ => trivial) fun _ _ => ?_
    dsimp only
    split
    · split
      · exact Spec.pure trivial
      · split <;> exact Spec.pure trivial
    · exact Spec.pure trivial

theorem spec_calcDryDepth {fuel : Nat} {closed : Bool} {nint : Int} {g : Geo K} {dt : K} {l : List (Front K)} (hg : g.Valid)
    (hl : Good g l) : Spec .mem (calcDryDepth fuel closed nint g dt l) fun _ => True := by
  unfold calcDryDepth
  refine Spec.bind _ (spec_deref' hl.pos) fun c _ hc => ?_
  obtain ⟨r1, r2⟩ := hl.range c (List.mem_of_getElem? hc)
  refine Spec.bindT (spec_soil hg r1 r2) fun s _ => ?_
  refine Spec.bindT (spec_frozen hg r2) fun ff _ => ?_
  refine Spec.bindT (spec_cdiv fun _ => trivial) fun _ _ => ?_
  refine Spec.bindT (spec_calcGeff ..) fun _ _ => ?_
  refine Spec.bindT (spec_csqrt fun _ => trivial) fun _ _ => ?_
  refine Spec.bindT (spec_cum hg r2) fun _ _ => ?_
  exact Spec.pure trivial

theorem spec_createFront {g : Geo K} {ponded dry theta1 : K} {l : List (Front K)} (hg : g.Valid) (hN : 1 ≤ g.numLayers) :
    Spec fb (createFront g ponded dry theta1 l) fun _ => True := by
  unfold createFront
  refine Spec.bindT (spec_soil hg le_rfl hN) fun s _ => ?_
  refine Spec.bindT (x := surficialSplit _ _ _ _) ?_ fun _ _ => ?_
  · unfold surficialSplit
    refine Spec.ite (fun _ => ?_) fun _ => Spec.pure trivial
    exact Spec.bindT (spec_cdiv fun _ => trivial) fun _ _ => Spec.pure trivial
  refine Spec.bindT (spec_frozen hg hN) fun ff _ => ?_
  refine Spec.bindT (spec_calcSeFromTheta ..) fun _ _ => ?_
  refine Spec.bindT (spec_calcHFromSe ..) fun _ _ => ?_
  refine Spec.bindT (spec_calcKFromSe ..) fun _ _ => ?_
  refine Spec.bindT ((spec_deref' (by simp [listInsertFirst])).mono fun _ _ _ => trivial) fun _ _ => ?_
  exact Spec.pure trivial

theorem spec_createSurficial {g : Geo K} {ponded dry theta1 : K} {l : List (Front K)} (hg : g.Valid)
    (hinc : g.cum.Pairwise (· < ·)) (hl : Good g l) :
    Spec fb (createSurficial g ponded dry theta1 l) fun _ => True := by
  unfold createSurficial
  refine Spec.bindT (spec_createFront hg hl.layers_pos) fun r h => ?_
  have hr : Good g r.2.2 := by
    obtain ⟨s, thn, Se, psi, Kc, ff, _, _, _, _, _, _, he⟩ := createFront_inv h
    rw [he]; exact ⟨hl.sound.push rfl, col_push hl.col rfl rfl⟩
  cases l with
  | nil => exact Spec.pure trivial
  | cons n t =>
    refine Spec.ite (fun _ => ?_) fun _ => Spec.pure trivial
    refine Spec.bind _ (spec_merge hg hr) fun l2 _ g2 => ?_
    exact Spec.bindT (spec_cross hg hinc g2) fun _ _ => Spec.pure trivial

/-- No front is drained in a subcycle (the list of the previous state is a copy of the list). -/
def FlowUndrained (c : StepCfg K) (s : SubSt K) (create : Bool) (nFd : Nat) (rate ponded aet : K) : Prop :=
  if create = true then NeverDrained c.fuel c.geo c.dt 0 nFd s.head.length s.head s.head.length s.head aet
  else Res.Holds (surfaceFlow c s nFd rate ponded aet) fun (_, volin, _, _) =>
    NeverDrained c.fuel c.geo c.dt volin nFd s.head.length s.head s.head.length s.head aet

theorem Good.olds {g : Geo K} {l : List (Front K)} (hl : Good g l) : OldsOk (listCopy l) l := by
  rw [listCopy_eq]; exact .inr ⟨hl.sound.num, rfl⟩

theorem spec_subFlow {c : StepCfg K} {s : SubSt K} {b : Bool} {rate ponded aet : K} (hg : c.geo.Valid)
    (hinc : c.geo.cum.Pairwise (· < ·)) (hl : Good c.geo s.head)
    (ht : c.geo.numLayers = 1 ∨ FlowTieFree c s b (wettingFrontFreeDrainage s.head) rate ponded aet)
    (hd : u = true → FlowUndrained c s b (wettingFrontFreeDrainage s.head) rate ponded aet) :
    Spec ⟨false, u⟩ (subFlow c s b s.head (wettingFrontFreeDrainage s.head) rate ponded aet)
      fun f => Good c.geo f.head := by
  unfold FlowTieFree at ht
  unfold FlowUndrained at hd
  have ho : OldsOk s.head s.head := .inr ⟨hl.sound.num, rfl⟩
  unfold subFlow
  refine Spec.ite (fun hb => ?_) fun hb => ?_
  · simp only [if_pos hb] at ht hd
    unfold flowCreate
    refine Spec.bindT (spec_moveFronts hg hinc hl ho (ht.imp_right fun t => t.1) hd) fun r hr => ?_
    have gm : Good c.geo r.1 := hl.moveFronts hinc (ht.imp_right fun t => t.1) hr
    refine Spec.bindT (spec_calcDryDepth hg gm).mem fun d hdry => ?_
    refine Spec.bind _ (spec_deref' gm.pos) fun h hh hh' => ?_
    refine Spec.bind (fun q => Good c.geo q.2.2) (Spec.of_ok (spec_createSurficial hg hinc gm) fun q hq => ?_) fun q _ hq => ?_
    · exact gm.create (ht.imp_right fun t => ((t.2.of_ok hr).of_ok hdry).of_ok hh) hq
    · exact Spec.ite (fun _ => Spec.pure hq) fun _ => Spec.pure hq
  · simp only [if_neg hb] at ht hd
    unfold flowMove
    refine Spec.bindT (spec_surfaceFlow hg hl).mem fun q hq => ?_
    refine Spec.bindT (spec_moveFronts hg hinc hl ho (ht.imp_right fun t => t.of_ok hq) fun h => (hd h).of_ok hq) fun r hr => ?_
    exact Spec.pure (hl.moveFronts hinc (ht.imp_right fun t => t.of_ok hq) hr)

/-- No front is drained in a subcycle. -/
def StepUndrained (c : StepCfg K) (s : SubSt K) : Prop :=
  Res.Holds (aetDemand c (CMath.fmax s.petMm 0 * 0.1) s.head) fun aet =>
    Res.Holds (deref s.head 0) fun h0 =>
      Res.Holds (c.geo.soil h0.layer) fun hs =>
        FlowUndrained c s
          (wantsFront s.precipPrev (CMath.fmax s.precipMm 0 * 0.1 * c.dt) h0.theta hs.thetaE (volonClean s.volon))
          (wettingFrontFreeDrainage s.head) (CMath.fmax s.precipMm 0 * 0.1)
          (CMath.fmax s.precipMm 0 * 0.1 * c.dt + s.volon) aet

theorem spec_subStep {c : StepCfg K} {s : SubSt K} (hg : c.geo.Valid) (hinc : c.geo.cum.Pairwise (· < ·))
    (hl : Good c.geo s.head) (ht : c.geo.numLayers = 1 ∨ StepTieFree c s) (hd : u = true → StepUndrained c s) :
    Spec ⟨false, u⟩ (subStep c s) fun _ => True := by
  unfold subStep
  dsimp only
  rw [listCopy_eq]
  refine Spec.bindT (x := aetDemand _ _ _) ?_ fun aet haet => ?_
  · unfold aetDemand
    exact Spec.ite (fun _ => spec_calcAet hg hl) fun _ => Spec.ok trivial
  refine Spec.bindT (spec_massBalGo hg _ hl.range _) fun vs _ => ?_
  refine Spec.bind _ (spec_deref' hl.pos) fun h0 hh0' hh0 => ?_
  obtain ⟨r1, r2⟩ := hl.range h0 (List.mem_of_getElem? hh0)
  refine Spec.bindT (spec_soil hg r1 r2) fun hs hhs => ?_
  refine Spec.bind _ (spec_subFlow hg hinc hl (ht.imp_right fun t => ((t.of_ok haet).of_ok hh0').of_ok hhs)
    fun h => (((hd h).of_ok haet).of_ok hh0').of_ok hhs) fun f hf gf => ?_
  refine Spec.bindT (x := dzdtCalc _ _ _ _ _ _) ?_ fun l hl' => ?_
  · unfold dzdtCalc
    exact Spec.ite (fun _ => Spec.error (by simp [Err.bad])) (fun _ => (spec_dzdtGo hg gf.range).mem)
  have gl : Good c.geo l := gf.speed hl'
  refine Spec.bindT (spec_massBalGo hg _ gl.range _) fun ve _ => ?_
  refine Spec.ite (fun _ => Spec.error (by simp [Err.bad])) fun _ => ?_
  refine Spec.bindT ((spec_deref' gl.pos).mono fun _ _ _ => trivial) fun h1 _ => ?_
  exact Spec.bindT (spec_cassert fun _ => trivial) fun _ _ => Spec.pure trivial

/-- No front is drained in the next `n` subcycles. -/
def LoopUndrained (c : StepCfg K) : Nat → SubSt K → Prop
  | 0, _ => True
  | n + 1, s => StepUndrained c s ∧ Res.Holds (subStep c s) fun s' => LoopUndrained c n s'

theorem spec_subLoop {c : StepCfg K} (hg : c.geo.Valid) (hinc : c.geo.cum.Pairwise (· < ·)) : ∀ {n : Nat} {s : SubSt K},
    Good c.geo s.head → (c.geo.numLayers = 1 ∨ LoopTieFree c n s) → (u = true → LoopUndrained c n s) →
      Spec ⟨false, u⟩ (subLoop c n s) fun _ => True
  | 0, s, _, _, _ => Spec.ok trivial
  | n + 1, s, hl, ht, hd => by
    unfold subLoop
    refine Spec.bindT (spec_subStep hg hinc hl (ht.imp_right fun t => t.1) fun h => (hd h).1) fun s1 h1 => ?_
    refine Spec.ite (fun _ => Spec.pure trivial) fun _ => ?_
    exact spec_subLoop hg hinc (hl.subStep hinc (ht.imp_right fun t => t.1) h1) (ht.imp_right fun t => t.2.of_ok h1)
      fun h => (hd h).2.of_ok h1

theorem spec_frozenCells_reach {bottom : K} : ∀ {cells : List (K × K)} {sum : K} {n : Nat}, cells ≠ [] →
    Spec fb (frozenCells bottom sum n cells) fun r => ∀ c ∈ cells, bottom < c.1 → c ∈ r.2.2
  | [], _, _, h => absurd rfl h
  | (z, t) :: rest, sum, n, _ => by
    unfold frozenCells
    refine Spec.ite (fun hz => ?_) fun hz => Spec.ok fun c hc _ => hc
    refine Spec.ite (fun he => ?_) fun he => ?_
    · refine Spec.ok fun c hc hb => ?_
      rcases List.mem_cons.mp hc with rfl | hc
      · exact absurd hz (not_le.mpr hb)
      · exact hc
    · refine (spec_frozenCells_reach (by simpa using he)).mono fun r _ h c hc hb => ?_
      rcases List.mem_cons.mp hc with rfl | hc
      · exact absurd hz (not_le.mpr hb)
      · exact h c hc hb

theorem spec_frozenLayers_reach : ∀ {bs : List K} {cells : List (K × K)}, bs = [] ∨ (∃ c ∈ cells, ∀ b ∈ bs.dropLast, b < c.1) →
    Spec fb (frozenLayers bs cells) fun _ => True
  | [], _, _ => Spec.ok trivial
  | b :: bs, cells, h => by
    rcases h with h | ⟨c, hc, hb⟩
    · exact absurd h (by simp)
    unfold frozenLayers
    refine Spec.bind _ (spec_frozenCells_reach (List.ne_nil_of_mem hc)) fun r _ hr => ?_
    refine Spec.bindT (spec_cassert fun _ => trivial) fun _ _ => ?_
    refine Spec.bindT (spec_cdiv fun _ => trivial) fun _ _ => ?_
    refine Spec.bindT (spec_frozenLayers_reach ?_) fun _ _ => Spec.pure trivial
    cases bs with
    | nil => exact .inl rfl
    | cons b' bs =>
      right
      refine ⟨c, hr c hc (hb b (by simp)), fun x hx => hb x ?_⟩
      simp only [List.dropLast_cons_cons, List.mem_cons] at hx ⊢
      exact .inr hx

theorem spec_calibLoop {g : Geo K} {cal : Calib K} (hg : g.Valid) (hc : CalibFits g.numLayers cal) :
    ∀ {n : Nat} {soils : List (SoilProps K)} {l : List (Front K)}, n ≤ l.length → InRange g.numLayers l →
      soils.length = g.soils.length → Spec fb (calibLoop g.soilType cal n soils l) fun _ => True
  | 0, soils, l, _, _, _ => Spec.ok trivial
  | n + 1, soils, [], h, _, _ => by simp at h
  | n + 1, soils, f :: t, h, hr, hs => by
    obtain ⟨r1, r2⟩ := hr f (by simp)
    unfold calibLoop
    refine Spec.bindT ?_ fun r h1 => ?_
    · unfold calibFront
      obtain ⟨st, e1, e2, e3⟩ := hg.soil_ok f.layer r1 r2
      rw [idx_ok_iff.mpr e1, ok_bind]
      have : Spec fb (idxI soils st) fun _ => True := by
        unfold idxI
        rw [if_neg (by omega)]
        exact spec_idx (by omega) trivial
      refine Spec.bindT this fun _ _ => ?_
      refine Spec.bindT (spec_idxPred (by omega) (by have := hc.te; omega) trivial) fun _ _ => ?_
      refine Spec.bindT (spec_idxPred (by omega) (by have := hc.tr; omega) trivial) fun _ _ => ?_
      refine Spec.bindT (spec_idxPred (by omega) (by have := hc.n; omega) trivial) fun _ _ => ?_
      refine Spec.bindT (spec_cdiv fun _ => trivial) fun _ _ => ?_
      refine Spec.bindT (spec_idxPred (by omega) (by have := hc.alpha; omega) trivial) fun _ _ => ?_
      refine Spec.bindT (spec_idxPred (by omega) (by have := hc.ksat; omega) trivial) fun _ _ => ?_
      exact Spec.bindT (spec_calcThetaFromH ..) fun _ _ => Spec.pure trivial
    · have hs' : r.1.length = g.soils.length := by
        obtain ⟨_, _, _, _, _, _, e, _⟩ := calibFront_inv h1
        rw [e]; simpa using hs
      refine Spec.bindT (spec_calibLoop hg hc (by simpa using h) (fun x hx => hr x (by simp [hx])) hs') fun _ _ => ?_
      exact Spec.pure trivial

end Exact

end LGAR
