import Verif.Model.Update
import Verif.Lemmas.Dzdt
/-
Lemmas about lgar_move_wetting_fronts: what one iteration does, and which parts of the list it keeps.
-/
set_option linter.unusedSectionVars false
namespace LGAR

section Free
variable {α : Type} [Add α] [Sub α] [Mul α] [Div α] [Neg α] [Zero α] [One α] [OfScientific α]
  [LT α] [LE α] [DecidableLT α] [DecidableLE α] [BEq α] [CMath α]

theorem derefOpt_ok_iff {l : List (Front α)} {o : Option Nat} {f : Front α} :
    derefOpt l o = .ok f ↔ ∃ i, o = some i ∧ l[i]? = some f := by
  cases o with
  | none => simp [derefOpt]
  | some i => simp [derefOpt, deref_ok_iff]

theorem find_num {l : List (Front α)} (hn : NumFrom 1 l) {wf : Nat} (h1 : 1 ≤ wf) (h2 : wf ≤ l.length) :
    listFindFront (Int.ofNat wf) l [] = some (wf - 1) := by
  have := findFrom_num hn (wf - 1) (by omega)
  have e : (1 : Int) + ((wf - 1 : Nat) : Int) = Int.ofNat wf := by
    simp only [Int.ofNat_eq_natCast]; omega
  have hne : l.isEmpty = false := by
    cases l with
    | nil => simp at h2; omega
    | cons _ _ => rfl
  simp only [listFindFront, hne, Bool.false_eq_true, if_false, List.isEmpty_nil, if_true]
  rw [← e]; exact this

/-- Layer, number, flag, speed and conductivity of a front: what moving one front keeps. -/
def Front.tag (f : Front α) : Nat × Int × Bool × α × α := (f.layer, f.front, f.toBottom, f.dzdt, f.K)

/-- The four kinds of change that one iteration of the main loop makes to front number `wf` (position `wf - 1`). -/
inductive Moved (fuel : Nat) (g : Geo α) (dt precip : α) (nFd n wf : Nat) (olds : List (Front α)) (l : List (Front α))
    (aet : α) (c : Front α) : Front α → α → Prop
  | boundary (s : SoilProps α) (nx : Front α) (th : α) (hs : g.soil c.layer = .ok s) (hwf : wf < n)
      (hnx : l[wf]? = some nx) (hl : nx.layer ≠ c.layer)
      (hth : calcThetaFromH nx.psi s.vgAlpha s.vgM s.vgN s.thetaE s.thetaR = .ok th) :
      Moved fuel g dt precip nFd n wf olds l aet c { c with theta := th, psi := nx.psi } aet
  | top (s : SoilProps α) (nx old oldNext c1 : Front α) (column psi : α) (hs : g.soil c.layer = .ok s) (hwf : wf < n)
      (hnx : l[wf]? = some nx) (hl : nx.layer = c.layer) (h1 : c.layer = 1)
      (hcol : g.cum[g.numLayers]? = some column)
      (hold : old ∈ olds) (holdn : oldNext ∈ olds)
      (hm : moveTopLayer dt precip column (nFd == wf) c nx old oldNext s aet = .ok (some c1))
      (hpsi : psiOf s c1.theta = .ok psi) :
      Moved fuel g dt precip nFd n wf olds l aet c { c1 with psi := psi } aet
  | inner (s : SoilProps α) (nx old oldNext oldSucc c1 : Front α) (psi aet' : α) (hs : g.soil c.layer = .ok s)
      (hwf : wf < n) (hnx : l[wf]? = some nx) (hl : nx.layer = c.layer) (h1 : c.layer ≠ 1)
      (hold : old ∈ olds) (holdn : oldNext ∈ olds) (holds : oldSucc ∈ olds)
      (hm : moveInner fuel g dt precip (nFd == wf) c nx old oldNext oldSucc s aet = .ok (c1, aet'))
      (hpsi : psiOf s c1.theta = .ok psi) :
      Moved fuel g dt precip nFd n wf olds l aet c { c1 with psi := psi } aet'
  | deepest (s : SoilProps α) (old c1 : Front α) (aet' : α) (hs : g.soil c.layer = .ok s) (hwf : wf = n)
      (hn : n = g.numLayers) (hold : old ∈ olds)
      (hm : moveDeepest fuel g dt precip (nFd == wf) c old s aet = .ok (c1, aet')) :
      Moved fuel g dt precip nFd n wf olds l aet c c1 aet'
  | same (hwf : wf = n) (hn : n ≠ g.numLayers) :
      Moved fuel g dt precip nFd n wf olds l aet c c aet

theorem moveOne_cases {fuel : Nat} {g : Geo α} {dt precip : α} {nFd n wf : Nat} {prev l : List (Front α)} {aet : α}
    {r : List (Front α) × α} (hn : NumFrom 1 l) (hlen : n = l.length) (h1 : 1 ≤ wf) (h2 : wf ≤ n)
    (h : moveOne fuel g dt precip nFd n wf prev l aet = .ok r) :
    ∃ c c', l[wf - 1]? = some c ∧ r.1 = l.set (wf - 1) c' ∧
      Moved fuel g dt precip nFd n wf (if prev.isEmpty then l else prev) l aet c c' r.2 := by
  unfold moveOne at h
  simp only [bind_ok_iff, idx_ok_iff] at h
  obtain ⟨column, hcol, c, hc, s, hs, _, _, h⟩ := h
  rw [find_num hn h1 (by omega)] at hc h
  have hc' : l[wf - 1]? = some c := by
    obtain ⟨i, hi, hc⟩ := derefOpt_ok_iff.mp hc
    simp only [Option.some.injEq] at hi; subst hi; exact hc
  simp only [Option.getD_some] at h
  refine ⟨c, ?_⟩
  split at h
  · rename_i hwf
    have e1 : (Int.ofNat wf + 1) = Int.ofNat (wf + 1) := rfl
    rw [e1, find_num hn (by omega) (by omega)] at h
    simp only [bind_ok_iff] at h
    obtain ⟨nx, hnx, h⟩ := h
    have hnx' : l[wf]? = some nx := by
      obtain ⟨i, hi, hc⟩ := derefOpt_ok_iff.mp hnx
      simp only [Option.some.injEq] at hi; subst hi; simpa using hc
    split at h
    · rename_i hl
      simp only [bind_ok_iff, pure_eq_ok, Except.ok.injEq] at h
      obtain ⟨th, hth, rfl⟩ := h
      exact ⟨_, hc', rfl, .boundary s nx th hs hwf hnx' hl hth⟩
    · rename_i hl
      rw [not_not] at hl
      split at h
      · rename_i hl1
        simp only [bind_ok_iff] at h
        obtain ⟨old, hold, oldNext, holdn, o, ho, h⟩ := h
        cases o with
        | none => simp only [bind_ok_iff] at h; obtain ⟨_, _, h⟩ := h; exact absurd h (by simp)
        | some c1 =>
          simp only [bind_ok_iff, pure_eq_ok, Except.ok.injEq] at h
          obtain ⟨psi, hpsi, rfl⟩ := h
          obtain ⟨_, _, ho1⟩ := derefOpt_ok_iff.mp hold
          obtain ⟨_, _, ho2⟩ := derefOpt_ok_iff.mp holdn
          exact ⟨_, hc', rfl, .top s nx old oldNext c1 column psi hs hwf hnx' hl hl1 hcol (List.mem_of_getElem? ho1)
            (List.mem_of_getElem? ho2) ho hpsi⟩
      · rename_i hl1
        simp only [bind_ok_iff, Prod.exists] at h
        obtain ⟨old, hold, oldNext, holdn, oldSucc, holds, c1, aet', hm, psi, hpsi, h⟩ := h
        simp only [pure_eq_ok, Except.ok.injEq] at h
        subst h
        obtain ⟨_, _, ho1⟩ := derefOpt_ok_iff.mp hold
        obtain ⟨_, _, ho2⟩ := derefOpt_ok_iff.mp holdn
        obtain ⟨_, _, ho3⟩ := derefOpt_ok_iff.mp holds
        exact ⟨_, hc', rfl, .inner s nx old oldNext oldSucc c1 psi aet' hs hwf hnx' hl hl1 (List.mem_of_getElem? ho1)
            (List.mem_of_getElem? ho2) (List.mem_of_getElem? ho3) hm hpsi⟩
  · rename_i hwf
    split at h
    · rename_i hd
      simp only [bind_ok_iff, Prod.exists, pure_eq_ok, Except.ok.injEq] at h
      obtain ⟨old, hold, c1, aet', hm, rfl⟩ := h
      obtain ⟨_, _, ho1⟩ := derefOpt_ok_iff.mp hold
      exact ⟨_, hc', rfl, .deepest s old c1 aet' hs hd.1 hd.2 (List.mem_of_getElem? ho1) hm⟩
    · rename_i hd
      simp only [pure_eq_ok, Except.ok.injEq] at h
      subst h
      refine ⟨c, hc', ?_, .same (by omega) (fun he => hd ⟨by omega, he⟩)⟩
      simp only
      rw [List.getElem?_eq_some_iff] at hc'
      obtain ⟨hi, hc'⟩ := hc'
      rw [← hc', List.set_getElem_self]

theorem moveTopLayer_tag {dt precip column aet : α} {isFd : Bool} {c n old oldNext c1 : Front α} {s : SoilProps α}
    (h : moveTopLayer dt precip column isFd c n old oldNext s aet = .ok (some c1)) :
    c1.tag = c.tag ∧ c1.psi = c.psi ∧ c1.depth = CMath.fmin (c.depth + c.dzdt * dt) column ∧
      (c1.theta = c.theta ∧ (c.dzdt == 0) = true ∧ c.toBottom = false ∨
        ∃ t, c1.theta = CMath.fmax s.thetaR (CMath.fmin s.thetaE t)) := by
  unfold moveTopLayer at h
  simp only at h
  split at h
  · simp only [pure_eq_ok, Except.ok.injEq, Option.some.injEq] at h
    subst h
    rename_i hd
    exact ⟨rfl, rfl, rfl, .inl ⟨rfl, hd⟩⟩
  · simp only [bind_ok_iff] at h
    obtain ⟨q, _, h⟩ := h
    split at h
    · simp at h
    · simp only [pure_eq_ok, Except.ok.injEq, Option.some.injEq] at h
      subst h
      exact ⟨rfl, rfl, rfl, .inr ⟨_, rfl⟩⟩

theorem moveInner_tag {fuel : Nat} {g : Geo α} {dt precip aet : α} {isFd : Bool} {c n old oldNext oldSucc : Front α}
    {s : SoilProps α} {r : Front α × α}
    (h : moveInner fuel g dt precip isFd c n old oldNext oldSucc s aet = .ok r) :
    r.1.tag = c.tag ∧ r.1.depth = c.depth + c.dzdt * dt ∧ ∃ t, r.1.theta = clampTheta s t := by
  unfold moveInner at h
  simp only [bind_ok_iff, Prod.exists, pure_eq_ok, Except.ok.injEq] at h
  obtain ⟨base, _, a, _, th, aet', _, rfl⟩ := h
  exact ⟨rfl, rfl, _, rfl⟩

theorem moveDeepest_tag {fuel : Nat} {g : Geo α} {dt precip aet : α} {isFd : Bool} {c old : Front α}
    {s : SoilProps α} {r : Front α × α} (h : moveDeepest fuel g dt precip isFd c old s aet = .ok r) :
    r.1.tag = c.tag ∧ r.1.depth = c.depth + c.dzdt * dt ∧ ∃ t, r.1.theta = clampTheta s t := by
  unfold moveDeepest at h
  simp only [bind_ok_iff, Prod.exists, pure_eq_ok, Except.ok.injEq] at h
  obtain ⟨base, _, a, _, th, aet', _, psi, _, rfl⟩ := h
  exact ⟨rfl, rfl, _, rfl⟩

theorem Moved.tag_eq {fuel : Nat} {g : Geo α} {dt precip : α} {nFd n wf : Nat} {olds l : List (Front α)} {aet aet' : α}
    {c c' : Front α} (h : Moved fuel g dt precip nFd n wf olds l aet c c' aet') : c'.tag = c.tag := by
  cases h with
  | boundary => rfl
  | top s nx old oldNext c1 column psi hs hwf hnx hl h1 hcol hold holdn hm hpsi => exact (moveTopLayer_tag hm).1
  | inner s nx old oldNext oldSucc c1 psi aet' hs hwf hnx hl h1 hold holdn holds hm hpsi =>
    exact (moveInner_tag hm).1
  | deepest s old c1 aet' hs hwf hn hold hm => exact (moveDeepest_tag hm).1
  | same => rfl

theorem Front.tag_eq {f f' : Front α} (h : f.tag = f'.tag) :
    f.layer = f'.layer ∧ f.front = f'.front ∧ f.toBottom = f'.toBottom ∧ f.dzdt = f'.dzdt ∧ f.K = f'.K := by
  simp only [Front.tag, Prod.mk.injEq] at h
  exact h

theorem set_tags {l : List (Front α)} {i : Nat} {c c' : Front α} (hc : l[i]? = some c) (h : c'.tag = c.tag) :
    (l.set i c').map Front.tag = l.map Front.tag := by
  rw [List.map_set, h]
  apply List.ext_getElem?
  intro j
  rw [List.getElem?_set]
  split
  · rename_i hij
    subst hij
    have hi := (List.getElem?_eq_some_iff.mp hc).1
    rw [if_pos (by simpa using hi)]
    simp [hc]
  · rfl

theorem tags_num {l l' : List (Front α)} {k : Int} (h : l'.map Front.tag = l.map Front.tag) (hn : NumFrom k l) :
    NumFrom k l' := by
  induction l generalizing l' k with
  | nil => simp at h; subst h; exact hn
  | cons f t ih =>
    cases l' with
    | nil => simp at h
    | cons f' t' =>
      simp only [List.map_cons, List.cons.injEq] at h
      obtain ⟨h1, h2⟩ := h
      have := Front.tag_eq h1
      simp only [NumFrom] at hn ⊢
      exact ⟨by rw [this.2.1]; exact hn.1, ih h2 hn.2⟩

theorem moveOnes_tags {fuel : Nat} {g : Geo α} {dt precip : α} {nFd n : Nat} {prev : List (Front α)} :
    ∀ {wf : Nat} {l : List (Front α)} {aet : α} {r : List (Front α) × α}, NumFrom 1 l → n = l.length → wf ≤ n →
      moveOnes fuel g dt precip nFd n prev wf l aet = .ok r → r.1.map Front.tag = l.map Front.tag
  | 0, l, aet, r, _, _, _, h => by simp [moveOnes] at h; subst h; rfl
  | wf + 1, l, aet, r, hn, hl, hw, h => by
    unfold moveOnes at h
    simp only [bind_ok_iff, Prod.exists] at h
    obtain ⟨l1, aet1, h1, h⟩ := h
    obtain ⟨c, c', hc, hl1, hm⟩ := moveOne_cases hn hl (by omega) hw h1
    have ht : l1.map Front.tag = l.map Front.tag := by
      simp only at hl1; rw [hl1]; exact set_tags hc hm.tag_eq
    have hlen : l1.length = l.length := by simpa using congrArg List.length ht
    rw [moveOnes_tags (tags_num ht hn) (by omega) (by omega) h, ht]

/-- The deepest front: in layer `N`, flagged, not moving. -/
def LastOk (N : Nat) (l : List (Front α)) : Prop :=
  ∃ f, l.getLast? = some f ∧ f.layer = N ∧ f.toBottom = true ∧ f.dzdt = 0

theorem lastOk_congr {N : Nat} {l l' : List (Front α)} (h : LastOk N l)
    (e : ∀ f, l.getLast? = some f → ∃ f', l'.getLast? = some f' ∧ f'.layer = f.layer ∧ f'.toBottom = f.toBottom ∧
      f'.dzdt = f.dzdt) : LastOk N l' := by
  obtain ⟨f, hf, h1, h2, h3⟩ := h
  obtain ⟨f', hf', e1, e2, e3⟩ := e f hf
  exact ⟨f', hf', by rw [e1, h1], by rw [e2, h2], by rw [e3, h3]⟩

theorem lastOk_tags {N : Nat} {l l' : List (Front α)} (e : l'.map Front.tag = l.map Front.tag) (h : LastOk N l) :
    LastOk N l' := by
  refine lastOk_congr h fun f hf => ?_
  have : (l'.map Front.tag).getLast? = some f.tag := by rw [e, List.getLast?_map, hf]; rfl
  rw [List.getLast?_map] at this
  cases hl : l'.getLast? with
  | none => simp [hl] at this
  | some f' =>
    rw [hl] at this
    simp only [Option.map_some, Option.some.injEq] at this
    have := Front.tag_eq this
    exact ⟨f', rfl, this.1, this.2.2.1, this.2.2.2.1⟩

theorem lastOk_append {N : Nat} {a a' b b' : List (Front α)} (hb : b ≠ []) (e : b'.map Front.data = b.map Front.data)
    (h : LastOk N (a ++ b)) : LastOk N (a' ++ b') := by
  have hb' : b' ≠ [] := by
    intro hb'; subst hb'; simp at e; exact hb e
  refine lastOk_congr h fun f hf => ?_
  rw [List.getLast?_append_of_ne_nil _ hb] at hf
  rw [List.getLast?_append_of_ne_nil _ hb']
  have : (b'.map Front.data).getLast? = some f.data := by rw [e, List.getLast?_map, hf]; rfl
  rw [List.getLast?_map] at this
  cases hl : b'.getLast? with
  | none => simp [hl] at this
  | some f' =>
    rw [hl] at this
    simp only [Option.map_some, Option.some.injEq, Front.data, FrontData.mk.injEq] at this
    exact ⟨f', rfl, this.2.2.2.2.1, this.2.2.2.2.2.1, this.2.2.2.2.2.2⟩

theorem mergeFronts_last {g : Geo α} {N : Nat} {l l' : List (Front α)} {k : Int} (hn : NumFrom k l) (hl : LastOk N l)
    (h : mergeFronts g l = .ok l') : LastOk N l' := by
  refine (mergeLoop_ind (P := LastOk N) ?_ hn hl h).2
  intro cur l r hn hp hs
  rcases mergeStep_inv hn hs with rfl | ⟨a, c, n, nn, b, d, psi, Kc, rfl, _, _, _, _, _, _, _, rfl⟩
  · exact hp
  · have e1 : a ++ c :: n :: nn :: b = (a ++ [c, n]) ++ nn :: b := by simp
    have e2 : a ++ { c with depth := d, psi := psi, K := Kc } :: decFronts (nn :: b) =
      (a ++ [{ c with depth := d, psi := psi, K := Kc }]) ++ decFronts (nn :: b) := by simp
    rw [e1] at hp
    show LastOk N (a ++ { c with depth := d, psi := psi, K := Kc } :: decFronts (nn :: b))
    rw [e2]
    exact lastOk_append (by simp) (decFronts_data _) hp

theorem crossLayer_last {g : Geo α} {N : Nat} {l l' : List (Front α)} (hl : LastOk N l)
    (h : crossLayer g l = .ok l') : LastOk N l' := by
  refine crossLoop_ind (P := LastOk N) ?_ hl h
  intro cur l l' hp hs
  rcases crossStep_inv hs with rfl | hx
  · exact hp
  · obtain ⟨a, c, n, nn, b, s, ff, s2, bot, psi, Kc, thetaNew, Se, z, rfl, _, _, _, _, _, _, _, _, _, _, _, _, _, rfl⟩ := hx
    rw [show a ++ c :: n :: nn :: b = (a ++ [c, n]) ++ nn :: b by simp] at hp
    refine lastOk_congr hp fun f hf => ⟨f, ?_, rfl, rfl, rfl⟩
    simpa [List.getLast?_cons_cons, List.getLast?_append] using hf

theorem crossDomain_last {g : Geo α} {N : Nat} {dom : α} {l : List (Front α)} {r : α × List (Front α)} {k : Int}
    (hn : NumFrom k l) (hl : LastOk N l) (h : crossDomain g dom l = .ok r) : LastOk N r.2 := by
  rcases domainLoop_inv hn h with rfl | ⟨a, c, n, psi, Kc, rfl, hd, _, rfl⟩
  · exact hl
  · refine lastOk_congr hl fun f hf => ?_
    have e : f = n := by
      rw [show a ++ [c, n] = (a ++ [c]) ++ [n] by simp, List.getLast?_append_of_ne_nil _ (by simp)] at hf
      simpa using hf.symm
    subst e
    refine ⟨{ f with theta := c.theta, psi := psi, K := Kc, front := f.front - 1 }, ?_, rfl, rfl, rfl⟩
    rw [List.getLast?_append_of_ne_nil _ (by simp [decFronts])]
    rfl

theorem lastOk_shape {N : Nat} {l l' : List (Front α)} (e : SameShape l l') (h : LastOk N l) : LastOk N l' := by
  refine lastOk_congr h fun f hf => ?_
  have := congrArg List.getLast? e
  rw [List.getLast?_map, List.getLast?_map, hf] at this
  cases hl : l'.getLast? with
  | none => simp [hl] at this
  | some f' =>
    rw [hl] at this
    simp only [Option.map_some, Option.some.injEq, Prod.mk.injEq] at this
    exact ⟨f', rfl, this.2.1.symm, this.2.2.2.1.symm, this.2.2.2.2.2.symm⟩

theorem fixDry_last {g : Geo α} {N : Nat} {l : List (Front α)} {mc : α} {r : List (Front α) × α} {k : Int}
    (hn : NumFrom k l) (hl : LastOk N l) (h : fixDry g mc l = .ok r) : LastOk N r.1 := by
  unfold fixDry at h
  simp only [bind_ok_iff] at h
  obtain ⟨_, _, h⟩ := h
  refine (fixDryLoop_ind (P := fun l _ => LastOk N l) ?_ hn hl h).2
  intro a b c n mc r hn hp _ hcn hr
  have hp' : LastOk N (a ++ decFronts (n :: b)) := by
    rw [show a ++ c :: n :: b = (a ++ [c]) ++ n :: b by simp] at hp
    exact lastOk_append (by simp) (decFronts_data _) hp
  obtain ⟨m0, m1, l2, _, _, rfl, hl2 | ⟨_, d, b', sl, Se, psi, e, _, _, _, hu⟩⟩ := fixDryRepair_inv hn hr
  · rw [hl2.2]; exact hp'
  · obtain ⟨rfl, rfl⟩ := List.cons.inj e
    refine lastOk_shape (updAbove_shape hu) ?_
    refine lastOk_congr hp' fun f hf => ?_
    rcases List.eq_nil_or_concat b with rfl | ⟨b0, x, rfl⟩
    · rw [List.getLast?_append_of_ne_nil _ (by simp [decFronts])] at hf
      simp only [decFronts, List.map_cons, List.map_nil, List.getLast?_singleton, Option.some.injEq] at hf
      subst hf
      refine ⟨{ n with front := n.front - 1, psi := psi }, ?_, rfl, rfl, rfl⟩
      rw [List.getLast?_append_of_ne_nil _ (by simp)]
      rfl
    · refine ⟨f, ?_, rfl, rfl, rfl⟩
      rw [← hf, List.getLast?_append_of_ne_nil _ (by simp), List.getLast?_append_of_ne_nil _ (by simp [decFronts])]
      rw [List.concat_eq_append]
      simp [decFronts, List.getLast?_cons]

theorem checkFix_inv {g : Geo α} {mc : α} {l : List (Front α)} {r : List (Front α) × α}
    (h : checkFix g mc l = .ok r) : r = (l, mc) ∨ fixDry g mc l = .ok r := by
  unfold checkFix at h
  simp only [bind_ok_iff] at h
  obtain ⟨b, _, h⟩ := h
  split at h
  · exact .inr h
  · simp only [pure_eq_ok, Except.ok.injEq] at h
    exact .inl h.symm

/-- What the mass correction does to the list: the depth of the front at `p` is replaced. -/
theorem mcLoop_inv {g : Geo α} {target column : α} {p : Nat} {l : List (Front α)} {w : Front α} (hw : l[p]? = some w) :
    ∀ {fuel : Nat} {st : McState α} {r : McState α × Bool},
      (∃ d, st.list = l.set p { w with depth := d } ∧
        (w.toBottom = true → w.layer = g.numLayers → d = w.depth ∨ d = column)) →
      mcLoop g target column p fuel st = .ok r →
      ∃ d, r.1.list = l.set p { w with depth := d } ∧
        (w.toBottom = true → w.layer = g.numLayers → d = w.depth ∨ d = column)
  | 0, _, _, _, h => by simp [mcLoop] at h
  | fuel + 1, st, r, hst, h => by
    unfold mcLoop at h
    split at h
    · dsimp only at h
      split at h
      · simp only [Except.ok.injEq] at h
        subst h
        exact hst
      · obtain ⟨d0, hl0, hd0⟩ := hst
        simp only [bind_ok_iff, deref_ok_iff] at h
        obtain ⟨w', hw', m, hm, h⟩ := h
        have hp : p < l.length := (List.getElem?_eq_some_iff.mp hw).1
        rw [hl0, List.getElem?_set, if_pos rfl, if_pos hp] at hw'
        simp only [Option.some.injEq] at hw'
        subst hw'
        refine mcLoop_inv hw ⟨_, by simp only [hl0, List.set_set]; rfl, ?_⟩ h
        intro hb hlay
        right
        exact if_pos ⟨hb, hlay⟩
    · simp only [Except.ok.injEq] at h
      subst h
      exact hst

/-- Everything the mass correction at the end of the main loop can do to the list. -/
theorem moveTop_inv {g : Geo α} {oldMass precip aet : α} {l : List (Front α)} {r : List (Front α) × α × α}
    (h : moveTop g oldMass precip l aet = .ok r) :
    ∃ l1 column, crossLayer g l = .ok l1 ∧ g.cum[g.numLayers]? = some column ∧
      (r.1 = l1 ∨ ∃ p w d, listFindFront (Int.ofNat (wettingFrontFreeDrainage l1)) l1 [] = some p ∧ l1[p]? = some w ∧
        r.1 = l1.set p { w with depth := d } ∧
        (w.toBottom = true → w.layer = g.numLayers → d = w.depth ∨ d = column)) := by
  unfold moveTop at h
  simp only [bind_ok_iff, idx_ok_iff] at h
  obtain ⟨column, hcol, l1, hl1, s1, hs1, _, _, w, hw, h⟩ := h
  refine ⟨l1, column, hl1, hcol, ?_⟩
  obtain ⟨p, hp, hw⟩ := derefOpt_ok_iff.mp hw
  split at h
  · simp only [bind_ok_iff, Prod.exists] at h
    obtain ⟨m, hm, fac, hfac, st, brk, hmc, h⟩ := h
    rw [hp] at hmc
    simp only [Option.getD_some] at hmc
    obtain ⟨d, hd, hd2⟩ := mcLoop_inv hw ⟨w.depth, by
      simp only
      rw [List.getElem?_eq_some_iff] at hw
      obtain ⟨hi, hw⟩ := hw
      rw [← hw, List.set_getElem_self], fun _ _ => .inl rfl⟩ hmc
    refine .inr ⟨p, w, d, hp, hw, ?_, hd2⟩
    split at h
    · simp only [bind_ok_iff] at h
      obtain ⟨m2, _, h⟩ := h
      simp only [pure_eq_ok, Except.ok.injEq] at h
      subst h; exact hd
    · simp only [pure_eq_ok, Except.ok.injEq] at h
      subst h; exact hd
  · simp only [pure_eq_ok, Except.ok.injEq] at h
    subst h
    exact .inl rfl

theorem moveTop_tags {g : Geo α} {oldMass precip aet : α} {l : List (Front α)} {r : List (Front α) × α × α}
    (h : moveTop g oldMass precip l aet = .ok r) :
    ∃ l1, crossLayer g l = .ok l1 ∧ r.1.map Front.tag = l1.map Front.tag := by
  obtain ⟨l1, _, h1, _, h2⟩ := moveTop_inv h
  refine ⟨l1, h1, ?_⟩
  rcases h2 with h2 | ⟨p, w, d, _, hw, h2, _⟩
  · rw [h2]
  · rw [h2]; exact set_tags hw rfl

theorem refresh_inv {g : Geo α} : ∀ {l l' : List (Front α)}, refresh g l = .ok l' →
    l'.map (fun f => (f.depth, f.theta, f.layer, f.front, f.toBottom, f.dzdt)) =
      l.map (fun f => (f.depth, f.theta, f.layer, f.front, f.toBottom, f.dzdt))
  | [], l', h => by simp [refresh] at h
  | [f], l', h => by simp [refresh] at h; subst h; rfl
  | f :: n :: t, l', h => by
    unfold refresh at h
    simp only [bind_ok_iff, pure_eq_ok, Except.ok.injEq] at h
    obtain ⟨f', hf', r, hr, rfl⟩ := h
    have ih := refresh_inv hr
    rw [List.map_cons, ih, List.map_cons (a := f)]
    congr 1
    unfold refreshOne at hf'
    split at hf'
    · simp only [bind_ok_iff, Prod.exists, Except.ok.injEq] at hf'
      obtain ⟨_, _, _, rfl⟩ := hf'
      rfl
    · simp only [Except.ok.injEq] at hf'
      subst hf'; rfl

theorem fixSingle_inv {g : Geo α} {l l' : List (Front α)} (h : fixSingle g l = .ok l') :
    l' = l ∨ ∃ f c1, l = [f] ∧ g.cum[1]? = some c1 ∧ (f.depth == c1) = false ∧ l' = [{ f with depth := c1 }] := by
  unfold fixSingle at h
  split at h
  · rename_i f
    simp only [bind_ok_iff, idx_ok_iff] at h
    obtain ⟨c1, hc1, h⟩ := h
    split at h
    · simp only [pure_eq_ok, Except.ok.injEq] at h; exact .inl h.symm
    · rename_i hne
      simp only [pure_eq_ok, Except.ok.injEq] at h
      exact .inr ⟨f, c1, rfl, hc1, by simpa using hne, h.symm⟩
  · simp only [Except.ok.injEq] at h; exact .inl h.symm

/-- Number, layer, flag and speed of every front. -/
def Front.skel (f : Front α) : Nat × Int × Bool × α := (f.layer, f.front, f.toBottom, f.dzdt)

theorem skel_num {l l' : List (Front α)} {k : Int} (h : l'.map Front.skel = l.map Front.skel) (hn : NumFrom k l) :
    NumFrom k l' := by
  have e := congrArg (List.map (fun x : Nat × Int × Bool × α => x.2.1)) h
  simp only [List.map_map] at e
  have e' : l'.map (fun f => f.front) = l.map (fun f => f.front) := e
  rw [numFrom_iff] at hn ⊢
  intro i hi
  have hlen : l'.length = l.length := by simpa using congrArg List.length h
  have := congrArg (fun x => x[i]?) e'
  simp only [List.getElem?_map] at this
  rw [List.getElem?_eq_getElem hi, List.getElem?_eq_getElem (by omega)] at this
  simp only [Option.map_some, Option.some.injEq] at this
  rw [this]; exact hn i (by omega)

theorem skel_last {N : Nat} {l l' : List (Front α)} (h : l'.map Front.skel = l.map Front.skel) (hl : LastOk N l) :
    LastOk N l' := by
  refine lastOk_congr hl fun f hf => ?_
  have := congrArg List.getLast? h
  rw [List.getLast?_map, List.getLast?_map, hf] at this
  cases hl : l'.getLast? with
  | none => simp [hl] at this
  | some f' =>
    rw [hl] at this
    simp only [Option.map_some, Option.some.injEq, Front.skel, Prod.mk.injEq] at this
    exact ⟨f', rfl, this.1, this.2.2.1, this.2.2.2⟩

theorem refresh_skel {g : Geo α} {l l' : List (Front α)} (h : refresh g l = .ok l') :
    l'.map Front.skel = l.map Front.skel := by
  have e := congrArg (List.map (fun x : α × α × Nat × Int × Bool × α => (x.2.2.1, x.2.2.2.1, x.2.2.2.2.1, x.2.2.2.2.2)))
    (refresh_inv h)
  rw [List.map_map, List.map_map] at e
  exact e

theorem fixSingle_skel {g : Geo α} {l l' : List (Front α)} (h : fixSingle g l = .ok l') :
    l'.map Front.skel = l.map Front.skel := by
  rcases fixSingle_inv h with rfl | ⟨f, c1, rfl, _, _, rfl⟩ <;> rfl

theorem tag_skel {l l' : List (Front α)} (h : l'.map Front.tag = l.map Front.tag) :
    l'.map Front.skel = l.map Front.skel := by
  have e := congrArg (List.map (fun x : Nat × Int × Bool × α × α => (x.1, x.2.1, x.2.2.1, x.2.2.2.1))) h
  rw [List.map_map, List.map_map] at e
  exact e

/-- Numbering 1, 2, ... and a flagged, resting deepest front in layer `N`. -/
structure Sound (N : Nat) (l : List (Front α)) : Prop where
  num : NumFrom 1 l
  last : LastOk N l

theorem Sound.skel {N : Nat} {l l' : List (Front α)} (hs : Sound N l) (h : l'.map Front.skel = l.map Front.skel) :
    Sound N l' := ⟨skel_num h hs.num, skel_last h hs.last⟩

theorem Sound.merge {g : Geo α} {N : Nat} {l l' : List (Front α)} (hs : Sound N l) (h : mergeFronts g l = .ok l') :
    Sound N l' := ⟨mergeFronts_num hs.num h, mergeFronts_last hs.num hs.last h⟩

theorem Sound.cross {g : Geo α} {N : Nat} {l l' : List (Front α)} (hs : Sound N l) (h : crossLayer g l = .ok l') :
    Sound N l' := ⟨crossLayer_num hs.num h, crossLayer_last hs.last h⟩

theorem Sound.domain {g : Geo α} {N : Nat} {dom : α} {l : List (Front α)} {r : α × List (Front α)} (hs : Sound N l)
    (h : crossDomain g dom l = .ok r) : Sound N r.2 := ⟨crossDomain_num hs.num h, crossDomain_last hs.num hs.last h⟩

theorem Sound.checkFix {g : Geo α} {N : Nat} {mc : α} {l : List (Front α)} {r : List (Front α) × α} (hs : Sound N l)
    (h : checkFix g mc l = .ok r) : Sound N r.1 := by
  rcases checkFix_inv h with rfl | h
  · exact hs
  · exact ⟨fixDry_num hs.num h, fixDry_last hs.num hs.last h⟩

theorem Sound.moveOnes {fuel : Nat} {g : Geo α} {dt precip : α} {nFd N : Nat} {prev l : List (Front α)} {aet : α}
    {r : List (Front α) × α} (hs : Sound N l)
    (h : moveOnes fuel g dt precip nFd l.length prev l.length l aet = .ok r) : Sound N r.1 :=
  hs.skel (tag_skel (moveOnes_tags hs.num rfl le_rfl h))

theorem Sound.moveTop {g : Geo α} {oldMass precip aet : α} {N : Nat} {l : List (Front α)} {r : List (Front α) × α × α}
    (hs : Sound N l) (h : moveTop g oldMass precip l aet = .ok r) : Sound N r.1 := by
  obtain ⟨l1, h1, h2⟩ := moveTop_tags h
  exact (hs.cross h1).skel (tag_skel h2)

theorem Sound.moveMain {fuel : Nat} {g : Geo α} {dt oldMass precip : α} {nFd N : Nat} {prev l : List (Front α)} {aet : α}
    {r : List (Front α) × α × α} (hs : Sound N l)
    (h : moveMain fuel g dt oldMass precip nFd prev l aet = .ok r) : Sound N r.1 := by
  unfold LGAR.moveMain at h
  split at h
  · simp only [Except.ok.injEq] at h; subst h; exact hs
  · simp only [bind_ok_iff, Prod.exists] at h
    obtain ⟨l1, aet1, h1, h⟩ := h
    exact (hs.moveOnes h1).moveTop h

/-- The lists passed from step to step after the main loop. -/
theorem movePost_inv {g : Geo α} {l : List (Front α)} {aet flux : α} {r : List (Front α) × α × α}
    (h : movePost g l aet flux = .ok r) :
    ∃ l1 mc1 l2 l3 l4 mc4 l5 column fl l6 l7 mc7 l8, checkFix g 0 l = .ok (l1, mc1) ∧ mergeFronts g l1 = .ok l2 ∧
      crossLayer g l2 = .ok l3 ∧ checkFix g mc1 l3 = .ok (l4, mc4) ∧ mergeFronts g l4 = .ok l5 ∧
      g.cum[g.numLayers]? = some column ∧ crossDomain g column l5 = .ok (fl, l6) ∧
      checkFix g mc4 l6 = .ok (l7, mc7) ∧ refresh g l7 = .ok l8 ∧ fixSingle g l8 = .ok r.1 ∧
      r.2.1 = (if (1.0e-7 : α) < CMath.fabs mc7 then aet - mc7 else aet) ∧ r.2.2 = flux + fl := by
  unfold movePost at h
  simp only [bind_ok_iff, Prod.exists, idx_ok_iff] at h
  obtain ⟨l1, mc1, h1, l2, h2, l3, h3, l4, mc4, h4, l5, h5, column, hc, fl, l6, h6, l7, mc7, h7, l8, h8, l9, h9, h⟩ := h
  simp only [pure_eq_ok, Except.ok.injEq] at h
  subst h
  exact ⟨l1, mc1, l2, l3, l4, mc4, l5, column, fl, l6, l7, mc7, l8, h1, h2, h3, h4, h5, hc, h6, h7, h8, h9, rfl, rfl⟩

theorem Sound.movePost {g : Geo α} {N : Nat} {l : List (Front α)} {aet flux : α} {r : List (Front α) × α × α}
    (hs : Sound N l) (h : movePost g l aet flux = .ok r) : Sound N r.1 := by
  obtain ⟨l1, mc1, l2, l3, l4, mc4, l5, column, fl, l6, l7, mc7, l8, h1, h2, h3, h4, h5, _, h6, h7, h8, h9, _, _⟩ :=
    movePost_inv h
  have s5 : Sound N l5 := ((((hs.checkFix h1).merge h2).cross h3).checkFix h4).merge h5
  exact (((s5.domain h6).checkFix h7).skel (refresh_skel h8)).skel (fixSingle_skel h9)

theorem Sound.moveFronts {fuel : Nat} {g : Geo α} {dt oldMass precip : α} {nFd N : Nat} {prev l : List (Front α)}
    {aet : α} {r : List (Front α) × α × α} (hs : Sound N l)
    (h : moveFronts fuel g dt precip nFd oldMass aet prev l = .ok r) : Sound N r.1 := by
  unfold LGAR.moveFronts at h
  simp only [bind_ok_iff, Prod.exists] at h
  obtain ⟨l1, aet1, fl, h1, h⟩ := h
  exact (hs.moveMain h1).movePost h

end Free
end LGAR
