import Verif.Lemmas.RunSafe
import Verif.Lemmas.Bounded
/-
When no front of layer 1 is drained below the residual moisture, and what the move does to the ET demand.
-/
set_option linter.unusedSectionVars false
namespace LGAR

section Exact
variable {K : Type} [Field K] [LinearOrder K] [IsStrictOrderedRing K] [CMath K] [LawfulNum K]

theorem thetaMassBalance_aet {fuel : Nat} {g : Geo K} {layer : Nat} {s : SoilProps K} {psi newMass prior aet : K}
    {dTheta dThick : List K} {r : Option K × K}
    (h : thetaMassBalance fuel g layer s psi newMass prior aet dTheta dThick = .ok r) : r.2 ≤ max aet 0 := by
  unfold thetaMassBalance at h
  dsimp only at h
  split at h
  · simp only [bind_ok_iff, pure_eq_ok, Except.ok.injEq] at h
    obtain ⟨_, _, rfl⟩ := h
    exact le_max_left _ _
  · simp only [bind_ok_iff] at h
    obtain ⟨e, _, h⟩ := h
    split at h
    · simp only [pure_eq_ok, Except.ok.injEq] at h
      subst h; exact le_max_left _ _
    · rename_i st _
      simp only [pure_eq_ok, Except.ok.injEq] at h
      subst h
      simp only
      split
      · exact le_max_right _ _
      · split
        · refine le_trans ?_ (le_max_left _ _)
          rw [fabs_eq]
          have := abs_nonneg (st.deltaMass - 1e-12)
          linarith
        · exact le_max_left _ _

theorem moveDeepest_aet {fuel : Nat} {g : Geo K} {dt precip aet : K} {isFd : Bool} {c old : Front K} {s : SoilProps K}
    {r : Front K × K} (h : moveDeepest fuel g dt precip isFd c old s aet = .ok r) : r.2 ≤ max aet 0 := by
  unfold moveDeepest at h
  simp only [bind_ok_iff, Prod.exists, pure_eq_ok, Except.ok.injEq] at h
  obtain ⟨_, _, _, _, th, aet', ht, _, _, rfl⟩ := h
  exact thetaMassBalance_aet ht

theorem moveInner_aet {fuel : Nat} {g : Geo K} {dt precip aet : K} {isFd : Bool} {c n old oldNext oldSucc : Front K}
    {s : SoilProps K} {r : Front K × K} (h : moveInner fuel g dt precip isFd c n old oldNext oldSucc s aet = .ok r) :
    r.2 ≤ max aet 0 := by
  unfold moveInner at h
  simp only [bind_ok_iff, Prod.exists, pure_eq_ok, Except.ok.injEq] at h
  obtain ⟨_, _, _, _, th, aet', ht, rfl⟩ := h
  exact thetaMassBalance_aet ht

theorem moved_aet {fuel : Nat} {g : Geo K} {dt precip aet aet' : K} {nFd n wf : Nat} {olds l : List (Front K)} {c c' : Front K}
    (h : Moved fuel g dt precip nFd n wf olds l aet c c' aet') : aet' ≤ max aet 0 := by
  cases h with
  | boundary => exact le_max_left _ _
  | top => exact le_max_left _ _
  | inner s nx old oldNext oldSucc c1 psi aet' hs hwf hnx hl h1 hold holdn holds hm hpsi => exact moveInner_aet hm
  | deepest s old c1 aet' hs hwf hn hold hm => exact moveDeepest_aet hm
  | same => exact le_max_left _ _

/-- The main loop never raises the ET demand (a negative one may become 0). -/
theorem moveOnes_aet {fuel : Nat} {g : Geo K} {dt precip : K} {nFd n : Nat} {prev : List (Front K)} :
    ∀ {wf : Nat} {l : List (Front K)} {aet : K} {r : List (Front K) × K}, NumFrom 1 l → n = l.length → wf ≤ n →
      moveOnes fuel g dt precip nFd n prev wf l aet = .ok r → r.2 ≤ max aet 0
  | 0, l, aet, r, _, _, _, h => by simp [moveOnes] at h; subst h; exact le_max_left _ _
  | wf + 1, l, aet, r, hn, hl, hw, h => by
    unfold moveOnes at h
    simp only [bind_ok_iff, Prod.exists] at h
    obtain ⟨l1, aet1, h1, h⟩ := h
    obtain ⟨c, c', hc, hl1, hm⟩ := moveOne_cases hn hl (by omega) hw h1
    simp only at hl1
    have ht : l1.map Front.tag = l.map Front.tag := by rw [hl1]; exact set_tags hc hm.tag_eq
    refine (moveOnes_aet (tags_num ht hn) (by rw [hl, hl1]; simp) (by omega) h).trans ?_
    exact max_le (moved_aet hm) (le_max_right _ _)

variable [LawfulPow K]

theorem topHolds_iff {g : Geo K} {dt precip aet : K} {nFd : Nat} {l : List (Front K)} : TopHolds g dt precip aet nFd l ↔
    ∀ i c n column, l[i]? = some c → l[i + 1]? = some n → c.layer = 1 → n.layer = 1 → g.cum[g.numLayers]? = some column →
      0 < min (c.depth + c.dzdt * dt) column ∧
        0 ≤ c.depth * (c.theta - n.theta) + (if nFd = i + 1 then precip - max aet 0 else 0) := by
  unfold TopHolds
  simp only [fmin_eq, fmax_eq]

theorem neverDrained {fuel : Nat} {g : Geo K} {dt precip aet0 : K} {nFd n : Nat} {l0 : List (Front K)} (hp : PhysGeo g)
    (hne : l0 ≠ []) (ht : TopHolds g dt precip aet0 nFd l0) : ∀ {wf : Nat} {l : List (Front K)} {aet : K}, NumFrom 1 l →
      n = l.length → l.length = l0.length → wf ≤ n → (∀ f ∈ l, 1 ≤ f.layer ∧ Bounded g f) → (∀ j, j < wf → l[j]? = l0[j]?) →
      l.map Front.tag = l0.map Front.tag →
      aet ≤ max aet0 0 → NeverDrained fuel g dt precip nFd n l0 wf l aet
  | 0, _, _, _, _, _, _, _, _, _, _ => trivial
  | wf + 1, l, aet, hn, hl, hl0, hw, hb, hj, htag, ha => by
    refine ⟨?_, ?_⟩
    · intro column c nx s old oldNext hcol hc hnx hs hlay h1 hold holdn hm
      simp only [Nat.add_sub_cancel] at hc hold
      rw [if_neg (by simpa using hne)] at hold holdn
      rw [hj wf (by omega)] at hc
      have e : c = old := by rw [hc] at hold; exact Option.some.inj hold
      subst e
      have hln : oldNext.layer = nx.layer := by
        have e := congrArg (fun x => x[wf + 1]?) htag
        simp only [List.getElem?_map, hnx, holdn, Option.map_some, Option.some.injEq] at e
        exact (Front.tag_eq e).1.symm
      obtain ⟨t1, t2⟩ := topHolds_iff.mp ht wf c oldNext column hc holdn h1 (by rw [hln, hlay, h1]) hcol
      unfold moveTopLayer at hm
      dsimp only at hm
      split at hm
      · simp at hm
      · simp only [bind_ok_iff, cdiv_ok] at hm
        obtain ⟨q, ⟨_, rfl⟩, hm⟩ := hm
        obtain ⟨s', hs', b1, _⟩ := (hb nx (List.mem_of_getElem? hnx)).2
        rw [hlay, hs, Except.ok.injEq] at hs'
        subst hs'
        rw [fmin_eq] at hm
        split at hm
        · rename_i hf
          rw [if_pos (by simpa using hf)] at t2
          split at hm
          · rename_i hq
            have h0 : 0 ≤ c.depth * (c.theta - oldNext.theta) + (precip - (0 + aet)) := by linarith
            have := div_nonneg h0 t1.le
            linarith
          · simp at hm
        · rename_i hf
          rw [if_neg (by simpa using hf)] at t2
          split at hm
          · rename_i hq
            have h0 : 0 ≤ c.depth * (c.theta - oldNext.theta) := by linarith
            have := div_nonneg h0 t1.le
            linarith
          · simp at hm
    · cases h : moveOne fuel g dt precip nFd n (wf + 1) l0 l aet with
      | error e => trivial
      | ok r =>
        obtain ⟨c, c', hc, hl1, hm⟩ := moveOne_cases hn hl (by omega) hw h
        have htg : r.1.map Front.tag = l.map Front.tag := by rw [hl1]; exact set_tags hc hm.tag_eq
        have hlen : r.1.length = l.length := by rw [hl1]; simp
        refine neverDrained hp hne ht (tags_num htg hn) (by rw [hlen]; exact hl) (by rw [hlen]; exact hl0) (by omega) ?_ ?_
          (by rw [htg]; exact htag) ((moved_aet hm).trans (max_le ha (le_max_right _ _)))
        · intro f hf
          rw [hl1] at hf
          rcases List.mem_or_eq_of_mem_set hf with hf | rfl
          · exact hb f hf
          · exact moved_bounded hp hb (List.mem_of_getElem? hc) hm
        · intro j hjw
          rw [hl1, List.getElem?_set, if_neg (by simp; omega)]
          exact hj j (by omega)

theorem fine_never {fuel : Nat} {g : Geo K} {dt precip aet : K} {nFd : Nat} {l : List (Front K)} (hp : PhysGeo g)
    (hf : Fine g l) (ht : TopHolds g dt precip aet nFd l) :
    NeverDrained fuel g dt precip nFd l.length l l.length l aet :=
  neverDrained hp hf.good.col.ne_nil ht hf.good.sound.num rfl rfl le_rfl hf.layer (fun _ _ => rfl) rfl (le_max_left _ _)

theorem Res.Holds.mono {β : Type} {x : Res β} {p q : β → Prop} (h : Res.Holds x p) (hpq : ∀ b, p b → q b) :
    Res.Holds x q := by
  cases x with
  | ok b => exact hpq b h
  | error => trivial

theorem step_undrained {c : StepCfg K} {s : SubSt K} (hp : PhysGeo c.geo) (hf : Fine c.geo s.head) (h : StepHolds c s) :
    StepUndrained c s := by
  unfold StepUndrained
  refine Res.Holds.mono h fun aet h => ?_
  refine Res.Holds.mono h fun h0 h => ?_
  refine Res.Holds.mono h fun hs h => ?_
  unfold FlowHolds at h
  unfold FlowUndrained
  split
  · rename_i e; rw [if_pos e] at h; exact fine_never hp hf h
  · rename_i e; rw [if_neg e] at h; exact Res.Holds.mono h fun _ h => fine_never hp hf h

theorem loop_undrained {c : StepCfg K} (hp : PhysGeo c.geo) (hinc : c.geo.cum.Pairwise (· < ·)) : ∀ {n : Nat} {s : SubSt K},
    Fine c.geo s.head → (c.geo.numLayers = 1 ∨ LoopTieFree c n s) → LoopHolds c n s → LoopUndrained c n s
  | 0, _, _, _, _ => trivial
  | n + 1, s, hf, ht, h => by
    refine ⟨step_undrained hp hf h.1, ?_⟩
    cases e : subStep c s with
    | error => trivial
    | ok s' =>
      exact loop_undrained hp hinc (hf.subStep hp hinc (ht.imp_right fun t => t.1) e) (ht.imp_right fun t => t.2.of_ok e)
        (h.2.of_ok e)

theorem update_undrained {fuel : Nat} {sa : Bool} {s : State K} (hp : PhysGeo s.geo) (hinc : s.p.cum.Pairwise (· < ·))
    (hf : Fine s.geo s.head) (hc : s.p.calibFlag = false) (ht : s.p.numLayers = 1 ∨ UpdateTieFree fuel sa s)
    (h : UpdateHolds fuel sa s) : UpdateUndrained fuel sa s := by
  unfold UpdateUndrained
  cases h1 : updatePre s with
  | error => trivial
  | ok r =>
    obtain ⟨s1, d⟩ := r
    have e := h1
    obtain ⟨_, _, fs, soils, l, fc, pm, q, _, e, _, hcal⟩ := updatePre_inv e
    rcases hcal with ⟨hc', _⟩ | ⟨_, _, _, rfl, rfl, _⟩
    · rw [hc] at hc'; simp at hc'
    show Res.Holds (massBal s1.p.cum s1.head) _
    cases h2 : massBal s1.p.cum s1.head with
    | error => trivial
    | ok v =>
      show LoopUndrained _ _ _
      refine loop_undrained (c := stepCfg fuel sa s1) ?_ ?_ ?_
        ((ht.imp_right fun t => (t.of_ok h1).of_ok h2).imp_left fun e' => by show s1.p.numLayers = 1; rw [e]; exact e')
        ((h.of_ok h1).of_ok h2)
      · subst e; exact fun k s' hk hs => hp k s' hk hs
      · show s1.p.cum.Pairwise _
        rw [e]; exact hinc
      · subst e; exact Fine.geo (g := s.geo) hf rfl rfl rfl rfl

end Exact
end LGAR
