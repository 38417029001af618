import Verif.Spec.Ties
import Verif.Lemmas.Balance
/-
The column structure through lgar_move_wetting_fronts, a subcycle and an Update, when no stray front lies on an inner layer
bottom at a crossing.
-/
set_option linter.unusedSectionVars false
namespace LGAR

theorem Res.Holds.of_ok {β : Type} {x : Res β} {p : β → Prop} {b : β} (h : Res.Holds x p) (hx : x = .ok b) : p b := by
  subst hx; exact h

section LawFree
variable {α : Type} [Add α] [Sub α] [Mul α] [Div α] [Neg α] [Zero α] [One α] [OfScientific α]
  [LT α] [LE α] [DecidableLT α] [DecidableLE α] [BEq α] [CMath α]

/-- What the structure depends on: layer, flag, and the depth of flagged fronts. -/
def Front.mark (f : Front α) : Nat × Bool × Option α := (f.layer, f.toBottom, if f.toBottom = true then some f.depth else none)

theorem Front.mark_eq {f f' : Front α} : f'.mark = f.mark ↔
    f'.layer = f.layer ∧ f'.toBottom = f.toBottom ∧ (f.toBottom = true → f'.depth = f.depth) := by
  simp only [Front.mark, Prod.mk.injEq]
  constructor
  · rintro ⟨h1, h2, h3⟩
    refine ⟨h1, h2, fun h => ?_⟩
    rw [h2, if_pos h, if_pos h] at h3
    exact Option.some.inj h3
  · rintro ⟨h1, h2, h3⟩
    refine ⟨h1, h2, ?_⟩
    rw [h2]
    by_cases h : f.toBottom = true
    · rw [if_pos h, if_pos h, h3 h]
    · rw [if_neg h, if_neg h]

theorem col_marks {N s : Nat} {cum : List α} : ∀ {l l' : List (Front α)},
    l'.map Front.mark = l.map Front.mark → Col N cum s l → Col N cum s l'
  | [], [], _, h => h
  | [], _ :: _, e, _ => by simp at e
  | _ :: _, [], e, _ => by simp at e
  | [f], [f'], e, h => by
    simp only [List.map_cons, List.map_nil, List.cons.injEq, and_true] at e
    obtain ⟨e1, e2, e3⟩ := Front.mark_eq.mp e
    rw [col_single_iff] at h ⊢
    rw [e1, e2, e3 h.2.2.1]; exact h
  | [_], _ :: _ :: _, e, _ => by simp at e
  | _ :: _ :: _, [_], e, _ => by simp at e
  | f :: g :: t, f' :: g' :: t', e, h => by
    have e' := e
    simp only [List.map_cons, List.cons.injEq] at e
    obtain ⟨e1, e2, e3⟩ := Front.mark_eq.mp e.1
    obtain ⟨e4, _, _⟩ := Front.mark_eq.mp e.2.1
    rw [col_cons_iff] at h ⊢
    rw [e1, e2, e4]
    refine ⟨h.1, h.2.1, h.2.2.1, fun hb => by rw [e3 hb]; exact h.2.2.2.1 hb, ?_⟩
    refine col_marks (l := g :: t) ?_ h.2.2.2.2
    simp only [List.map_cons, List.cons.injEq] at e' ⊢
    exact e'.2

theorem set_marks {l : List (Front α)} {i : Nat} {c c' : Front α} (hc : l[i]? = some c) (h : c'.mark = c.mark) :
    (l.set i c').map Front.mark = l.map Front.mark := by
  rw [List.map_set, h]
  apply List.ext_getElem?
  intro j
  rw [List.getElem?_set]
  split
  · rename_i hij
    subst hij
    have hi := (List.getElem?_eq_some_iff.mp hc).1
    rw [if_pos (by simpa using hi)]
    simp [hc]
  · rfl

/-- Two neighbours of one layer: the upper one is not flagged. -/
theorem Col.not_flagged {N s : Nat} {cum : List α} {l : List (Front α)} (h : Col N cum s l) {i : Nat} {f n : Front α}
    (hf : l[i]? = some f) (hn : l[i + 1]? = some n) (hl : f.layer = n.layer) : f.toBottom = false := by
  obtain ⟨a, b, rfl, rfl⟩ := split2 hf hn
  have := h.suffix
  rw [col_cons_iff] at this
  cases hb : f.toBottom
  · rfl
  · exact absurd hl (this.2.2.1.mp hb)

theorem freeDrainageGo_spec : ∀ (k : Nat) (l : List (Front α)), l ≠ [] →
    k ≤ freeDrainageGo k l ∧ freeDrainageGo k l < k + l.length ∧
      ∀ w, l[freeDrainageGo k l - k]? = some w →
        (∃ n, l[freeDrainageGo k l - k + 1]? = some n ∧ w.layer = n.layer) ∨ l.getLast? = some w
  | k, [], h => absurd rfl h
  | k, [f], _ => by
    refine ⟨le_refl _, by simp [freeDrainageGo], ?_⟩
    intro w hw
    simp only [freeDrainageGo, Nat.sub_self, List.getElem?_cons_zero, Option.some.injEq] at hw
    subst hw; right; rfl
  | k, f :: n :: t, _ => by
    unfold freeDrainageGo
    split
    · rename_i hl
      refine ⟨le_refl _, by simp, ?_⟩
      intro w hw
      simp only [Nat.sub_self, List.getElem?_cons_zero, Option.some.injEq] at hw
      subst hw
      left; exact ⟨n, by simp, hl⟩
    · obtain ⟨h1, h2, h3⟩ := freeDrainageGo_spec (k + 1) (n :: t) (by simp)
      refine ⟨by omega, by simp only [List.length_cons] at h2 ⊢; omega, ?_⟩
      intro w hw
      have e : freeDrainageGo (k + 1) (n :: t) - k = (freeDrainageGo (k + 1) (n :: t) - (k + 1)) + 1 := by omega
      rw [e, List.getElem?_cons_succ] at hw
      rw [e, List.getElem?_cons_succ]
      rcases h3 w hw with h | h
      · exact .inl h
      · right; rw [List.getLast?_cons_cons]; exact h

/-- The front number of wetting_front_free_drainage: it exists, and either the front below is in the same layer or it is the
deepest front. -/
theorem freeDrainage_spec {l : List (Front α)} (hne : l ≠ []) :
    1 ≤ wettingFrontFreeDrainage l ∧ wettingFrontFreeDrainage l ≤ l.length ∧
      ∀ w, l[wettingFrontFreeDrainage l - 1]? = some w →
        (∃ n, l[wettingFrontFreeDrainage l]? = some n ∧ w.layer = n.layer) ∨ l.getLast? = some w := by
  obtain ⟨h1, h2, h3⟩ := freeDrainageGo_spec 1 l hne
  have e : wettingFrontFreeDrainage l = freeDrainageGo 1 l := by
    unfold wettingFrontFreeDrainage
    simp only
    rw [if_neg (by omega)]
  rw [e]
  refine ⟨h1, by omega, ?_⟩
  intro w hw
  have := h3 w hw
  rwa [Nat.sub_add_cancel h1] at this

end LawFree

section Exact
variable {K : Type} [Field K] [LinearOrder K] [IsStrictOrderedRing K] [CMath K] [LawfulNum K]

/-- Structure, numbering and deepest front. -/
structure Good (g : Geo K) (l : List (Front K)) : Prop where
  sound : Sound g.numLayers l
  col : Col g.numLayers g.cum 1 l

theorem moved_mark {fuel : Nat} {g : Geo K} {dt precip : K} {nFd n wf : Nat} {olds l : List (Front K)} {aet aet' : K}
    {c c' : Front K} (hg : Good g l) (hlen : n = l.length) (h1 : 1 ≤ wf) (hc : l[wf - 1]? = some c)
    (h : Moved fuel g dt precip nFd n wf olds l aet c c' aet') : c'.mark = c.mark := by
  have ht := Front.tag_eq h.tag_eq
  rw [Front.mark_eq]
  refine ⟨ht.1, ht.2.2.1, fun hb => ?_⟩
  have hnot : ∀ nx, l[wf]? = some nx → nx.layer = c.layer → False := by
    intro nx hnx hl
    have := hg.col.not_flagged hc (n := nx) (by rw [Nat.sub_add_cancel h1]; exact hnx) hl.symm
    rw [hb] at this; exact absurd this (by simp)
  cases h with
  | boundary => rfl
  | top s nx old oldNext c1 column psi hs hwf hnx hl h1 hcol hold holdn hm hpsi => exact (hnot nx hnx hl).elim
  | inner s nx old oldNext oldSucc c1 psi aet' hs hwf hnx hl h1 hold holdn holds hm hpsi => exact (hnot nx hnx hl).elim
  | deepest s old c1 aet' hs hwf hn hold hm =>
    obtain ⟨f, hf, _, _, hz⟩ := hg.sound.last
    have e : f = c := by
      rw [List.getLast?_eq_getElem?] at hf
      rw [← hlen, ← hwf, hc] at hf
      exact (Option.some.inj hf).symm
    subst e
    rw [(moveDeepest_tag hm).2.1, hz, zero_mul, add_zero]
  | same => rfl

theorem moveOnes_good {fuel : Nat} {g : Geo K} {dt precip : K} {nFd n : Nat} {prev : List (Front K)} :
    ∀ {wf : Nat} {l : List (Front K)} {aet : K} {r : List (Front K) × K}, Good g l → n = l.length → wf ≤ n →
      moveOnes fuel g dt precip nFd n prev wf l aet = .ok r → Good g r.1
  | 0, l, aet, r, hg, _, _, h => by simp [moveOnes] at h; subst h; exact hg
  | wf + 1, l, aet, r, hg, hl, hw, h => by
    unfold moveOnes at h
    simp only [bind_ok_iff, Prod.exists] at h
    obtain ⟨l1, aet1, h1, h⟩ := h
    obtain ⟨c, c', hc, hl1, hm⟩ := moveOne_cases hg.sound.num hl (by omega) hw h1
    simp only at hl1
    have hg1 : Good g l1 := by
      refine ⟨hg.sound.skel (tag_skel (by rw [hl1]; exact set_tags hc hm.tag_eq)), ?_⟩
      exact col_marks (by rw [hl1]; exact set_marks hc (moved_mark hg hl (by omega) hc hm)) hg.col
    exact moveOnes_good hg1 (by rw [hl, hl1]; simp) (by omega) h

theorem Good.cross {g : Geo K} {l l' : List (Front K)} (hg : Good g l) (ht : g.numLayers = 1 ∨ NoStrayAtBottom g.numLayers g.cum l)
    (h : crossLayer g l = .ok l') : Good g l' := by
  refine ⟨hg.sound.cross h, crossLayer_col hg.col ?_ h⟩
  intro j f hj hf hb hN
  obtain ⟨i, rfl⟩ : ∃ i, j = i + 1 := ⟨j - 1, by omega⟩
  rcases ht with h1 | ht
  · have := hg.col.range f (List.mem_of_getElem? hf)
    omega
  · exact ht i f hf hb hN

theorem Good.merge {g : Geo K} {l l' : List (Front K)} (hg : Good g l) (h : mergeFronts g l = .ok l') : Good g l' :=
  ⟨hg.sound.merge h, mergeFronts_col hg.sound.num hg.col h⟩

theorem Good.checkFix {g : Geo K} {mc : K} {l : List (Front K)} {r : List (Front K) × K} (hg : Good g l)
    (h : checkFix g mc l = .ok r) : Good g r.1 := by
  refine ⟨hg.sound.checkFix h, ?_⟩
  rcases checkFix_inv h with rfl | h
  · exact hg.col
  · exact fixDry_col hg.sound.num hg.col h

theorem Good.domain {g : Geo K} {dom : K} {l : List (Front K)} {r : K × List (Front K)} (hg : Good g l)
    (hinc : g.cum.Pairwise (· < ·)) (hdom : g.cum[g.numLayers]? = some dom)
    (h : crossDomain g dom l = .ok r) : Good g r.2 := by
  refine ⟨hg.sound.domain h, crossDomain_col hg.sound.num hg.col ?_ h⟩
  intro f hf hb hN
  have h1 := hg.col.depths f hf hb
  have h2 := hg.col.range f hf
  rw [List.getElem?_eq_some_iff] at h1 hdom
  obtain ⟨i1, e1⟩ := h1
  obtain ⟨i2, e2⟩ := hdom
  have := List.pairwise_iff_getElem.mp hinc f.layer g.numLayers i1 i2 (by omega)
  rw [e1, e2] at this
  exact not_le.mpr this

theorem Good.moveTop {g : Geo K} {oldMass precip aet : K} {l : List (Front K)} {r : List (Front K) × K × K}
    (hg : Good g l) (ht : g.numLayers = 1 ∨ NoStrayAtBottom g.numLayers g.cum l) (h : moveTop g oldMass precip l aet = .ok r) :
    Good g r.1 := by
  refine ⟨hg.sound.moveTop h, ?_⟩
  obtain ⟨l1, column, h1, hcol, h2⟩ := moveTop_inv h
  have hg1 := hg.cross ht h1
  rcases h2 with h2 | ⟨p, w, d, hp, hw, h2, hd⟩
  · rw [h2]; exact hg1.col
  · rw [h2]
    refine col_marks (set_marks hw ?_) hg1.col
    rw [Front.mark_eq]
    refine ⟨rfl, rfl, fun hb => ?_⟩
    show d = w.depth
    obtain ⟨f1, f2, f3⟩ := freeDrainage_spec hg1.col.ne_nil
    rw [find_num hg1.sound.num f1 f2, Option.some.injEq] at hp
    subst hp
    rcases f3 w hw with ⟨n, hn, hl⟩ | hlast
    · have := hg1.col.not_flagged hw (n := n) (by rw [Nat.sub_add_cancel f1]; exact hn) hl
      rw [hb] at this; exact absurd this (by simp)
    · obtain ⟨a, f, e, e1, e2, e3⟩ := hg1.col.last
      have e4 : f = w := by rw [e] at hlast; simpa using hlast
      subst e4
      rcases hd hb e1 with hd | hd
      · exact hd
      · rw [hcol, Option.some.injEq] at e3
        rw [hd, e3]

theorem Good.movePost {g : Geo K} {l : List (Front K)} {aet flux : K} {r : List (Front K) × K × K} (hg : Good g l)
    (hinc : g.cum.Pairwise (· < ·))
    (ht : g.numLayers = 1 ∨ Res.Holds (LGAR.checkFix g 0 l) fun (l3, _) => Res.Holds (mergeFronts g l3) fun l4 =>
      NoStrayAtBottom g.numLayers g.cum l4)
    (h : movePost g l aet flux = .ok r) : Good g r.1 := by
  refine ⟨hg.sound.movePost h, ?_⟩
  obtain ⟨l1, mc1, l2, l3, l4, mc4, l5, column, fl, l6, l7, mc7, l8, h1, h2, h3, h4, h5, hcol, h6, h7, h8, h9, _, _⟩ :=
    movePost_inv h
  have g2 : Good g l2 := (hg.checkFix h1).merge h2
  have g3 : Good g l3 := g2.cross (ht.imp_right fun t => (t.of_ok h1).of_ok h2) h3
  have g5 : Good g l5 := (g3.checkFix h4).merge h5
  have g7 : Good g l7 := (g5.domain hinc hcol h6).checkFix h7
  have c8 : Col g.numLayers g.cum 1 l8 := by
    refine col_congr ?_ g7.col
    have := congrArg (List.map (fun x : K × K × Nat × Int × Bool × K => (x.1, x.2.2.1, x.2.2.2.2.1))) (refresh_inv h8)
    rw [List.map_map, List.map_map] at this
    exact this.symm
  rcases fixSingle_inv h9 with e | ⟨f, c1, e, hc1, hne, _⟩
  · rw [e]; exact c8
  · rw [e, col_single_iff] at c8
    obtain ⟨e1, e2, _, e4⟩ := c8
    rw [e1, hc1, Option.some.injEq] at e4
    rw [e4] at hne
    simp at hne

theorem Good.moveFronts {fuel : Nat} {g : Geo K} {dt oldMass precip : K} {nFd : Nat} {prev l : List (Front K)}
    {aet : K} {r : List (Front K) × K × K} (hg : Good g l) (hinc : g.cum.Pairwise (· < ·))
    (ht : g.numLayers = 1 ∨ MoveTieFree fuel g dt precip nFd oldMass aet prev l)
    (h : moveFronts fuel g dt precip nFd oldMass aet prev l = .ok r) : Good g r.1 := by
  unfold LGAR.moveFronts at h
  simp only [bind_ok_iff, Prod.exists] at h
  obtain ⟨l1, aet1, fl, h1, h⟩ := h
  unfold moveMain at h1
  rw [if_neg (by simpa using hg.col.ne_nil)] at h1
  simp only [bind_ok_iff, Prod.exists] at h1
  obtain ⟨l0, aet0, h0, h1⟩ := h1
  have g0 : Good g l0 := moveOnes_good hg rfl le_rfl h0
  exact (g0.moveTop (ht.imp_right fun t => (t.of_ok h0).1) h1).movePost hinc
    (ht.imp_right fun t => (t.of_ok h0).2.of_ok h1) h

theorem Good.create {g : Geo K} {ponded dry theta1 : K} {l : List (Front K)} {r : K × K × List (Front K)} (hg : Good g l)
    (ht : g.numLayers = 1 ∨ CreateTieFree g ponded dry theta1 l) (h : createSurficial g ponded dry theta1 l = .ok r) : Good g r.2.2 := by
  obtain ⟨l1, h1, h2⟩ := createSurficial_steps h
  obtain ⟨s, thn, Se, psi, Kc, ff, _, _, _, _, _, _, he⟩ := createFront_inv h1
  simp only at he
  have g1 : Good g l1 := by
    rw [he]; exact ⟨hg.sound.push rfl, col_push hg.col rfl rfl⟩
  rcases h2 with ⟨_, h2⟩ | ⟨_, l2, h2, h3⟩
  · rw [h2]; exact g1
  · exact (g1.merge h2).cross (ht.imp_right fun t => (t.of_ok h1).of_ok h2) h3

theorem Good.speed {fuel : Nat} {closed : Bool} {nint : Int} {hp : K} {g : Geo K} {l l' : List (Front K)}
    (hg : Good g l) (h : dzdtCalc fuel closed nint hp g l = .ok l') : Good g l' := by
  refine ⟨hg.sound.speed h, col_congr ?_ hg.col⟩
  have e := congrArg (List.map (fun x : K × K × K × K × Nat × Int × Bool => (x.1, x.2.2.2.2.1, x.2.2.2.2.2.2)))
    (dzdtCalc_frame h)
  rw [List.map_map, List.map_map] at e
  exact e.symm

theorem Good.subStep {c : StepCfg K} {s s' : SubSt K} (hg : Good c.geo s.head) (hinc : c.geo.cum.Pairwise (· < ·))
    (ht : c.geo.numLayers = 1 ∨ StepTieFree c s) (h : subStep c s = .ok s') : Good c.geo s'.head := by
  obtain ⟨aet, vs, h0, hsoil, f, l, ve, h1, ha, _, hh0, hhs, hf, hl, _, _, _, _, rfl⟩ := subStep_inv h
  refine Good.speed (l := f.head) ?_ hl
  replace ht := ht.imp_right fun t => ((t.of_ok ha).of_ok (deref_ok_iff.mpr hh0)).of_ok hhs
  unfold FlowTieFree at ht
  unfold LGAR.subFlow at hf
  split at hf
  · rename_i hc
    simp only [if_pos hc] at ht
    obtain ⟨l, flux, dry, d, h0, pd, hm, hd, hh, hcr, _⟩ := flowCreate_inv hf
    have gm := hg.moveFronts hinc (ht.imp_right fun t => t.1) hm
    exact gm.create (ht.imp_right fun t => ((t.2.of_ok hm).of_ok hd).of_ok (deref_ok_iff.mpr hh)) hcr
  · rename_i hc
    simp only [if_neg hc] at ht
    obtain ⟨hsf, hm, _⟩ := flowMove_inv hf
    exact hg.moveFronts hinc (ht.imp_right fun t => t.of_ok hsf) hm

theorem Good.subLoop {c : StepCfg K} (hinc : c.geo.cum.Pairwise (· < ·)) : ∀ {n : Nat} {s s' : SubSt K},
    Good c.geo s.head → (c.geo.numLayers = 1 ∨ LoopTieFree c n s) → subLoop c n s = .ok s' → Good c.geo s'.head
  | 0, s, s', hg, _, h => by simp [LGAR.subLoop] at h; subst h; exact hg
  | n + 1, s, s', hg, ht, h => by
    unfold LGAR.subLoop at h
    simp only [bind_ok_iff] at h
    obtain ⟨s1, h1, h⟩ := h
    have g1 := hg.subStep hinc (ht.imp_right fun t => t.1) h1
    split at h
    · simp only [pure_eq_ok, Except.ok.injEq] at h
      subst h; exact g1
    · exact Good.subLoop hinc g1 (ht.imp_right fun t => t.2.of_ok h1) h

/-- Only numbers of layers and their depths matter. -/
theorem Good.geo {g g' : Geo K} {l : List (Front K)} (hg : Good g l) (h1 : g'.numLayers = g.numLayers) (h2 : g'.cum = g.cum) :
    Good g' l := by
  obtain ⟨a, b⟩ := hg
  rw [← h1] at a
  rw [← h1, ← h2] at b
  exact ⟨a, b⟩

theorem Good.update {fuel : Nat} {sa : Bool} {s s' : State K} (hg : Good s.geo s.head) (hinc : s.p.cum.Pairwise (· < ·))
    (ht : s.p.numLayers = 1 ∨ UpdateTieFree fuel sa s) (h : update fuel sa s = .ok s') : Good s'.geo s'.head := by
  obtain ⟨f1, f2, _⟩ := update_fixed h
  rcases update_inv h with ⟨_, rfl⟩ | ⟨_, s1, d, v, u, h1, hv, hu, h2⟩
  · exact hg.geo rfl rfl
  · obtain ⟨_, _, _, hh, _⟩ := updatePost_inv h2
    rw [hh]
    have ht1 := ht.imp_right fun t => (t.of_ok h1).of_ok hv
    obtain ⟨_, _, fs, soils, l, fc, pm, q, _, e, _, hcal⟩ := updatePre_inv h1
    have hg1 : Good s1.geo s1.head := by
      subst e
      refine Good.geo (g := s.geo) ?_ rfl rfl
      rcases hcal with ⟨_, _, _, hl, _⟩ | ⟨_, _, _, rfl, _⟩
      · refine ⟨hg.sound.skel (updatePre_skel h1), col_congr ?_ hg.col⟩
        have e := congrArg (List.map (fun x : K × K × K × Nat × Int × Bool × K => (x.1, x.2.2.2.1, x.2.2.2.2.2.1)))
          (calibLoop_frame hl).1
        rw [List.map_map, List.map_map] at e
        exact e.symm
      · exact hg
    have hc1 : s1.p.cum = s.p.cum := by subst e; rfl
    have hn1 : s1.p.numLayers = s.p.numLayers := by subst e; rfl
    have := Good.subLoop (c := stepCfg fuel sa s1) (by show s1.p.cum.Pairwise _; rw [hc1]; exact hinc)
      (s := _) (s' := u) (by exact hg1) (ht1.imp_left fun e => by show s1.p.numLayers = 1; rw [hn1, e]) hu
    exact this.geo (by show s'.p.numLayers = s1.p.numLayers; rw [f1, hn1]) (by show s'.p.cum = s1.p.cum; rw [f2, hc1])

end Exact
end LGAR
