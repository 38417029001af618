import Verif.Num.Compare
import Verif.Spec.Anchor
import Verif.Lemmas.ColumnRun
/-
`Anchored` under the passes, without any condition on coincidences.
-/
set_option linter.unusedSectionVars false
namespace LGAR

section LawFree
variable {α : Type} [Add α] [Sub α] [Mul α] [Div α] [Neg α] [Zero α] [One α] [OfScientific α]
  [LT α] [LE α] [DecidableLT α] [DecidableLE α] [BEq α] [CMath α] [Compared α]

theorem Anchored.append {N : Nat} {cum : List α} {b : List (Front α)} : ∀ {a : List (Front α)}, Anchored N cum (a ++ b) →
    Anchored N cum b
  | [], h => h
  | _ :: a, h => Anchored.append (a := a) h.2

theorem Anchored.mem {N : Nat} {cum : List α} : ∀ {l : List (Front α)}, Anchored N cum l → ∀ f ∈ l,
    ∃ a t, l = a ++ f :: t ∧ HeldUp N cum f t ∧ Anchored N cum t
  | [], _, f, hf => by simp at hf
  | x :: l, h, f, hf => by
    rcases List.mem_cons.mp hf with rfl | hf
    · exact ⟨[], l, rfl, h.1, h.2⟩
    · obtain ⟨a, t, e, h1, h2⟩ := Anchored.mem h.2 f hf
      exact ⟨x :: a, t, by rw [e]; rfl, h1, h2⟩

theorem Anchored.range {N : Nat} {cum : List α} {l : List (Front α)} (h : Anchored N cum l) : ∀ f ∈ l, 1 ≤ f.layer ∧ f.layer ≤ N := by
  intro f hf
  obtain ⟨_, _, _, h1, _⟩ := h.mem f hf
  exact ⟨h1.low, h1.high⟩

theorem Anchored.depths {N : Nat} {cum : List α} {l : List (Front α)} (h : Anchored N cum l) : ∀ f ∈ l, f.toBottom = true →
    cum[f.layer]? = some f.depth := by
  intro f hf
  obtain ⟨_, _, _, h1, _⟩ := h.mem f hf
  exact h1.depth

/-- A flagged front of a layer that occurs. -/
theorem Anchored.flagged {N : Nat} {cum : List α} {l : List (Front α)} (h : Anchored N cum l) {f : Front α} (hf : f ∈ l) :
    ∃ x ∈ l, x.layer = f.layer ∧ x.toBottom = true := by
  obtain ⟨a, t, rfl, h1, _⟩ := h.mem f hf
  cases hb : f.toBottom
  · obtain ⟨x, hx, e⟩ := h1.below hb
    exact ⟨x, by simp [hx], e⟩
  · exact ⟨f, by simp, rfl, hb⟩

/-- A front of the layer below one that occurs. -/
theorem Anchored.next_layer {N : Nat} {cum : List α} {l : List (Front α)} (h : Anchored N cum l) {f : Front α} (hf : f ∈ l)
    (hN : f.layer ≠ N) : ∃ x ∈ l, x.layer = f.layer + 1 := by
  obtain ⟨a, t, rfl, h1, _⟩ := h.mem f hf
  obtain ⟨x, hx, e⟩ := h1.deeper hN
  exact ⟨x, by simp [hx], e⟩

theorem Anchored.last {N : Nat} {cum : List α} {l : List (Front α)} (h : Anchored N cum l) (hne : l ≠ []) :
    ∃ a f, l = a ++ [f] ∧ f.layer = N ∧ f.toBottom = true ∧ cum[N]? = some f.depth := by
  rcases List.eq_nil_or_concat l with rfl | ⟨a, f, rfl⟩
  · exact absurd rfl hne
  · rw [List.concat_eq_append] at h ⊢
    obtain ⟨h1, _⟩ := h.append (b := [f])
    have hb : f.toBottom = true := by
      cases hb : f.toBottom
      · obtain ⟨_, hx, _⟩ := h1.below hb; simp at hx
      · rfl
    have hN : f.layer = N := by
      by_contra hN
      obtain ⟨_, hx, _⟩ := h1.deeper hN; simp at hx
    exact ⟨a, f, rfl, hN, hb, by rw [← hN]; exact h1.depth hb⟩

/-- Two neighbours of one layer: the upper one is not flagged. -/
theorem Anchored.not_flagged {N : Nat} {cum : List α} {l : List (Front α)} (h : Anchored N cum l) {i : Nat} {f n : Front α}
    (hf : l[i]? = some f) (hn : l[i + 1]? = some n) (hl : f.layer = n.layer) : f.toBottom = false := by
  obtain ⟨a, b, rfl, rfl⟩ := split2 hf hn
  obtain ⟨h1, _⟩ := h.append (b := f :: n :: b)
  cases hb : f.toBottom
  · rfl
  · exact absurd hl.symm (h1.next hb n rfl)

/-- What a front of `u` gives the fronts above it, a front of `v` gives, too. -/
structure Covers (u v : List (Front α)) : Prop where
  head : u.head?.map Front.layer = v.head?.map Front.layer
  flag : ∀ g ∈ u, g.toBottom = true → ∃ g' ∈ v, g'.layer = g.layer ∧ g'.toBottom = true
  layer : ∀ g ∈ u, ∃ g' ∈ v, g'.layer = g.layer

theorem HeldUp.covers {N : Nat} {cum : List α} {f : Front α} {u v : List (Front α)} (h : HeldUp N cum f u) (hc : Covers u v) :
    HeldUp N cum f v where
  low := h.low
  high := h.high
  depth := h.depth
  next hb g hg := by
    have e := hc.head
    rw [hg] at e
    cases hu : u.head? with
    | none => rw [hu] at e; simp at e
    | some x =>
      rw [hu] at e
      simp only [Option.map_some, Option.some.injEq] at e
      rw [← e]; exact h.next hb x hu
  below hb := by
    obtain ⟨g, hg, e1, e2⟩ := h.below hb
    obtain ⟨g', hg', e3, e4⟩ := hc.flag g hg e2
    exact ⟨g', hg', by rw [e3, e1], e4⟩
  deeper hN := by
    obtain ⟨g, hg, e1⟩ := h.deeper hN
    obtain ⟨g', hg', e3⟩ := hc.layer g hg
    exact ⟨g', hg', by rw [e3, e1]⟩

theorem Covers.cons {u v : List (Front α)} (h : Covers u v) (x : Front α) : Covers (x :: u) (x :: v) where
  head := rfl
  flag g hg hb := by
    rcases List.mem_cons.mp hg with rfl | hg
    · exact ⟨g, by simp, rfl, hb⟩
    · obtain ⟨g', h1, h2⟩ := h.flag g hg hb
      exact ⟨g', by simp [h1], h2⟩
  layer g hg := by
    rcases List.mem_cons.mp hg with rfl | hg
    · exact ⟨g, by simp, rfl⟩
    · obtain ⟨g', h1, h2⟩ := h.layer g hg
      exact ⟨g', by simp [h1], h2⟩

theorem Covers.prepend {u v : List (Front α)} (h : Covers u v) : ∀ a : List (Front α), Covers (a ++ u) (a ++ v)
  | [] => h
  | x :: a => (Covers.prepend h a).cons x

/-- Replacing the lower part of a column. -/
theorem Anchored.replace {N : Nat} {cum : List α} {u v : List (Front α)} (hc : Covers u v) : ∀ {a : List (Front α)},
    Anchored N cum (a ++ u) → Anchored N cum v → Anchored N cum (a ++ v)
  | [], _, h => h
  | _ :: a, h, h' => ⟨h.1.covers (hc.prepend a), Anchored.replace hc (a := a) h.2 h'⟩

theorem anchored_marks {N : Nat} {cum : List α} : ∀ {l l' : List (Front α)}, l'.map Front.mark = l.map Front.mark →
    Anchored N cum l → Anchored N cum l'
  | [], [], _, h => h
  | [], _ :: _, e, _ => by simp at e
  | _ :: _, [], e, _ => by simp at e
  | f :: t, f' :: t', e, h => by
    simp only [List.map_cons, List.cons.injEq] at e
    obtain ⟨e1, e2, e3⟩ := Front.mark_eq.mp e.1
    refine ⟨?_, anchored_marks e.2 h.2⟩
    have get : ∀ g ∈ t, ∃ g' ∈ t', g'.mark = g.mark := by
      intro g hg
      have : g.mark ∈ t'.map Front.mark := by rw [e.2]; exact List.mem_map.mpr ⟨g, hg, rfl⟩
      obtain ⟨g', h1, h2⟩ := List.mem_map.mp this
      exact ⟨g', h1, h2⟩
    have hc : Covers t t' := by
      refine ⟨?_, ?_, ?_⟩
      · have := congrArg List.head? e.2
        rw [List.head?_map, List.head?_map] at this
        have := congrArg (Option.map fun x : Nat × Bool × Option α => x.1) this
        rw [Option.map_map, Option.map_map] at this
        exact this.symm
      · intro g hg hb
        obtain ⟨g', h1, h2⟩ := get g hg
        obtain ⟨a1, a2, _⟩ := Front.mark_eq.mp h2
        exact ⟨g', h1, a1, by rw [a2]; exact hb⟩
      · intro g hg
        obtain ⟨g', h1, h2⟩ := get g hg
        exact ⟨g', h1, (Front.mark_eq.mp h2).1⟩
    have hh := h.1.covers hc
    refine ⟨by rw [e1]; exact hh.low, by rw [e1]; exact hh.high, ?_, ?_, ?_, ?_⟩
    · rw [e2, e1]; intro hb; rw [e3 hb]; exact hh.depth hb
    · rw [e2, e1]; exact hh.next
    · rw [e2, e1]; exact hh.below
    · rw [e1]; exact hh.deeper

theorem marks_of {l l' : List (Front α)}
    (e : l'.map (fun f => (f.depth, f.layer, f.toBottom)) = l.map (fun f => (f.depth, f.layer, f.toBottom))) :
    l'.map Front.mark = l.map Front.mark := by
  have := congrArg (List.map fun x : α × Nat × Bool => (x.2.1, x.2.2, if x.2.2 = true then some x.1 else none)) e
  rw [List.map_map, List.map_map] at this
  exact this

theorem dec_marks (l : List (Front α)) : (decFronts l).map Front.mark = l.map Front.mark :=
  marks_of (by simp [decFronts])

theorem inc_marks (l : List (Front α)) : (incFronts l).map Front.mark = l.map Front.mark :=
  marks_of (by simp [incFronts])

/-- Removing a front that has a front of its layer directly below. -/
theorem Anchored.remove {N : Nat} {cum : List α} {a : List (Front α)} {c n : Front α} {b : List (Front α)}
    (h : Anchored N cum (a ++ c :: n :: b)) (hl : c.layer = n.layer) : Anchored N cum (a ++ n :: b) := by
  obtain ⟨h1, h2⟩ := h.append (b := c :: n :: b)
  have hb : c.toBottom = false := by
    cases hb : c.toBottom
    · rfl
    · exact absurd hl.symm (h1.next hb n rfl)
  refine Anchored.replace (u := c :: n :: b) ⟨by simp [hl], ?_, ?_⟩ h h2
  · intro g hg hgb
    rcases List.mem_cons.mp hg with rfl | hg
    · rw [hb] at hgb; simp at hgb
    · exact ⟨g, hg, rfl, hgb⟩
  · intro g hg
    rcases List.mem_cons.mp hg with rfl | hg
    · exact ⟨n, by simp, hl.symm⟩
    · exact ⟨g, hg, rfl⟩

/-- Structure, numbering and deepest front, in every run. -/
structure Firm (g : Geo α) (l : List (Front α)) : Prop where
  sound : Sound g.numLayers l
  anch : Anchored g.numLayers g.cum l
  top : StartsAtTop l

theorem Firm.ne_nil {g : Geo α} {l : List (Front α)} (h : Firm g l) : l ≠ [] := by
  obtain ⟨f, t, rfl, _⟩ := h.top; simp

theorem top_marks {l l' : List (Front α)} (e : l'.map Front.mark = l.map Front.mark) (h : StartsAtTop l) : StartsAtTop l' := by
  obtain ⟨f, t, rfl, h1⟩ := h
  cases l' with
  | nil => simp at e
  | cons f' t' =>
    simp only [List.map_cons, List.cons.injEq] at e
    exact ⟨f', t', rfl, by rw [(Front.mark_eq.mp e.1).1, h1]⟩

theorem top_of {l l' : List (Front α)} (e : l.head?.map Front.layer = l'.head?.map Front.layer) (h : StartsAtTop l) :
    StartsAtTop l' := by
  obtain ⟨f, t, rfl, h1⟩ := h
  cases l' with
  | nil => simp at e
  | cons f' t' => exact ⟨f', t', rfl, by simp at e; rw [← e, h1]⟩

theorem head_layer {u v : List (Front α)} (h : u.head?.map Front.layer = v.head?.map Front.layer) :
    ∀ a : List (Front α), (a ++ u).head?.map Front.layer = (a ++ v).head?.map Front.layer
  | [] => h
  | _ :: _ => rfl

theorem Firm.marks {g : Geo α} {l l' : List (Front α)} (hg : Firm g l) (hs : Sound g.numLayers l')
    (e : l'.map Front.mark = l.map Front.mark) : Firm g l' := ⟨hs, anchored_marks e hg.anch, top_marks e hg.top⟩

theorem moved_mark' {fuel : Nat} {g : Geo α} {dt precip : α} {nFd n wf : Nat} {olds l : List (Front α)} {aet aet' : α}
    {c c' : Front α} (hg : Firm g l) (hinc : Layered g.numLayers g.cum) (hlen : n = l.length) (h1 : 1 ≤ wf) (hc : l[wf - 1]? = some c)
    (h : Moved fuel g dt precip nFd n wf olds l aet c c' aet') : c'.mark = c.mark := by
  have ht := Front.tag_eq h.tag_eq
  rw [Front.mark_eq]
  refine ⟨ht.1, ht.2.2.1, fun hb => ?_⟩
  have hnot : ∀ nx, l[wf]? = some nx → nx.layer = c.layer → False := by
    intro nx hnx hl
    have := hg.anch.not_flagged hc (n := nx) (by rw [Nat.sub_add_cancel h1]; exact hnx) hl.symm
    rw [hb] at this; exact absurd this (by simp)
  cases h with
  | boundary => rfl
  | top s nx old oldNext c1 column psi hs hwf hnx hl h1 hcol hold holdn hm hpsi => exact (hnot nx hnx hl).elim
  | inner s nx old oldNext oldSucc c1 psi aet' hs hwf hnx hl h1 hold holdn holds hm hpsi => exact (hnot nx hnx hl).elim
  | deepest s old c1 aet' hs hwf hn hold hm =>
    obtain ⟨f, hf, _, _, hz⟩ := hg.sound.last
    have e : f = c := by
      rw [List.getLast?_eq_getElem?] at hf
      rw [← hlen, ← hwf, hc] at hf
      exact (Option.some.inj hf).symm
    subst e
    rw [(moveDeepest_tag hm).2.1, hz]
    obtain ⟨_, f', e1, _, _, e2⟩ := hg.anch.last hg.ne_nil
    have e3 : f' = f := by rw [e1] at hf; simpa using hf
    subst e3
    exact hinc.still _ e2 _
  | same => rfl

theorem moveOnes_firm {fuel : Nat} {g : Geo α} {dt precip : α} {nFd n : Nat} {prev : List (Front α)} :
    ∀ {wf : Nat} {l : List (Front α)} {aet : α} {r : List (Front α) × α}, Firm g l → Layered g.numLayers g.cum → n = l.length → wf ≤ n →
      moveOnes fuel g dt precip nFd n prev wf l aet = .ok r → Firm g r.1
  | 0, l, aet, r, hg, _, _, _, h => by simp [moveOnes] at h; subst h; exact hg
  | wf + 1, l, aet, r, hg, hinc, hl, hw, h => by
    unfold moveOnes at h
    simp only [bind_ok_iff, Prod.exists] at h
    obtain ⟨l1, aet1, h1, h⟩ := h
    obtain ⟨c, c', hc, hl1, hm⟩ := moveOne_cases hg.sound.num hl (by omega) hw h1
    simp only at hl1
    have hg1 : Firm g l1 := hg.marks (hg.sound.skel (tag_skel (by rw [hl1]; exact set_tags hc hm.tag_eq)))
      (by rw [hl1]; exact set_marks hc (moved_mark' hg hinc hl (by omega) hc hm))
    exact moveOnes_firm hg1 hinc (by rw [hl, hl1]; simp) (by omega) h

theorem mergeStep_anch {g : Geo α} {N cur : Nat} {cum : List α} {l : List (Front α)} {r : Nat × List (Front α)} {k : Int}
    (hn : NumFrom k l) (hc : Anchored N cum l ∧ StartsAtTop l) (h : mergeStep g cur l = .ok r) :
    Anchored N cum r.2 ∧ StartsAtTop r.2 := by
  obtain ⟨hc, ht⟩ := hc
  rcases mergeStep_inv hn h with rfl | ⟨a, c, n, nn, b, d, psi, Kc, rfl, _, _, hl, hb, _, _, _, rfl⟩
  · exact ⟨hc, ht⟩
  · simp only
    obtain ⟨h1, h2, h3⟩ := hc.append (b := c :: n :: nn :: b)
    have hcb : c.toBottom = false := by
      cases hcb : c.toBottom
      · rfl
      · exact absurd hl.symm (h1.next hcb n rfl)
    have hm : ({ c with depth := d, psi := psi, K := Kc } :: decFronts (nn :: b)).map Front.mark = (c :: nn :: b).map Front.mark := by
      rw [List.map_cons, List.map_cons, dec_marks]
      congr 1
      rw [Front.mark_eq]
      exact ⟨rfl, rfl, fun h => by rw [hcb] at h; simp at h⟩
    have hv : Anchored N cum (c :: nn :: b) := by
      refine ⟨⟨h1.low, h1.high, h1.depth, fun h => by rw [hcb] at h; simp at h, fun h => ?_, fun h => ?_⟩, h3⟩
      · obtain ⟨x, hx, e1, e2⟩ := h1.below h
        rcases List.mem_cons.mp hx with rfl | hx
        · rw [hb] at e2; simp at e2
        · exact ⟨x, hx, e1, e2⟩
      · obtain ⟨x, hx, e1⟩ := h1.deeper h
        rcases List.mem_cons.mp hx with rfl | hx
        · omega
        · exact ⟨x, hx, e1⟩
    have hcov : Covers (c :: n :: nn :: b) (c :: nn :: b) := by
      refine ⟨rfl, ?_, ?_⟩
      · intro x hx hxb
        simp only [List.mem_cons] at hx
        rcases hx with rfl | rfl | hx
        · rw [hcb] at hxb; simp at hxb
        · rw [hb] at hxb; simp at hxb
        · exact ⟨x, by simp [hx], rfl, hxb⟩
      · intro x hx
        simp only [List.mem_cons] at hx
        rcases hx with rfl | rfl | hx
        · exact ⟨x, by simp, rfl⟩
        · exact ⟨c, by simp, hl⟩
        · exact ⟨x, by simp [hx], rfl⟩
    have ha := Anchored.replace hcov hc hv
    have ht' : StartsAtTop (a ++ c :: nn :: b) := top_of (head_layer hcov.head a) ht
    have e : (a ++ { c with depth := d, psi := psi, K := Kc } :: decFronts (nn :: b)).map Front.mark =
        (a ++ c :: nn :: b).map Front.mark := by
      rw [List.map_append, List.map_append, hm]
    exact ⟨anchored_marks e ha, top_marks e ht'⟩

theorem Firm.merge {g : Geo α} {l l' : List (Front α)} (hg : Firm g l) (h : mergeFronts g l = .ok l') : Firm g l' := by
  have := (mergeLoop_ind (P := fun l => Anchored g.numLayers g.cum l ∧ StartsAtTop l)
    (fun _ _ _ hn hp hs => mergeStep_anch hn hp hs) hg.sound.num ⟨hg.anch, hg.top⟩ h).2
  exact ⟨hg.sound.merge h, this.1, this.2⟩

theorem fixDryRepair_anch {g : Geo α} {N : Nat} {cum : List α} {a b : List (Front α)} {c n : Front α}
    {r : Nat × List (Front α) × α} {k : Int}
    (hn : NumFrom k (a ++ c :: n :: b)) (hl : c.layer = n.layer)
    (hc : Anchored N cum (a ++ c :: n :: b) ∧ StartsAtTop (a ++ c :: n :: b))
    (h : fixDryRepair g c (a ++ c :: n :: b) = .ok r) : Anchored N cum r.2.1 ∧ StartsAtTop r.2.1 := by
  have ha := hc.1.remove hl
  have ht : StartsAtTop (a ++ n :: b) := top_of (head_layer (by simp [hl]) a) hc.2
  obtain ⟨m0, m1, l2, _, _, rfl, hl2 | ⟨_, d, b', sl, Se, psi, e, _, _, _, hu⟩⟩ := fixDryRepair_inv hn h
  · have e : l2.map Front.mark = (a ++ n :: b).map Front.mark := by
      rw [hl2.2, List.map_append, List.map_append, dec_marks]
    exact ⟨anchored_marks e ha, top_marks e ht⟩
  · obtain ⟨rfl, rfl⟩ := List.cons.inj e
    have e1 := congrArg (List.map fun x : α × Nat × Int × Bool × α × α => (x.1, x.2.1, x.2.2.2.1)) (updAbove_shape hu)
    have e2 : l2.map Front.mark = (a ++ n :: b).map Front.mark := by
      refine marks_of ?_
      rw [List.map_map, List.map_map] at e1
      refine Eq.trans e1.symm ?_
      simp [decFronts, Function.comp_def]
    exact ⟨anchored_marks e2 ha, top_marks e2 ht⟩

theorem Firm.checkFix {g : Geo α} {mc : α} {l : List (Front α)} {r : List (Front α) × α} (hg : Firm g l)
    (h : checkFix g mc l = .ok r) : Firm g r.1 := by
  have hs := hg.sound.checkFix h
  rcases checkFix_inv h with rfl | h
  · exact hg
  · unfold fixDry at h
    simp only [bind_ok_iff] at h
    obtain ⟨_, _, h⟩ := h
    have := (fixDryLoop_ind (P := fun l _ => Anchored g.numLayers g.cum l ∧ StartsAtTop l)
      (fun a b c n mc r hn hp _ hl hr => fixDryRepair_anch hn hl hp hr) hg.sound.num ⟨hg.anch, hg.top⟩ h).2
    exact ⟨hs, this.1, this.2⟩

theorem cum_inj {cum : List α} (hinc : cum.Pairwise (· < ·)) {i j : Nat} {d : α} (h1 : cum[i]? = some d) (h2 : cum[j]? = some d) :
    i = j := by
  rw [List.getElem?_eq_some_iff] at h1 h2
  obtain ⟨i1, e1⟩ := h1
  obtain ⟨i2, e2⟩ := h2
  rcases Nat.lt_trichotomy i j with h | h | h
  · have := List.pairwise_iff_getElem.mp hinc i j i1 i2 h
    rw [e1, e2] at this; exact absurd this (Compared.lt_irrefl _)
  · exact h
  · have := List.pairwise_iff_getElem.mp hinc j i i2 i1 h
    rw [e1, e2] at this; exact absurd this (Compared.lt_irrefl _)

theorem cum_lt {cum : List α} (hinc : cum.Pairwise (· < ·)) {i j : Nat} {d e : α} (h1 : cum[i]? = some d) (h2 : cum[j]? = some e)
    (hij : i < j) : d < e := by
  rw [List.getElem?_eq_some_iff] at h1 h2
  obtain ⟨i1, rfl⟩ := h1
  obtain ⟨i2, rfl⟩ := h2
  exact List.pairwise_iff_getElem.mp hinc i j i1 i2 hij

theorem crossStep_anch {g : Geo α} {cur : Nat} {l l' : List (Front α)} (hinc : Layered g.numLayers g.cum)
    (hc : Anchored g.numLayers g.cum l ∧ StartsAtTop l)
    (h : crossStep g cur l = .ok l') : Anchored g.numLayers g.cum l' ∧ StartsAtTop l' := by
  obtain ⟨hc, ht⟩ := hc
  rcases crossStep_inv h with rfl |
    ⟨a, c, n, nn, b, sl, ff, s2, bot, psi, Kc, tn, Se, z, rfl, rfl, _, _, hbot, hlt, heq, hN, _, _, _, _, _, _, rfl⟩
  · exact ⟨hc, ht⟩
  · obtain ⟨h1, h2, h3⟩ := hc.append (b := c :: n :: nn :: b)
    have hcb : c.toBottom = false := by
      cases hcb : c.toBottom
      · rfl
      · have := h1.depth hcb
        rw [hbot, Option.some.injEq] at this
        rw [this] at hlt; exact absurd hlt (Compared.lt_irrefl _)
    have hnl : n.toBottom = true → n.layer = c.layer := fun hb => by
      have hnd := Compared.not_lt_of_beq _ _ heq
      rcases Nat.lt_trichotomy n.layer c.layer with hij | hij | hij
      · exact absurd (cum_lt hinc.inc (h2.depth hb) hbot hij) hnd.1
      · exact hij
      · exact absurd (cum_lt hinc.inc hbot (h2.depth hb) hij) hnd.2
    -- a front of the next layer below the two
    obtain ⟨y, hy, hyl⟩ : ∃ y ∈ nn :: b, y.layer = c.layer + 1 := by
      obtain ⟨x, hx, e1, e2⟩ := h1.below hcb
      rcases List.mem_cons.mp hx with rfl | hx
      · rw [← e1]; exact h2.deeper (by rw [e1]; exact hN)
      · obtain ⟨y, hy, e3⟩ := h3.next_layer hx (by rw [e1]; exact hN)
        exact ⟨y, hy, by rw [e3, e1]⟩
    obtain ⟨w, hw, hwl, hwb⟩ := h3.flagged hy
    have hc1 : c.layer + 1 ≤ g.numLayers := by rw [← hyl]; exact (h3.range y hy).2
    have hcov : Covers (c :: n :: nn :: b)
        ({ c with depth := bot, psi := psi, K := Kc, dzdt := 0, toBottom := true } ::
          { n with theta := tn, psi := psi, depth := bot + z, layer := c.layer + 1, dzdt := c.dzdt, toBottom := false } ::
          nn :: b) := by
      refine ⟨rfl, ?_, ?_⟩
      · intro x hx hxb
        rw [List.mem_cons, List.mem_cons] at hx
        rcases hx with rfl | rfl | hx
        · rw [hcb] at hxb; simp at hxb
        · exact ⟨_, List.mem_cons_self .., (hnl hxb).symm, rfl⟩
        · exact ⟨x, by rw [List.mem_cons, List.mem_cons]; exact .inr (.inr hx), rfl, hxb⟩
      · intro x hx
        rw [List.mem_cons, List.mem_cons] at hx
        rcases hx with rfl | rfl | hx
        · exact ⟨_, List.mem_cons_self .., rfl⟩
        · cases hnb : x.toBottom
          · obtain ⟨u, hu, e1, _⟩ := h2.below hnb
            exact ⟨u, by rw [List.mem_cons, List.mem_cons]; exact .inr (.inr hu), e1⟩
          · exact ⟨_, List.mem_cons_self .., (hnl hnb).symm⟩
        · exact ⟨x, by rw [List.mem_cons, List.mem_cons]; exact .inr (.inr hx), rfl⟩
    refine ⟨Anchored.replace hcov hc ⟨?_, ?_, h3⟩, top_of (head_layer hcov.head a) ht⟩
    · refine ⟨h1.low, h1.high, fun _ => hbot, fun _ x hx => ?_, fun hb => by simp at hb, fun _ => ?_⟩
      · simp only [List.head?_cons, Option.some.injEq] at hx
        subst hx; show c.layer + 1 ≠ c.layer; omega
      · exact ⟨_, List.mem_cons_self .., rfl⟩
    · refine ⟨by show 1 ≤ c.layer + 1; omega, hc1, fun hb => by simp at hb, fun hb => by simp at hb, fun _ => ?_, fun hne => ?_⟩
      · exact ⟨w, hw, by rw [hwl, hyl], hwb⟩
      · obtain ⟨v, hv, e⟩ := h3.next_layer hy (by rw [hyl]; exact hne)
        exact ⟨v, hv, by rw [e, hyl]⟩

theorem Firm.cross {g : Geo α} {l l' : List (Front α)} (hg : Firm g l) (hinc : Layered g.numLayers g.cum)
    (h : crossLayer g l = .ok l') : Firm g l' := by
  have := crossLoop_ind (P := fun l => Anchored g.numLayers g.cum l ∧ StartsAtTop l)
    (fun _ _ _ hp hs => crossStep_anch hinc hp hs) ⟨hg.anch, hg.top⟩ h
  exact ⟨hg.sound.cross h, this.1, this.2⟩

/-- The two deepest fronts are in the same layer when the upper one reaches the bottom of the column. -/
theorem Anchored.same_layer {g : Geo α} {a : List (Front α)} {c n : Front α} {dom : α} (hg : Anchored g.numLayers g.cum (a ++ [c, n]))
    (hinc : Layered g.numLayers g.cum) (hdom : g.cum[g.numLayers]? = some dom) (hd : dom ≤ c.depth) : c.layer = n.layer := by
  obtain ⟨h1, h2, _⟩ := hg.append (b := [c, n])
  have hN : n.layer = g.numLayers := by
    by_contra hN
    obtain ⟨_, hx, _⟩ := h2.deeper hN; simp at hx
  by_contra hne
  cases hb : c.toBottom
  · obtain ⟨x, hx, e, _⟩ := h1.below hb
    simp only [List.mem_singleton] at hx
    subst hx; exact hne e.symm
  · have := cum_lt hinc.inc (h1.depth hb) hdom (lt_of_le_of_ne h1.high (by rw [← hN]; exact hne))
    exact Compared.not_le_of_lt _ _ this hd

theorem Firm.domain {g : Geo α} {dom : α} {l : List (Front α)} {r : α × List (Front α)} (hg : Firm g l)
    (hinc : Layered g.numLayers g.cum) (hdom : g.cum[g.numLayers]? = some dom)
    (h : crossDomain g dom l = .ok r) : Firm g r.2 := by
  have hs := hg.sound.domain h
  rcases domainLoop_inv hg.sound.num h with rfl | ⟨a, c, n, psi, Kc, rfl, hd, hpsi, rfl⟩
  · exact hg
  · have hl := hg.anch.same_layer hinc hdom hd
    have ha := hg.anch.remove hl
    have ht : StartsAtTop (a ++ [n]) := top_of (head_layer (by simp [hl]) a) hg.top
    refine ⟨hs, anchored_marks ?_ ha, top_marks ?_ ht⟩ <;> exact marks_of (by simp [decFronts])

theorem Firm.moveTop {g : Geo α} {oldMass precip aet : α} {l : List (Front α)} {r : List (Front α) × α × α}
    (hg : Firm g l) (hinc : Layered g.numLayers g.cum) (h : moveTop g oldMass precip l aet = .ok r) : Firm g r.1 := by
  have hs := hg.sound.moveTop h
  obtain ⟨l1, column, h1, hcol, h2⟩ := moveTop_inv h
  have hg1 := hg.cross hinc h1
  rcases h2 with h2 | ⟨p, w, d, hp, hw, h2, hd⟩
  · rw [h2]; exact hg1
  · refine hg1.marks hs ?_
    rw [h2]
    refine set_marks hw ?_
    rw [Front.mark_eq]
    refine ⟨rfl, rfl, fun hb => ?_⟩
    show d = w.depth
    obtain ⟨f1, f2, f3⟩ := freeDrainage_spec hg1.ne_nil
    rw [find_num hg1.sound.num f1 f2, Option.some.injEq] at hp
    subst hp
    rcases f3 w hw with ⟨n, hn, hl⟩ | hlast
    · have := hg1.anch.not_flagged hw (n := n) (by rw [Nat.sub_add_cancel f1]; exact hn) hl
      rw [hb] at this; exact absurd this (by simp)
    · obtain ⟨a, f, e, e1, e2, e3⟩ := hg1.anch.last hg1.ne_nil
      have e4 : f = w := by rw [e] at hlast; simpa using hlast
      subst e4
      rcases hd hb e1 with hd | hd
      · exact hd
      · rw [hcol, Option.some.injEq] at e3
        rw [hd, e3]

theorem Firm.movePost {g : Geo α} {l : List (Front α)} {aet flux : α} {r : List (Front α) × α × α} (hg : Firm g l)
    (hinc : Layered g.numLayers g.cum) (h : movePost g l aet flux = .ok r) : Firm g r.1 := by
  have hs := hg.sound.movePost h
  obtain ⟨l1, mc1, l2, l3, l4, mc4, l5, column, fl, l6, l7, mc7, l8, h1, h2, h3, h4, h5, hcol, h6, h7, h8, h9, _, _⟩ :=
    movePost_inv h
  have g2 : Firm g l2 := (hg.checkFix h1).merge h2
  have g5 : Firm g l5 := ((g2.cross hinc h3).checkFix h4).merge h5
  have g7 : Firm g l7 := (g5.domain hinc hcol h6).checkFix h7
  have e8 : l8.map Front.mark = l7.map Front.mark := by
    refine marks_of ?_
    have := congrArg (List.map (fun x : α × α × Nat × Int × Bool × α => (x.1, x.2.2.1, x.2.2.2.2.1))) (refresh_inv h8)
    rw [List.map_map, List.map_map] at this
    exact this
  have a8 := anchored_marks e8 g7.anch
  have t8 := top_marks e8 g7.top
  rcases fixSingle_inv h9 with e | ⟨f, c1, e, hc1, hne, e9⟩
  · rw [e] at hs ⊢; exact ⟨hs, a8, t8⟩
  · subst e
    obtain ⟨f', t, e1, e2⟩ := t8
    obtain ⟨rfl, _⟩ := List.cons.inj e1
    obtain ⟨a, f', e3, e4, e5, e6⟩ := a8.last (by simp)
    have e7 : f' = f := by
      have := congrArg List.getLast? e3
      simpa using this.symm
    subst e7
    rw [e4] at e2
    rw [e2, hc1, Option.some.injEq] at e6
    rw [e9, e6] at hs ⊢
    exact ⟨hs, a8, f', [], rfl, e4.trans e2⟩

theorem Firm.moveFronts {fuel : Nat} {g : Geo α} {dt oldMass precip : α} {nFd : Nat} {prev l : List (Front α)}
    {aet : α} {r : List (Front α) × α × α} (hg : Firm g l) (hinc : Layered g.numLayers g.cum)
    (h : moveFronts fuel g dt precip nFd oldMass aet prev l = .ok r) : Firm g r.1 := by
  unfold LGAR.moveFronts at h
  simp only [bind_ok_iff, Prod.exists] at h
  obtain ⟨l1, aet1, fl, h1, h⟩ := h
  unfold moveMain at h1
  rw [if_neg (by simpa using hg.ne_nil)] at h1
  simp only [bind_ok_iff, Prod.exists] at h1
  obtain ⟨l0, aet0, h0, h1⟩ := h1
  exact ((moveOnes_firm hg hinc rfl le_rfl h0).moveTop hinc h1).movePost hinc h

theorem Firm.push {g : Geo α} {l : List (Front α)} {f : Front α} (hg : Firm g l) (h0 : f.front = 1) (h1 : f.layer = 1)
    (h2 : f.toBottom = false) : Firm g (f :: incFronts l) := by
  have e := inc_marks l
  have ha := anchored_marks e hg.anch
  obtain ⟨x, t, rfl, hx⟩ := hg.top
  obtain ⟨y, hy, e1, e2⟩ := hg.anch.flagged (f := x) (by simp)
  have get : ∀ z ∈ x :: t, ∃ z' ∈ incFronts (x :: t), z'.layer = z.layer ∧ z'.toBottom = z.toBottom := by
    intro z hz
    exact ⟨_, List.mem_map.mpr ⟨z, hz, rfl⟩, rfl, rfl⟩
  refine ⟨hg.sound.push h0, ⟨⟨by omega, ?_, fun h => by rw [h2] at h; simp at h, fun h => by rw [h2] at h; simp at h,
    fun _ => ?_, fun hN => ?_⟩, ha⟩, f, _, rfl, h1⟩
  · rw [h1, ← hx]; exact (hg.anch.range x (by simp)).2
  · obtain ⟨y', h3, h4, h5⟩ := get y hy
    exact ⟨y', h3, by rw [h4, e1, hx, h1], by rw [h5, e2]⟩
  · obtain ⟨z, hz, e3⟩ := hg.anch.next_layer (f := x) (by simp) (by rw [hx, ← h1]; exact hN)
    obtain ⟨z', h3, h4, h5⟩ := get z hz
    exact ⟨z', h3, by rw [h4, e3, hx, h1]⟩

theorem Firm.create {g : Geo α} {ponded dry theta1 : α} {l : List (Front α)} {r : α × α × List (Front α)} (hg : Firm g l)
    (hinc : Layered g.numLayers g.cum) (h : createSurficial g ponded dry theta1 l = .ok r) : Firm g r.2.2 := by
  obtain ⟨l1, h1, h2⟩ := createSurficial_steps h
  obtain ⟨s, thn, Se, psi, Kc, ff, _, _, _, _, _, _, he⟩ := createFront_inv h1
  simp only at he
  have g1 : Firm g l1 := by
    rw [he]; exact hg.push rfl rfl rfl
  rcases h2 with ⟨_, h2⟩ | ⟨_, l2, h2, h3⟩
  · rw [h2]; exact g1
  · exact (g1.merge h2).cross hinc h3

theorem Firm.speed {fuel : Nat} {closed : Bool} {nint : Int} {hp : α} {g : Geo α} {l l' : List (Front α)}
    (hg : Firm g l) (h : dzdtCalc fuel closed nint hp g l = .ok l') : Firm g l' := by
  refine hg.marks (hg.sound.speed h) (marks_of ?_)
  have e := congrArg (List.map (fun x : α × α × α × α × Nat × Int × Bool => (x.1, x.2.2.2.2.1, x.2.2.2.2.2.2)))
    (dzdtCalc_frame h)
  rw [List.map_map, List.map_map] at e
  exact e

theorem Firm.subStep {c : StepCfg α} {s s' : SubSt α} (hg : Firm c.geo s.head) (hinc : Layered c.geo.numLayers c.geo.cum)
    (h : subStep c s = .ok s') : Firm c.geo s'.head := by
  obtain ⟨aet, vs, h0, hsoil, f, l, ve, h1, ha, _, hh0, hhs, hf, hl, _, _, _, _, rfl⟩ := subStep_inv h
  refine Firm.speed (l := f.head) ?_ hl
  unfold LGAR.subFlow at hf
  split at hf
  · obtain ⟨l, flux, dry, d, h0, pd, hm, hd, hh, hcr, _⟩ := flowCreate_inv hf
    exact (hg.moveFronts hinc hm).create hinc hcr
  · obtain ⟨hsf, hm, _⟩ := flowMove_inv hf
    exact hg.moveFronts hinc hm

theorem Firm.subLoop {c : StepCfg α} (hinc : Layered c.geo.numLayers c.geo.cum) : ∀ {n : Nat} {s s' : SubSt α},
    Firm c.geo s.head → subLoop c n s = .ok s' → Firm c.geo s'.head
  | 0, s, s', hg, h => by simp [LGAR.subLoop] at h; subst h; exact hg
  | n + 1, s, s', hg, h => by
    unfold LGAR.subLoop at h
    simp only [bind_ok_iff] at h
    obtain ⟨s1, h1, h⟩ := h
    have g1 := hg.subStep hinc h1
    split at h
    · simp only [pure_eq_ok, Except.ok.injEq] at h
      subst h; exact g1
    · exact Firm.subLoop hinc g1 h

theorem Firm.geo {g g' : Geo α} {l : List (Front α)} (hg : Firm g l) (h1 : g'.numLayers = g.numLayers) (h2 : g'.cum = g.cum) :
    Firm g' l := by
  obtain ⟨a, b, c⟩ := hg
  rw [← h1] at a
  rw [← h1, ← h2] at b
  exact ⟨a, b, c⟩

theorem Firm.pre {s s1 : State α} {d : α} (hg : Firm s.geo s.head) (h1 : updatePre s = .ok (s1, d)) : Firm s1.geo s1.head := by
  have hsk := updatePre_skel h1
  obtain ⟨_, _, fs, soils, l, fc, pm, q, _, e, _, hcal⟩ := updatePre_inv h1
  subst e
  refine Firm.geo (g := s.geo) ?_ rfl rfl
  rcases hcal with ⟨_, _, _, hl, _⟩ | ⟨_, _, _, rfl, _⟩
  · refine hg.marks (hg.sound.skel hsk) (marks_of ?_)
    have e := congrArg (List.map (fun x : α × α × α × Nat × Int × Bool × α => (x.1, x.2.2.2.1, x.2.2.2.2.2.1)))
      (calibLoop_frame hl).1
    rw [List.map_map, List.map_map] at e
    exact e
  · exact hg

theorem Firm.update {fuel : Nat} {sa : Bool} {s s' : State α} (hg : Firm s.geo s.head) (hinc : Layered s.p.numLayers s.p.cum)
    (h : update fuel sa s = .ok s') : Firm s'.geo s'.head := by
  obtain ⟨f1, f2, _⟩ := update_fixed h
  rcases update_inv h with ⟨_, rfl⟩ | ⟨_, s1, d, v, u, h1, hv, hu, h2⟩
  · exact hg.geo rfl rfl
  · obtain ⟨_, _, _, hh, _⟩ := updatePost_inv h2
    rw [hh]
    have hg1 := hg.pre h1
    obtain ⟨_, _, fs, soils, l, fc, pm, q, _, e, _, hcal⟩ := updatePre_inv h1
    have hc1 : s1.p.cum = s.p.cum := by subst e; rfl
    have hn1 : s1.p.numLayers = s.p.numLayers := by subst e; rfl
    have := Firm.subLoop (c := stepCfg fuel sa s1) (by show Layered s1.p.numLayers s1.p.cum; rw [hn1, hc1]; exact hinc)
      (s := _) (s' := u) (by exact hg1) hu
    exact this.geo (by show s'.p.numLayers = s1.p.numLayers; rw [f1, hn1]) (by show s'.p.cum = s1.p.cum; rw [f2, hc1])

end LawFree

end LGAR
