import Verif.Lemmas.MassPasses
/-
The passes neither hit undefined behaviour nor run out of fuel.
-/
set_option linter.unusedSectionVars false
namespace LGAR

section LawFree
variable {α : Type} [Add α] [Sub α] [Mul α] [Div α] [Neg α] [Zero α] [One α] [OfScientific α]
  [LT α] [LE α] [DecidableLT α] [DecidableLE α] [BEq α] [CMath α] {fb : Guard}

/-- All layer numbers between 1 and `N`. -/
def InRange (N : Nat) (l : List (Front α)) : Prop := ∀ f ∈ l, 1 ≤ f.layer ∧ f.layer ≤ N

/-- The deepest front touches the bottom. -/
def LastBottom (l : List (Front α)) : Prop := ∀ f, l.getLast? = some f → f.toBottom = true

theorem spec_deref' {l : List (Front α)} {i : Nat} (hi : i < l.length) :
    Spec fb (deref l i) fun f => l[i]? = some f :=
  spec_deref hi (List.getElem?_eq_getElem hi)

theorem lastBottom_append {a b : List (Front α)} {x : Front α} : LastBottom (a ++ x :: b) ↔ LastBottom (x :: b) := by
  simp [LastBottom, List.getLast?_append]

theorem lastBottom_cons {x y : Front α} {b : List (Front α)} : LastBottom (x :: y :: b) ↔ LastBottom (y :: b) := by
  simp [LastBottom, List.getLast?_cons_cons]

theorem lastBottom_dec {l : List (Front α)} : LastBottom (decFronts l) ↔ LastBottom l := by
  simp only [LastBottom, decFronts, List.getLast?_map]
  cases l.getLast? <;> simp

/-- The merge iteration is safe and keeps what the next one needs. -/
theorem spec_mergeStep {g : Geo α} (hg : g.Valid) {cur : Nat} {l : List (Front α)} {k : Int} (hn : NumFrom k l)
    (hr : InRange g.numLayers l) (hb : LastBottom l) (hcur : cur + 1 < l.length) :
    Spec fb (mergeStep g cur l) fun r => r.1 = cur + 1 ∧ NumFrom k r.2 ∧ InRange g.numLayers r.2 ∧ LastBottom r.2 ∧
      (r.2.length = l.length ∨ (r.2.length + 1 = l.length ∧ cur + 2 < l.length)) := by
  refine Spec.of_ok ?_ ?_
  · unfold mergeStep
    refine Spec.bind _ (spec_deref' (by omega)) fun c _ hc => ?_
    refine Spec.bind _ (spec_deref' hcur) fun n _ hn' => ?_
    refine Spec.ite (fun hcond => ?_) (fun _ => Spec.pure trivial)
    obtain ⟨a, b, rfl, rfl⟩ := split2 hc hn'
    have hbn : b ≠ [] := by
      rintro rfl
      rw [lastBottom_append, lastBottom_cons] at hb
      have := hb n (by simp)
      rw [hcond.2.2] at this; simp at this
    obtain ⟨nn, b', rfl⟩ := List.exists_cons_of_ne_nil hbn
    have hcr := hr c (by simp)
    refine Spec.bind _ (spec_deref' (by simp)) fun x _ hx => ?_
    refine Spec.bindT (spec_cdiv fun _ => trivial) fun d _ => ?_
    refine Spec.bindT (spec_cassert fun _ => trivial) fun _ _ => ?_
    refine Spec.bindT (spec_psiKOf hg hcr.1 hcr.2 _) fun p _ => ?_
    have hn2 : NumFrom k ((a ++ [{ c with depth := d, psi := p.1, K := p.2 }]) ++ n :: nn :: b') := by
      have := hn.set a.length { c with depth := d, psi := p.1, K := p.2 }
        (by intro x hx; simp at hx; subst hx; rfl)
      rw [set_append_cons] at this
      simpa using this
    have hdel := listDeleteFront_num hn2
    have e : (a ++ [{ c with depth := d, psi := p.1, K := p.2 }]) ++ n :: nn :: b' =
        (a ++ c :: n :: nn :: b').set a.length { c with depth := d, psi := p.1, K := p.2 } := by
      rw [set_append_cons]; simp
    rw [e] at hdel
    simp only [hdel, ok_bind]
    unfold ptrAfterDelete
    rw [if_neg (by simp), if_neg (by simp)]
    exact Spec.pure trivial
  · intro r h
    rcases mergeStep_inv hn h with rfl | ⟨a, c, n, nn, b, d, psi, Kc, rfl, hal, _, _, _, _, _, _, rfl⟩
    · exact ⟨rfl, hn, hr, hb, Or.inl rfl⟩
    · refine ⟨rfl, mergeStep_num hn h, ?_, ?_, Or.inr ?_⟩
      · intro f hf
        simp only [List.mem_append, List.mem_cons, decFronts, List.mem_map] at hf
        rcases hf with hf | rfl | ⟨x, hx, rfl⟩
        · exact hr f (by simp [hf])
        · exact hr c (by simp)
        · exact hr x (by simp [hx])
      · rw [lastBottom_append, lastBottom_cons, lastBottom_cons] at hb
        rw [show a ++ { c with depth := d, psi := psi, K := Kc } :: decFronts (nn :: b) =
          (a ++ [{ c with depth := d, psi := psi, K := Kc }]) ++ { nn with front := nn.front - 1 } :: decFronts b by simp,
          lastBottom_append, ← decFronts_cons, lastBottom_dec]
        exact hb
      · simp; omega

theorem spec_mergeLoop {g : Geo α} (hg : g.Valid) {k : Int} {fuel wf cur : Nat} {l : List (Front α)} (hn : NumFrom k l)
    (hr : InRange g.numLayers l) (hb : LastBottom l) (hw : wf = cur + 1) (hwl : wf ≤ l.length)
    (hf : l.length < fuel + wf) : Spec fb (mergeLoop g fuel wf cur l) fun _ => True := by
  induction fuel generalizing wf cur l with
  | zero => omega
  | succ f ih =>
    unfold mergeLoop
    refine Spec.ite (fun _ => Spec.ok trivial) fun hne => ?_
    refine Spec.bind _ (spec_mergeStep hg hn hr hb (by omega)) fun r _ hP => ?_
    obtain ⟨h1, h2, h3, h4, h5⟩ := hP
    exact ih h2 h3 h4 (by omega) (by omega) (by omega)

theorem spec_mergeFronts {g : Geo α} (hg : g.Valid) {k : Int} {l : List (Front α)} (hn : NumFrom k l)
    (hr : InRange g.numLayers l) (hb : LastBottom l) (hne : l ≠ []) : Spec fb (mergeFronts g l) fun _ => True := by
  have := List.length_pos_of_ne_nil hne
  exact spec_mergeLoop hg hn hr hb rfl (by omega) (by omega)

theorem spec_domainLoop {g : Geo α} (hg : g.Valid) {dom : α} {k : Int} {fuel wf cur : Nat} {l : List (Front α)}
    (hn : NumFrom k l) (hr : InRange g.numLayers l) (hw : wf = cur + 1) (hwl : wf ≤ l.length)
    (hf : l.length < fuel + wf) : Spec fb (domainLoop g dom l.length fuel wf cur l) fun _ => True := by
  induction fuel generalizing wf cur with
  | zero => omega
  | succ f ih =>
    unfold domainLoop
    refine Spec.ite (fun _ => Spec.ok trivial) fun hne => ?_
    refine Spec.ite (fun _ => Spec.ok trivial) fun hne2 => ?_
    refine Spec.bind _ (spec_deref' (by omega)) fun c _ hc => ?_
    have hcr := hr c (List.mem_of_getElem? hc)
    refine Spec.bindT (spec_soilType hg hcr.2) fun _ _ => ?_
    refine Spec.bind _ (spec_deref' (by omega)) fun n _ hn' => ?_
    refine Spec.ite (fun hcond => ?_) (fun _ => ih (by omega) (by omega) (by omega))
    refine Spec.bindT (spec_psiKOf hg hcr.1 hcr.2 _) fun p _ => ?_
    obtain ⟨a, b, rfl, rfl⟩ := split2 hc hn'
    simp only [set_append_cons1]
    have hn2 : NumFrom k (a ++ c :: { n with theta := c.theta, psi := p.1, K := p.2 } :: b) := by
      rw [NumFrom.append] at hn ⊢; exact hn
    rw [listDeleteFront_num hn2, ok_bind]
    exact Spec.ok trivial

theorem spec_crossDomain {g : Geo α} (hg : g.Valid) {dom : α} {k : Int} {l : List (Front α)} (hn : NumFrom k l)
    (hr : InRange g.numLayers l) (hne : l ≠ []) : Spec fb (crossDomain g dom l) fun _ => True := by
  have := List.length_pos_of_ne_nil hne
  exact spec_domainLoop hg hn hr rfl (by omega) (by omega)

theorem spec_updAbove {g : Geo α} (hg : g.Valid) (psi : α) {j : Nat} {l : List (Front α)} (hr : InRange g.numLayers l)
    (hex : ∃ f ∈ l, j ≤ f.layer) : Spec fb (updAbove g psi j l) fun r => r.length = l.length := by
  induction l with
  | nil => simp at hex
  | cons f t ih =>
    unfold updAbove
    refine Spec.ite (fun hlt => ?_) (fun _ => Spec.pure rfl)
    have hfr := hr f (by simp)
    refine Spec.bindT (spec_soil hg hfr.1 hfr.2) fun s _ => ?_
    refine Spec.bindT (spec_calcThetaFromH ..) fun th _ => ?_
    refine Spec.bind _ (ih (fun x hx => hr x (by simp [hx])) ?_) fun r _ hl => ?_
    · obtain ⟨x, hx, hxl⟩ := hex
      rcases List.mem_cons.mp hx with rfl | hx
      · omega
      · exact ⟨x, hx, hxl⟩
    · exact Spec.pure (by simp [hl])

theorem inRange_shape {N : Nat} {l l' : List (Front α)} (h : InRange N l) (e : SameShape l l') : InRange N l' := by
  have e2 : l.map Front.layer = l'.map Front.layer := by
    have := congrArg (List.map fun x : α × Nat × Int × Bool × α × α => x.2.1) e
    simpa [List.map_map, Function.comp_def] using this
  intro f hf
  have : f.layer ∈ l.map Front.layer := by rw [e2]; exact List.mem_map_of_mem hf
  obtain ⟨x, hx, hxl⟩ := List.mem_map.mp this
  rw [← hxl]; exact h x hx

theorem inRange_dec {N : Nat} {a b : List (Front α)} (h : InRange N (a ++ b)) : InRange N (a ++ decFronts b) := by
  intro f hf
  simp only [List.mem_append, decFronts, List.mem_map] at hf
  rcases hf with hf | ⟨x, hx, rfl⟩
  · exact h f (by simp [hf])
  · exact h x (by simp [hx])

theorem spec_fixDryRepair {g : Geo α} (hg : g.Valid) {a b : List (Front α)} {c n : Front α} {k : Int}
    (hn : NumFrom k (a ++ c :: n :: b)) (hr : InRange g.numLayers (a ++ c :: n :: b)) (hl : c.layer = n.layer) :
    Spec fb (fixDryRepair g c (a ++ c :: n :: b)) fun r => r.1 = a.length ∧ NumFrom k r.2.1 ∧
      InRange g.numLayers r.2.1 ∧ r.2.1.length = a.length + b.length + 1 := by
  have hr1 : InRange g.numLayers (a ++ decFronts (n :: b)) := by
    apply inRange_dec
    intro f hf
    simp only [List.mem_append, List.mem_cons] at hf
    rcases hf with hf | hf | hf
    · exact hr f (by simp [hf])
    · exact hr f (by simp [hf])
    · exact hr f (by simp [hf])
  refine Spec.of_ok ?_ ?_
  · unfold fixDryRepair
    refine Spec.bindT (spec_massBalGo hg _ hr _) fun m0 _ => ?_
    rw [listDeleteFront_num hn, ok_bind]
    simp only
    refine Spec.ite (fun h1 => ?_) (fun _ => ?_)
    · refine Spec.bind _ (spec_deref' (by simp)) fun d _ hd => ?_
      rw [List.getElem?_append_right (by omega)] at hd
      simp only [Nat.sub_self, decFronts_cons, List.getElem?_cons_zero, Option.some.injEq] at hd
      subst hd
      have hdr := hr n (by simp)
      refine Spec.bindT (spec_soil hg hdr.1 hdr.2) fun s _ => ?_
      refine Spec.bindT (spec_calcSeFromTheta ..) fun Se _ => ?_
      refine Spec.bindT (spec_calcHFromSe ..) fun psi _ => ?_
      have e : (a ++ decFronts (n :: b)).set a.length { n with front := n.front - 1, psi := psi } =
          a ++ { n with front := n.front - 1, psi := psi } :: decFronts b := by
        rw [decFronts_cons, set_append_cons]
      simp only [e]
      have hr2 : InRange g.numLayers (a ++ { n with front := n.front - 1, psi := psi } :: decFronts b) := by
        intro f hf
        simp only [List.mem_append, List.mem_cons] at hf
        rcases hf with hf | rfl | hf
        · exact hr1 f (by simp [hf])
        · exact hdr
        · exact hr1 f (by simp [hf])
      refine Spec.bind _ (spec_updAbove hg psi hr2 ⟨_, by simp; exact Or.inr (Or.inl rfl), by simp [hl]⟩)
        fun l2 hl2 _ => ?_
      refine Spec.bindT (spec_massBalGo hg _ (inRange_shape hr2 (updAbove_shape hl2)) _) fun m1 _ => ?_
      exact Spec.pure trivial
    · rw [ok_bind]
      refine Spec.bindT (spec_massBalGo hg _ hr1 _) fun m1 _ => ?_
      exact Spec.pure trivial
  · intro r h
    have hnum := fixDryRepair_num hn h
    obtain ⟨m0, m1, l2, _, _, rfl, hl2 | ⟨_, d, b', sl, Se, psi, e, _, _, _, hu⟩⟩ := fixDryRepair_inv hn h
    · refine ⟨rfl, hnum, ?_, ?_⟩
      · simp only [hl2.2]; exact hr1
      · simp [hl2.2]; omega
    · obtain ⟨rfl, rfl⟩ := List.cons.inj e
      have hs := updAbove_shape hu
      refine ⟨rfl, hnum, inRange_shape ?_ hs, ?_⟩
      · intro f hf
        simp only [List.mem_append, List.mem_cons] at hf
        rcases hf with hf | rfl | hf
        · exact hr f (by simp [hf])
        · exact hr n (by simp)
        · simp only [decFronts, List.mem_map] at hf
          obtain ⟨x, hx, rfl⟩ := hf
          exact hr x (by simp [hx])
      · have := congrArg List.length hs
        simp at this
        simp [← this]; omega

theorem spec_fixDryLoop {g : Geo α} (hg : g.Valid) {k : Int} {fuel cnt cur : Nat} {l : List (Front α)} {mc : α}
    (hn : NumFrom k l) (hr : InRange g.numLayers l) (h0 : 0 < fuel) (hf : l.length + 1 < fuel + cnt) :
    Spec fb (fixDryLoop g fuel cnt cur l mc) fun r => r.1.length ≤ l.length := by
  induction fuel generalizing cnt cur l mc with
  | zero => omega
  | succ f ih =>
    unfold fixDryLoop
    refine Spec.ite (fun _ => Spec.ok (le_refl _)) fun hlt => ?_
    refine Spec.ite (fun hcur => ?_) (fun _ => ih hn hr (by omega) (by omega))
    refine Spec.bind _ (spec_deref' (by omega)) fun c _ hc => ?_
    refine Spec.bind _ (spec_deref' hcur) fun n _ hn' => ?_
    refine Spec.ite (fun hcond => ?_) (fun _ => ih hn hr (by omega) (by omega))
    obtain ⟨a, b, rfl, rfl⟩ := split2 hc hn'
    refine Spec.bind _ (spec_fixDryRepair hg hn hr hcond.2) fun r _ hP => ?_
    obtain ⟨h1, h2, h3, h4⟩ := hP
    refine Spec.bindT ((spec_deref' (by rw [h1, h4]; omega)).mono fun _ _ _ => trivial) fun _ _ => ?_
    refine (ih h2 h3 (by omega) (by simp at hf hlt; omega)).mono fun x _ hx => ?_
    simp; omega

theorem spec_fixDry {g : Geo α} (hg : g.Valid) {k : Int} {l : List (Front α)} {mc : α} (hn : NumFrom k l)
    (hr : InRange g.numLayers l) (hne : l ≠ []) : Spec fb (fixDry g mc l) fun r => r.1.length ≤ l.length := by
  have := List.length_pos_of_ne_nil hne
  unfold fixDry
  refine Spec.bindT ((spec_deref' this).mono fun _ _ _ => trivial) fun _ _ => ?_
  exact spec_fixDryLoop hg hn hr (by omega) (by omega)

theorem spec_checkDry {l : List (Front α)} (hne : l ≠ []) : Spec fb (checkDry l) fun _ => True := by
  have := List.length_pos_of_ne_nil hne
  unfold checkDry
  refine Spec.bindT ((spec_deref' this).mono fun _ _ _ => trivial) fun _ _ => ?_
  exact Spec.pure trivial

end LawFree

section Exact
variable {K : Type} [Field K] [LinearOrder K] [IsStrictOrderedRing K] [CMath K] [LawfulNum K] {fb : Guard}

theorem spec_crossStep {g : Geo K} (hg : g.Valid) (hcum : g.cum.Pairwise (· < ·)) {cur : Nat} {l : List (Front K)}
    (hr : InRange g.numLayers l) (hd : ∀ f, l.getLast? = some f → g.cum[g.numLayers]? = some f.depth)
    (hcur : cur + 1 < l.length) :
    Spec fb (crossStep g cur l) fun l' => InRange g.numLayers l' ∧ l'.length = l.length ∧
      ∀ f, l'.getLast? = some f → g.cum[g.numLayers]? = some f.depth := by
  refine Spec.of_ok ?_ ?_
  · unfold crossStep
    refine Spec.bind _ (spec_deref' (by omega)) fun c _ hc => ?_
    have hcr := hr c (List.mem_of_getElem? hc)
    refine Spec.bindT (spec_soil hg hcr.1 hcr.2) fun s _ => ?_
    refine Spec.bindT (spec_frozen hg hcr.2) fun ff _ => ?_
    refine Spec.bind _ (spec_deref' hcur) fun n _ hn' => ?_
    refine Spec.bindT (spec_cum hg hcr.2) fun bot hbot => ?_
    refine Spec.ite (fun hcond => ?_) (fun _ => Spec.pure trivial)
    rw [idx_ok_iff] at hbot
    refine Spec.bindT (spec_soil hg (by omega) (by omega)) fun s2 _ => ?_
    refine Spec.bindT (spec_calcSeFromTheta ..) fun Se _ => ?_
    refine Spec.bindT (spec_calcHFromSe ..) fun psi _ => ?_
    refine Spec.bindT (spec_calcKFromSe ..) fun Kc _ => ?_
    refine Spec.bindT (spec_calcThetaFromH ..) fun tn _ => ?_
    have hlen : cur + 2 < l.length := by
      obtain ⟨a, b, rfl, rfl⟩ := split2 hc hn'
      rcases b with _ | ⟨x, b⟩
      · exfalso
        have h1 := hd n (by simp)
        have h2 : n.depth = bot := beq_iff_eq.mp hcond.2.1
        rw [h2] at h1
        rw [List.getElem?_eq_some_iff] at h1 hbot
        obtain ⟨i1, e1⟩ := h1
        obtain ⟨i2, e2⟩ := hbot
        have := List.pairwise_iff_getElem.mp hcum c.layer g.numLayers i2 i1 (by omega)
        rw [e1, e2] at this
        exact lt_irrefl _ this
      · simp
    refine Spec.bindT ((spec_deref' hlen).mono fun _ _ _ => trivial) fun nn _ => ?_
    dsimp only
    refine Spec.ite (fun _ => ?_) (fun _ => ?_)
    · refine Spec.bindT (spec_cum hg (by omega)) fun c1 _ => ?_
      refine Spec.bindT (spec_cdiv fun _ => trivial) fun z _ => ?_
      exact Spec.pure trivial
    · refine Spec.bindT (spec_cdiv fun _ => trivial) fun z _ => ?_
      exact Spec.pure trivial
  · intro l' h
    rcases crossStep_inv h with rfl |
      ⟨a, c, n, nn, b, sl, ff, s2, bot, psi, Kc, tn, Se, z, rfl, rfl, _, _, hbot, hlt, heq, hN, _, _, _, _, _, _, rfl⟩
    · exact ⟨hr, rfl, hd⟩
    · refine ⟨?_, by simp, ?_⟩
      · intro f hf
        have hcr := hr c (by simp)
        simp only [List.mem_append, List.mem_cons] at hf
        rcases hf with hf | rfl | rfl | hf
        · exact hr f (by simp [hf])
        · exact hcr
        · simp only; omega
        · exact hr f (by simp [hf])
      · intro f hf
        refine hd f ?_
        simpa [List.getLast?_append, List.getLast?_cons_cons] using hf

theorem spec_crossLoop {g : Geo K} (hg : g.Valid) (hcum : g.cum.Pairwise (· < ·)) {fuel wf cur : Nat}
    {l : List (Front K)} (hr : InRange g.numLayers l)
    (hd : ∀ f, l.getLast? = some f → g.cum[g.numLayers]? = some f.depth) (hw : wf = cur + 1) (hwl : wf ≤ l.length)
    (hf : l.length < fuel + wf) : Spec fb (crossLoop g fuel wf cur l) fun _ => True := by
  induction fuel generalizing wf cur l with
  | zero => omega
  | succ f ih =>
    unfold crossLoop
    refine Spec.ite (fun _ => Spec.ok trivial) fun hne => ?_
    refine Spec.bind _ (spec_crossStep hg hcum hr hd (by omega)) fun r _ hP => ?_
    obtain ⟨h1, h2, h3⟩ := hP
    exact ih h1 h3 (by omega) (by omega) (by omega)

theorem spec_crossLayer {g : Geo K} (hg : g.Valid) (hcum : g.cum.Pairwise (· < ·)) {l : List (Front K)}
    (hr : InRange g.numLayers l) (hd : ∀ f, l.getLast? = some f → g.cum[g.numLayers]? = some f.depth) (hne : l ≠ []) :
    Spec fb (crossLayer g l) fun _ => True := by
  have := List.length_pos_of_ne_nil hne
  exact spec_crossLoop hg hcum hr hd rfl (by omega) (by omega)

end Exact
end LGAR
