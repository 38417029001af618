import Verif.Lemmas.Safe
/-
Merging, layer crossing, domain crossing, dry-over-wet repair: inversion of one iteration, loop principles.
-/
set_option linter.unusedSectionVars false
namespace LGAR

section LawFree
variable {α : Type} [Add α] [Sub α] [Mul α] [Div α] [Neg α] [Zero α] [One α] [OfScientific α]
  [LT α] [LE α] [DecidableLT α] [DecidableLE α] [BEq α] [CMath α] {fb : Guard}

/-- One iteration of the merge loop: nothing, or the front below is absorbed. -/
theorem mergeStep_inv {g : Geo α} {cur : Nat} {l : List (Front α)} {r : Nat × List (Front α)} {k : Int}
    (hn : NumFrom k l) (h : mergeStep g cur l = .ok r) :
    r = (cur + 1, l) ∨
    ∃ a c n nn b d psi Kc, l = a ++ c :: n :: nn :: b ∧ a.length = cur ∧ n.depth < c.depth ∧ c.layer = n.layer ∧
      n.toBottom = false ∧
      cdiv (c.depth * (c.theta - n.theta) + n.depth * (n.theta - nn.theta)) (c.theta - nn.theta) = .ok d ∧ 0 < d ∧
      psiKOf g c.layer c.theta = .ok (psi, Kc) ∧
      r = (cur + 1, a ++ { c with depth := d, psi := psi, K := Kc } :: decFronts (nn :: b)) := by
  unfold mergeStep at h
  simp only [bind_ok_iff, deref_ok_iff] at h
  obtain ⟨c, hc, n, hn', h⟩ := h
  split at h
  · rename_i hcond
    right
    simp only [bind_ok_iff, deref_ok_iff, cassert_ok_iff, Prod.exists] at h
    obtain ⟨nn, hnn, d, hd, _, hpos, psi, Kc, hpk, del, l2, hdel, cur', hcur, h⟩ := h
    obtain ⟨a, b, rfl, rfl⟩ := split3 hc hn' hnn
    rw [set_append_cons] at hdel
    have hn2 : NumFrom k (a ++ { c with depth := d, psi := psi, K := Kc } :: n :: nn :: b) := by
      rw [← set_append_cons a _ c]
      exact hn.set _ _ (by intro x hx; simp at hx; subst hx; rfl)
    have e : a ++ { c with depth := d, psi := psi, K := Kc } :: n :: nn :: b =
        (a ++ [{ c with depth := d, psi := psi, K := Kc }]) ++ n :: (nn :: b) := by simp
    rw [e] at hdel hn2
    rw [listDeleteFront_num hn2] at hdel
    simp only [Except.ok.injEq, Prod.mk.injEq] at hdel
    obtain ⟨rfl, rfl⟩ := hdel
    unfold ptrAfterDelete at hcur
    rw [if_neg (by simp), if_neg (by simp)] at hcur
    simp only [Except.ok.injEq] at hcur
    subst hcur
    simp only [pure_eq_ok, Except.ok.injEq] at h
    refine ⟨a, c, n, nn, b, d, psi, Kc, rfl, rfl, hcond.1, hcond.2.1, hcond.2.2, hd, hpos, hpk, ?_⟩
    rw [← h]; simp
  · left
    simpa using h.symm

theorem mergeStep_num {g : Geo α} {cur : Nat} {l : List (Front α)} {r : Nat × List (Front α)} {k : Int}
    (hn : NumFrom k l) (h : mergeStep g cur l = .ok r) : NumFrom k r.2 := by
  rcases mergeStep_inv hn h with rfl | ⟨a, c, n, nn, b, d, psi, Kc, rfl, _, _, _, _, _, _, _, rfl⟩
  · exact hn
  · have h2 : NumFrom k ((a ++ [{ c with depth := d, psi := psi, K := Kc }]) ++ n :: (nn :: b)) := by
      have := hn.set a.length { c with depth := d, psi := psi, K := Kc } (by intro x hx; simp at hx; subst hx; rfl)
      rw [set_append_cons] at this
      simpa using this
    have := numFrom_delete h2
    simpa using this

/-- Loop principle: an invariant of the iteration is an invariant of the merge pass. -/
theorem mergeLoop_ind {g : Geo α} {k : Int} {P : List (Front α) → Prop}
    (hs : ∀ cur l r, NumFrom k l → P l → mergeStep g cur l = .ok r → P r.2)
    {fuel wf cur : Nat} {l l' : List (Front α)} (hn : NumFrom k l) (hP : P l)
    (h : mergeLoop g fuel wf cur l = .ok l') : NumFrom k l' ∧ P l' := by
  induction fuel generalizing wf cur l with
  | zero => simp [mergeLoop] at h
  | succ f ih =>
    unfold mergeLoop at h
    split at h
    · simp only [Except.ok.injEq] at h; subst h; exact ⟨hn, hP⟩
    · simp only [bind_ok_iff] at h
      obtain ⟨r, hr, h⟩ := h
      exact ih (mergeStep_num hn hr) (hs _ _ _ hn hP hr) h

/-- One iteration of the layer-crossing loop. -/
theorem crossStep_inv {g : Geo α} {cur : Nat} {l l' : List (Front α)} (h : crossStep g cur l = .ok l') :
    (l' = l) ∨
    ∃ a c n nn b s ff s2 bot psi Kc thetaNew Se z, l = a ++ c :: n :: nn :: b ∧ a.length = cur ∧
      g.soil c.layer = .ok s ∧ g.frozen[c.layer]? = some ff ∧ g.cum[c.layer]? = some bot ∧ bot < c.depth ∧
      (n.depth == bot) = true ∧ c.layer ≠ g.numLayers ∧ g.soil (c.layer + 1) = .ok s2 ∧
      calcSeFromTheta c.theta s.thetaE s.thetaR = .ok Se ∧ calcHFromSe Se s.vgAlpha s.vgM s.vgN = .ok psi ∧
      calcKFromSe Se (s.Ksat * ff) s.vgM = .ok Kc ∧
      calcThetaFromH psi s2.vgAlpha s2.vgM s2.vgN s2.thetaE s2.thetaR = .ok thetaNew ∧
      (if CMath.divInf ((c.depth - n.depth) * (CMath.fmin s.thetaE c.theta - n.theta)) (thetaNew - nn.theta) then do
          let c1 ← idx g.cum (c.layer + 1)
          cdiv c1 1e3
        else cdiv ((c.depth - n.depth) * (CMath.fmin s.thetaE c.theta - n.theta)) (thetaNew - nn.theta)) = .ok z ∧
      l' = a ++ { c with depth := bot, psi := psi, K := Kc, dzdt := 0, toBottom := true } ::
        { n with theta := thetaNew, psi := psi, depth := bot + z, layer := c.layer + 1, dzdt := c.dzdt,
                 toBottom := false } :: nn :: b := by
  unfold crossStep at h
  simp only [bind_ok_iff, deref_ok_iff, idx_ok_iff] at h
  obtain ⟨c, hc, s, hs, ff, hff, n, hn', bot, hbot, h⟩ := h
  split at h
  · rename_i hcond
    right
    simp only [bind_ok_iff, deref_ok_iff] at h
    obtain ⟨s2, hs2, Se, hSe, psi, hpsi, Kc, hK, tn, htn, nn, hnn, h⟩ := h
    obtain ⟨a, b, rfl, rfl⟩ := split3 hc hn' hnn
    split at h
    · rename_i hinf
      simp only [bind_ok_iff] at h
      obtain ⟨c1, hc1, z, hz, h⟩ := h
      refine ⟨a, c, n, nn, b, s, ff, s2, bot, psi, Kc, tn, Se, z, rfl, rfl, hs, hff, hbot, hcond.1, hcond.2.1,
        hcond.2.2, hs2, hSe, hpsi, hK, htn, ?_, ?_⟩
      · rw [if_pos hinf, hc1, ok_bind, hz]
      · simp only [pure_eq_ok, Except.ok.injEq] at h
        rw [← h, set_append_cons, set_append_cons1]
    · rename_i hinf
      simp only [bind_ok_iff] at h
      obtain ⟨z, hz, h⟩ := h
      refine ⟨a, c, n, nn, b, s, ff, s2, bot, psi, Kc, tn, Se, z, rfl, rfl, hs, hff, hbot, hcond.1, hcond.2.1,
        hcond.2.2, hs2, hSe, hpsi, hK, htn, ?_, ?_⟩
      · rw [if_neg hinf, hz]
      · simp only [pure_eq_ok, Except.ok.injEq] at h
        rw [← h, set_append_cons, set_append_cons1]
  · left; simpa using h.symm

theorem crossStep_num {g : Geo α} {cur : Nat} {l l' : List (Front α)} {k : Int} (hn : NumFrom k l)
    (h : crossStep g cur l = .ok l') : NumFrom k l' := by
  rcases crossStep_inv h with rfl |
    ⟨a, c, n, nn, b, s, ff, s2, bot, psi, Kc, tn, Se, z, rfl, _, _, _, _, _, _, _, _, _, _, _, _, _, rfl⟩
  · exact hn
  · rw [NumFrom.append] at hn ⊢
    obtain ⟨h1, h2, h3, h4, h5⟩ := hn
    exact ⟨h1, h2, h3, h4, h5⟩

theorem crossLoop_ind {g : Geo α} {P : List (Front α) → Prop}
    (hs : ∀ cur l l', P l → crossStep g cur l = .ok l' → P l')
    {fuel wf cur : Nat} {l l' : List (Front α)} (hP : P l)
    (h : crossLoop g fuel wf cur l = .ok l') : P l' := by
  induction fuel generalizing wf cur l with
  | zero => simp [crossLoop] at h
  | succ f ih =>
    unfold crossLoop at h
    split at h
    · simp only [Except.ok.injEq] at h; subst h; exact hP
    · simp only [bind_ok_iff] at h
      obtain ⟨r, hr, h⟩ := h
      exact ih (hs _ _ _ hP hr) h

/-- The domain-crossing pass: nothing, or the last-but-one front is removed and its water left as flux. -/
theorem domainLoop_inv {g : Geo α} {dom : α} {len fuel wf cur : Nat} {l : List (Front α)} {r : α × List (Front α)}
    {k : Int} (hn : NumFrom k l) (h : domainLoop g dom len fuel wf cur l = .ok r) :
    r = (0, l) ∨
    ∃ a c n psi Kc, l = a ++ [c, n] ∧ dom ≤ c.depth ∧ psiKOf g c.layer c.theta = .ok (psi, Kc) ∧
      r = (0 + (c.theta - n.theta) * (c.depth - n.depth),
           a ++ decFronts [{ n with theta := c.theta, psi := psi, K := Kc }]) := by
  induction fuel generalizing wf cur with
  | zero => simp [domainLoop] at h
  | succ f ih =>
    unfold domainLoop at h
    split at h
    · left; simpa using h.symm
    · split at h
      · left; simpa using h.symm
      · simp only [bind_ok_iff, deref_ok_iff] at h
        obtain ⟨c, hc, st, hst, n, hn', h⟩ := h
        split at h
        · rename_i hcond
          simp only [bind_ok_iff, Prod.exists] at h
          obtain ⟨psi, Kc, hpk, del, l2, hdel, h⟩ := h
          obtain ⟨a, b, rfl, rfl⟩ := split2 hc hn'
          have hb : b = [] := by
            have := hcond.1
            simp only [List.length_append, List.length_cons] at this
            exact List.length_eq_zero_iff.mp (by omega)
          subst hb
          rw [set_append_cons1] at hdel
          have hn2 : NumFrom k (a ++ c :: [{ n with theta := c.theta, psi := psi, K := Kc }]) := by
            have := hn.set (a.length + 1) { n with theta := c.theta, psi := psi, K := Kc }
              (by intro x hx; rw [List.getElem?_append_right (by omega)] at hx; simp at hx; subst hx; rfl)
            rwa [set_append_cons1] at this
          rw [listDeleteFront_num hn2] at hdel
          simp only [Except.ok.injEq, Prod.mk.injEq] at hdel
          obtain ⟨rfl, rfl⟩ := hdel
          right
          exact ⟨a, c, n, psi, Kc, rfl, hcond.2, hpk, by simpa using h.symm⟩
        · exact ih h

theorem domainLoop_num {g : Geo α} {dom : α} {len fuel wf cur : Nat} {l : List (Front α)} {r : α × List (Front α)}
    {k : Int} (hn : NumFrom k l) (h : domainLoop g dom len fuel wf cur l = .ok r) : NumFrom k r.2 := by
  rcases domainLoop_inv hn h with rfl | ⟨a, c, n, psi, Kc, rfl, _, _, rfl⟩
  · exact hn
  · have h2 : NumFrom k (a ++ c :: [{ n with theta := c.theta, psi := psi, K := Kc }]) := by
      rw [NumFrom.append] at hn ⊢; exact hn
    exact numFrom_delete h2

/-- updAbove keeps numbers, layers, depths and flags. -/
theorem updAbove_num {g : Geo α} {psi : α} {j : Nat} {l l' : List (Front α)} {k : Int} (hn : NumFrom k l)
    (h : updAbove g psi j l = .ok l') : NumFrom k l' := by
  induction l generalizing k l' with
  | nil => simp [updAbove] at h
  | cons f t ih =>
    unfold updAbove at h
    split at h
    · simp only [bind_ok_iff] at h
      obtain ⟨s, _, th, _, r, hr, h⟩ := h
      simp only [pure_eq_ok, Except.ok.injEq] at h
      subst h
      exact ⟨hn.1, ih hn.2 hr⟩
    · simp only [pure_eq_ok, Except.ok.injEq] at h; subst h; exact hn

/-- Frame of updAbove: only psi and theta change. -/
def SameShape (l l' : List (Front α)) : Prop :=
  l.map (fun f => (f.depth, f.layer, f.front, f.toBottom, f.K, f.dzdt)) =
    l'.map (fun f => (f.depth, f.layer, f.front, f.toBottom, f.K, f.dzdt))

theorem updAbove_shape {g : Geo α} {psi : α} {j : Nat} {l l' : List (Front α)}
    (h : updAbove g psi j l = .ok l') : SameShape l l' := by
  induction l generalizing l' with
  | nil => simp [updAbove] at h
  | cons f t ih =>
    unfold updAbove at h
    split at h
    · simp only [bind_ok_iff] at h
      obtain ⟨s, _, th, _, r, hr, h⟩ := h
      simp only [pure_eq_ok, Except.ok.injEq] at h
      subst h
      have := ih hr
      simp only [SameShape, List.map_cons] at this ⊢
      rw [this]
    · simp only [pure_eq_ok, Except.ok.injEq] at h; subst h; rfl

/-- One repair: the front at position `a.length` is deleted; for layer 1 nothing else changes. -/
theorem fixDryRepair_inv {g : Geo α} {a b : List (Front α)} {c : Front α} {r : Nat × List (Front α) × α} {k : Int}
    (hn : NumFrom k (a ++ c :: b)) (h : fixDryRepair g c (a ++ c :: b) = .ok r) :
    ∃ m0 m1 l2, massBal g.cum (a ++ c :: b) = .ok m0 ∧ massBal g.cum l2 = .ok m1 ∧
      r = (a.length, l2, CMath.fabs (m1 - m0)) ∧
      ((c.layer ≤ 1 ∧ l2 = a ++ decFronts b) ∨
       (1 < c.layer ∧ ∃ d b' s Se psi, b = d :: b' ∧ g.soil d.layer = .ok s ∧
         calcSeFromTheta d.theta s.thetaE s.thetaR = .ok Se ∧ calcHFromSe Se s.vgAlpha s.vgM s.vgN = .ok psi ∧
         updAbove g psi c.layer (a ++ { d with front := d.front - 1, psi := psi } :: decFronts b') = .ok l2)) := by
  unfold fixDryRepair at h
  rw [listDeleteFront_num hn] at h
  simp only [bind_ok_iff, Prod.exists, Except.ok.injEq, Prod.mk.injEq] at h
  obtain ⟨m0, hm0, del, l1, ⟨rfl, rfl⟩, h⟩ := h
  split at h
  · rename_i h1
    simp only [bind_ok_iff, deref_ok_iff] at h
    obtain ⟨d, hd, s, hs, Se, hSe, psi, hpsi, l2, hu, m1, hm1, h⟩ := h
    refine ⟨m0, m1, l2, hm0, hm1, by simpa using h.symm, ?_⟩
    right
    rw [List.getElem?_append_right (by omega)] at hd
    simp only [Nat.sub_self] at hd
    cases b with
    | nil => simp at hd
    | cons d0 b' =>
      simp only [decFronts_cons, List.getElem?_cons_zero, Option.some.injEq] at hd
      subst hd
      refine ⟨h1, d0, b', s, Se, psi, rfl, hs, hSe, hpsi, ?_⟩
      rw [decFronts_cons, set_append_cons] at hu
      exact hu
  · rename_i h1
    simp only [bind_ok_iff, Except.ok.injEq] at h
    obtain ⟨l2, rfl, m1, hm1, h⟩ := h
    exact ⟨m0, m1, _, hm0, hm1, by simpa using h.symm, Or.inl ⟨by omega, rfl⟩⟩

theorem fixDryRepair_num {g : Geo α} {a b : List (Front α)} {c : Front α} {r : Nat × List (Front α) × α} {k : Int}
    (hn : NumFrom k (a ++ c :: b)) (h : fixDryRepair g c (a ++ c :: b) = .ok r) : NumFrom k r.2.1 := by
  obtain ⟨m0, m1, l2, _, _, rfl, hl | ⟨_, d, b', s, Se, psi, rfl, _, _, _, hu⟩⟩ := fixDryRepair_inv hn h
  · rw [hl.2]; exact numFrom_delete hn
  · refine updAbove_num ?_ hu
    have := numFrom_delete hn
    rw [decFronts_cons] at this
    rw [NumFrom.append] at this ⊢
    exact this

/-- Loop principle for the dry-over-wet repair. -/
theorem fixDryLoop_ind {g : Geo α} {k : Int} {P : List (Front α) → α → Prop}
    (hs : ∀ a b c n mc r, NumFrom k (a ++ c :: n :: b) → P (a ++ c :: n :: b) mc → c.theta ≤ n.theta →
      c.layer = n.layer → fixDryRepair g c (a ++ c :: n :: b) = .ok r → P r.2.1 (mc + r.2.2))
    {fuel cnt cur : Nat} {l : List (Front α)} {mc : α} {r : List (Front α) × α} (hn : NumFrom k l) (hP : P l mc)
    (h : fixDryLoop g fuel cnt cur l mc = .ok r) : NumFrom k r.1 ∧ P r.1 r.2 := by
  induction fuel generalizing cnt cur l mc with
  | zero => simp [fixDryLoop] at h
  | succ f ih =>
    unfold fixDryLoop at h
    split at h
    · simp only [Except.ok.injEq] at h; subst h; exact ⟨hn, hP⟩
    · split at h
      · simp only [bind_ok_iff, deref_ok_iff] at h
        obtain ⟨c, hc, n, hn', h⟩ := h
        split at h
        · rename_i hcond
          simp only [bind_ok_iff, Prod.exists] at h
          obtain ⟨del, l2, dm, hr, x, hx, h⟩ := h
          obtain ⟨a, b, rfl, rfl⟩ := split2 hc hn'
          exact ih (fixDryRepair_num hn hr) (hs _ _ _ _ _ _ hn hP hcond.1 hcond.2 hr) h
        · exact ih hn hP h
      · exact ih hn hP h

theorem fixDry_num {g : Geo α} {k : Int} {l : List (Front α)} {mc : α} {r : List (Front α) × α} (hn : NumFrom k l)
    (h : fixDry g mc l = .ok r) : NumFrom k r.1 := by
  unfold fixDry at h
  simp only [bind_ok_iff] at h
  obtain ⟨_, _, h⟩ := h
  exact (fixDryLoop_ind (P := fun _ _ => True) (fun _ _ _ _ _ _ _ _ _ _ _ => trivial) hn trivial h).1

theorem mergeFronts_num {g : Geo α} {k : Int} {l l' : List (Front α)} (hn : NumFrom k l)
    (h : mergeFronts g l = .ok l') : NumFrom k l' :=
  (mergeLoop_ind (P := fun _ => True) (fun _ _ _ _ _ _ => trivial) hn trivial h).1

theorem crossLayer_num {g : Geo α} {k : Int} {l l' : List (Front α)} (hn : NumFrom k l)
    (h : crossLayer g l = .ok l') : NumFrom k l' :=
  crossLoop_ind (P := NumFrom k) (fun _ _ _ hp hs => crossStep_num hp hs) hn h

theorem crossDomain_num {g : Geo α} {k : Int} {dom : α} {l : List (Front α)} {r : α × List (Front α)}
    (hn : NumFrom k l) (h : crossDomain g dom l = .ok r) : NumFrom k r.2 :=
  domainLoop_num hn h

end LawFree
end LGAR
