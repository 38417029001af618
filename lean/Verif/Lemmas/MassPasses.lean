import Verif.Lemmas.Column
/-
Storage under the merge, crossing and repair passes (exact arithmetic).
-/
set_option linter.unusedSectionVars false
namespace LGAR

variable {K : Type} [Field K] [LinearOrder K] [IsStrictOrderedRing K] [CMath K] [LawfulNum K]

theorem layerTop_of_cum {cum : List K} {k : Nat} {b : K} (h : cum[k]? = some b) : layerTop cum (k + 1) = b := by
  simp [layerTop, h]

theorem mergeStep_mass {g : Geo K} {N s cur : Nat} {cum0 cum : List K} {l : List (Front K)} {r : Nat × List (Front K)}
    {k : Int} (hn : NumFrom k l) (hc : Col N cum0 s l) (h : mergeStep g cur l = .ok r) :
    mass cum r.2 = mass cum l := by
  rcases mergeStep_inv hn h with rfl | ⟨a, c, n, nn, b, d, psi, Kc, rfl, _, _, hl, hb, hd, _, _, rfl⟩
  · rfl
  · simp only
    have hnl : n.layer = nn.layer := by
      have h1 : a ++ c :: n :: nn :: b = (a ++ [c]) ++ n :: nn :: b := by simp
      rw [h1] at hc
      obtain ⟨x, u, hx, hx'⟩ := hc.next_of_not_bottom hb
      obtain ⟨rfl, rfl⟩ := List.cons.inj hx
      exact hx'.symm
    rw [cdiv_ok] at hd
    obtain ⟨hne, rfl⟩ := hd
    have e1 := mass_append_cons cum a c
      { c with depth := (c.depth * (c.theta - n.theta) + n.depth * (n.theta - nn.theta)) / (c.theta - nn.theta),
               psi := psi, K := Kc } (n :: nn :: b) (decFronts (nn :: b)) rfl rfl
    have e2 : mass cum
        ({ c with depth := (c.depth * (c.theta - n.theta) + n.depth * (n.theta - nn.theta)) / (c.theta - nn.theta),
                  psi := psi, K := Kc } :: decFronts (nn :: b)) = mass cum (c :: n :: nn :: b) := by
      have e3 := mass_dec cum (nn :: b)
      rw [show ∀ x t, mass cum (x :: t) = slab cum x t + mass cum t from fun _ _ => rfl, e3,
        show mass cum (c :: n :: nn :: b) = slab cum c (n :: nn :: b) + (slab cum n (nn :: b) + mass cum (nn :: b))
          from rfl]
      simp only [slab, decFronts_cons, hl, hnl, if_true]
      field_simp
      ring
    linear_combination e2 - e1

theorem mergeFronts_mass {g : Geo K} {N s : Nat} {cum0 cum : List K} {l l' : List (Front K)} {k : Int}
    (hn : NumFrom k l) (hc : Col N cum0 s l) (h : mergeFronts g l = .ok l') : mass cum l' = mass cum l :=
  (mergeLoop_ind (P := fun x => Col N cum0 s x ∧ mass cum x = mass cum l)
    (fun _ _ _ hn hp hs => ⟨mergeStep_col hn hp.1 hs, (mergeStep_mass hn hp.1 hs).trans hp.2⟩) hn ⟨hc, rfl⟩ h).2.2

theorem crossDomain_mass {g : Geo K} {N s : Nat} {cum0 cum : List K} {dom : K} {l : List (Front K)}
    {r : K × List (Front K)} {k : Int} (hn : NumFrom k l) (hc : Col N cum0 s l)
    (hdom : ∀ f ∈ l, f.toBottom = true → f.layer ≠ N → ¬ dom ≤ f.depth)
    (h : crossDomain g dom l = .ok r) : mass cum l = r.1 + mass cum r.2 := by
  rcases domainLoop_inv hn h with rfl | ⟨a, c, n, psi, Kc, rfl, hd, _, rfl⟩
  · simp
  · have hs := hc.suffix
    rw [col_cons_iff, col_single_iff] at hs
    obtain ⟨_, _, h3, h4, _, hN, _⟩ := hs
    have hl : c.layer = n.layer := by
      by_contra hne
      refine hdom c (by simp) (h3.mpr hne) ?_ hd
      rw [← hN]; exact hne
    simp only [zero_add]
    have e1 := mass_append_cons cum a c { n with theta := c.theta, psi := psi, K := Kc, front := n.front - 1 } [n] []
      hl rfl
    rw [decFronts_cons, decFronts_nil]
    simp only [mass, slab, hl, if_true, add_zero] at e1 ⊢
    linear_combination e1

/-- One layer crossing. -/
theorem crossStep_mass {cum : List K} {a b : List (Front K)} {c n nn c' n' : Front K} {bot z te tn : K}
    (hcl : c.layer = n.layer) (hnn : nn.layer = n.layer + 1) (hbot : cum[n.layer]? = some bot) (hnd : n.depth = bot)
    (hte : te = c.theta) (hz : z * (tn - nn.theta) = (c.depth - n.depth) * (te - n.theta))
    (hc' : c' = { c with depth := bot, psi := c'.psi, K := c'.K, dzdt := c'.dzdt, toBottom := true })
    (hn' : n'.theta = tn ∧ n'.depth = bot + z ∧ n'.layer = c.layer + 1) :
    mass cum (a ++ c' :: n' :: nn :: b) = mass cum (a ++ c :: n :: nn :: b) := by
  have h1 : c'.layer = c.layer := by rw [hc']
  have h2 : c'.theta = c.theta := by rw [hc']
  have h3 : c'.depth = bot := by rw [hc']
  have e1 := mass_append_cons cum a c c' (n :: nn :: b) (n' :: nn :: b) h1.symm h2.symm
  have e2 : mass cum (c' :: n' :: nn :: b) = mass cum (c :: n :: nn :: b) := by
    simp only [show ∀ x t, mass cum (x :: t) = slab cum x t + mass cum t from fun _ _ => rfl]
    generalize slab cum nn b + mass cum b = M
    simp only [slab, h1, h2, h3, hn'.1, hn'.2.1, hn'.2.2, hcl, hnn, layerTop_of_cum hbot]
    subst hte
    simp only [if_true]
    rw [if_neg (by omega)]
    rw [if_neg (by omega)]
    rw [hnd] at hz ⊢
    linear_combination hz
  linear_combination e2 - e1

/-- Position-aware loop principle for layer crossing. -/
theorem crossLoop_pos {g : Geo K} {P : Nat → List (Front K) → Prop}
    (hs : ∀ cur l l', P cur l → crossStep g cur l = .ok l' → P (cur + 1) l')
    {fuel wf cur : Nat} {l l' : List (Front K)} (hP : P cur l)
    (h : crossLoop g fuel wf cur l = .ok l') : ∃ c, P c l' := by
  induction fuel generalizing wf cur l with
  | zero => simp [crossLoop] at h
  | succ f ih =>
    unfold crossLoop at h
    split at h
    · simp only [Except.ok.injEq] at h; subst h; exact ⟨_, hP⟩
    · simp only [bind_ok_iff] at h
      obtain ⟨r, hr, h⟩ := h
      exact ih (hs _ _ _ hP hr) h

/-- No front from position `i` on that does not touch the bottom of its layer lies exactly at that bottom, the deepest
layer `N` excepted. -/
def NoTouchFrom (N : Nat) (cum : List K) (i : Nat) (l : List (Front K)) : Prop :=
  ∀ j f, i ≤ j → l[j]? = some f → f.toBottom = false → f.layer ≠ N → cum[f.layer]? ≠ some f.depth

theorem crossStep_untouched {g : Geo K} {cur : Nat} {l l' : List (Front K)} (h : crossStep g cur l = .ok l') :
    ∀ j, cur + 2 ≤ j → l'[j]? = l[j]? := by
  rcases crossStep_inv h with rfl |
    ⟨a, c, n, nn, b, sl, ff, s2, bot, psi, Kc, tn, Se, z, rfl, rfl, _, _, hbot, hlt, heq, hN, _, _, _, _, _, _, rfl⟩
  · intro j _; rfl
  · intro j hj
    rw [List.getElem?_append_right (by omega), List.getElem?_append_right (by omega)]
    obtain ⟨m, hm⟩ : ∃ m, j - a.length = m + 2 := ⟨j - a.length - 2, by omega⟩
    rw [hm]; simp

theorem crossStep_col' {g : Geo K} {N s cur : Nat} {l l' : List (Front K)} (hc : Col N g.cum s l)
    (ht : NoTouchFrom g.numLayers g.cum (cur + 1) l) (h : crossStep g cur l = .ok l') :
    Col N g.cum s l' ∧ NoTouchFrom g.numLayers g.cum (cur + 2) l' := by
  refine ⟨crossStep_col hc ?_ ?_ h, ?_⟩
  · intro f hf b hb hlt
    cases hfb : f.toBottom
    · rfl
    · have := hc.depths f (List.mem_of_getElem? hf) hfb
      rw [hb] at this
      simp only [Option.some.injEq] at this
      exact absurd hlt (by rw [this]; exact lt_irrefl _)
  · intro f hf hN b hb heq
    cases hfb : f.toBottom
    · exfalso
      refine ht (cur + 1) f (le_refl _) hf hfb hN ?_
      rw [hb]; congr 1; exact (beq_iff_eq.mp heq).symm
    · rfl
  · intro j f hj hf hfb
    rw [crossStep_untouched h j hj] at hf
    exact ht j f (by omega) hf hfb

theorem crossLayer_col {g : Geo K} {N s : Nat} {l l' : List (Front K)} (hc : Col N g.cum s l)
    (ht : NoTouchFrom g.numLayers g.cum 1 l) (h : crossLayer g l = .ok l') : Col N g.cum s l' := by
  obtain ⟨c, hP⟩ := crossLoop_pos (P := fun cur l => Col N g.cum s l ∧ NoTouchFrom g.numLayers g.cum (cur + 1) l)
    (fun cur l l' hP hs => crossStep_col' hP.1 hP.2 hs) ⟨hc, ht⟩ h
  exact hP.1

/-- Adjacent fronts of one layer with equal moisture at position `i`. -/
def EqualPair (i : Nat) (l : List (Front K)) (f g : Front K) : Prop :=
  l[i]? = some f ∧ l[i + 1]? = some g ∧ f.layer = g.layer ∧ f.theta = g.theta

/-- Storage over a layer-crossing pass. -/
theorem crossLayer_mass {g : Geo K} {N s : Nat} {l l' : List (Front K)} (hc : Col N g.cum s l)
    (ht : NoTouchFrom g.numLayers g.cum 1 l)
    (hth : ∀ f ∈ l, ∀ so, g.soil f.layer = .ok so → f.theta ≤ so.thetaE)
    (hcurve : ∀ k s1 s2 Se psi th, g.soil k = .ok s1 → g.soil (k + 1) = .ok s2 →
      calcHFromSe Se s1.vgAlpha s1.vgM s1.vgN = .ok psi →
      calcThetaFromH psi s2.vgAlpha s2.vgM s2.vgN s2.thetaE s2.thetaR = .ok th → th ≤ s2.thetaE)
    (hthick : ∀ k b0 b1, g.cum[k]? = some b0 → g.cum[k + 1]? = some b1 → b0 + b1 / 1000 ≤ b1)
    (hne : ∀ i f h, ¬ EqualPair i l' f h)
    (h : crossLayer g l = .ok l') : mass g.cum l' = mass g.cum l := by
  have key := crossLoop_pos (g := g)
    (P := fun cur x => (Col N g.cum s x ∧ NoTouchFrom g.numLayers g.cum (cur + 1) x) ∧
      (∀ f ∈ x, ∀ so, g.soil f.layer = .ok so → f.theta ≤ so.thetaE) ∧
      (mass g.cum x = mass g.cum l ∨ ∃ i f h, EqualPair i x f h ∧
        (i < cur ∨ (i = cur ∧ ∃ b, g.cum[f.layer]? = some b ∧ f.depth ≤ b)))) ?_ ⟨⟨hc, ht⟩, hth, Or.inl rfl⟩ h
  · obtain ⟨c, _, _, hm | ⟨i, f, h', he, _⟩⟩ := key
    · exact hm
    · exact absurd he (hne i f h')
  · rintro cur x x' ⟨⟨xc, xt⟩, xth, xm⟩ hs
    have hs0 := hs
    refine ⟨crossStep_col' xc xt hs, ?_⟩
    rcases crossStep_inv hs with rfl |
      ⟨a, c, n, nn, b, sl, ff, s2, bot, psi, Kc, tn, Se, z, rfl, rfl, hsl, _, hbot, hlt, heq, hN, hs2, _, hpsi, _,
        htn, hz, rfl⟩
    · refine ⟨xth, xm.imp id ?_⟩
      rintro ⟨i, f, h', he, hi⟩
      exact ⟨i, f, h', he, Or.inl (by omega)⟩
    · have heq' : n.depth = bot := beq_iff_eq.mp heq
      have hcb : c.toBottom = false := by
        cases hfb : c.toBottom
        · rfl
        · have := xc.depths c (by simp) hfb
          rw [hbot] at this
          simp only [Option.some.injEq] at this
          exact absurd hlt (by rw [this]; exact lt_irrefl _)
      obtain ⟨n0, u0, e0, hl0⟩ := xc.next_of_not_bottom hcb
      obtain ⟨rfl, rfl⟩ := List.cons.inj e0
      have hnb : n.toBottom = true := by
        cases hfb : n.toBottom
        · exact absurd (by rw [hl0, heq']; exact hbot) (xt (a.length + 1) n (le_refl _) (by simp) hfb (by rw [hl0]; exact hN))
        · rfl
      have hsuf := xc.suffix
      rw [col_cons_iff, col_cons_iff] at hsuf
      obtain ⟨_, _, _, _, _, h6, h7, _, _⟩ := hsuf
      have hnn : nn.layer = n.layer + 1 := by
        rcases h6 with h6 | h6
        · exact absurd h6.symm (h7.mp hnb)
        · exact h6
      have hcth : c.theta ≤ sl.thetaE := xth c (by simp) sl hsl
      refine ⟨?_, ?_⟩
      · intro f hf so hso
        simp only [List.mem_append, List.mem_cons] at hf
        rcases hf with hf | rfl | rfl | hf
        · exact xth f (by simp [hf]) so hso
        · exact xth c (by simp) so hso
        · simp only at hso ⊢
          rw [hs2] at hso
          simp only [Except.ok.injEq] at hso
          subst hso
          exact hcurve _ _ _ _ _ _ hsl hs2 hpsi htn
        · exact xth f (by simp [hf]) so hso
      · rcases xm with xm | ⟨i, f, h', he, hi | ⟨hi, bb, hbb, hdep⟩⟩
        · -- conserved so far
          split at hz
          · rename_i hinf
            rw [divInf_iff] at hinf
            simp only [bind_ok_iff, idx_ok_iff] at hz
            obtain ⟨c1, hc1, hz⟩ := hz
            right
            refine ⟨a.length + 1, ⟨bot + z, tn, psi, n.K, c.layer + 1, n.front, false, c.dzdt⟩, nn,
              ⟨by simp, by rw [List.getElem?_append_right (by omega), show a.length + 1 + 1 - a.length = 2 by omega]; rfl,
                ?_, ?_⟩, Or.inr ⟨rfl, c1, ?_, ?_⟩⟩
            · simp [hnn, hl0]
            · simp only; linear_combination hinf.1
            · exact hc1
            · rw [cdiv_ok] at hz
              obtain ⟨_, rfl⟩ := hz
              have := hthick _ _ _ hbot hc1
              have e : (1e3 : K) = 1000 := by norm_num
              simp only [e]; exact this
          · rename_i hinf
            rw [cdiv_ok] at hz
            obtain ⟨hne0, rfl⟩ := hz
            left
            rw [← xm]
            refine crossStep_mass (te := CMath.fmin sl.thetaE c.theta) (tn := tn)
              (z := (c.depth - n.depth) * (CMath.fmin sl.thetaE c.theta - n.theta) / (tn - nn.theta)) hl0.symm hnn
              (by rw [hl0]; exact hbot) heq' ?_ ?_ rfl ⟨rfl, rfl, rfl⟩
            · rw [fmin_eq, min_eq_right hcth]
            · field_simp
        · right
          obtain ⟨p1, p2, p3, p4⟩ := he
          by_cases hi2 : i + 1 < a.length
          · refine ⟨i, f, h', ⟨?_, ?_, p3, p4⟩, Or.inl (by omega)⟩
            · rw [List.getElem?_append_left (by omega)] at p1 ⊢; exact p1
            · rw [List.getElem?_append_left (by omega)] at p2 ⊢; exact p2
          · have hi3 : i + 1 = a.length := by omega
            rw [hi3] at p2
            simp only [List.getElem?_append_right (le_refl a.length), Nat.sub_self, List.getElem?_cons_zero,
              Option.some.injEq] at p2
            subst p2
            refine ⟨i, f, { c with depth := bot, psi := psi, K := Kc, dzdt := 0, toBottom := true },
              ⟨?_, by rw [hi3]; simp, p3, p4⟩, Or.inl (by omega)⟩
            rw [List.getElem?_append_left (by omega)] at p1 ⊢; exact p1
        · exfalso
          obtain ⟨p1, _⟩ := he
          rw [hi] at p1
          simp only [List.getElem?_append_right (le_refl a.length), Nat.sub_self, List.getElem?_cons_zero,
            Option.some.injEq] at p1
          subst p1
          rw [hbot] at hbb
          simp only [Option.some.injEq] at hbb
          rw [← hbb] at hdep
          exact absurd hlt (not_lt.mpr hdep)

theorem massBal_mass {cum : List K} {l : List (Front K)} {m : K} (h : massBal cum l = .ok m)
    (hc : LayersInRange cum l) : m = mass cum l := by
  rw [massBal_eq cum l hc] at h
  simpa using h.symm

theorem massBalGo_layers {cum : List K} {l : List (Front K)} {s m : K} (h : massBalGo cum s l = .ok m) :
    m = s + mass cum l := by
  induction l generalizing s with
  | nil => simp [massBalGo] at h; simp [mass, h]
  | cons f t ih =>
    unfold massBalGo at h
    simp only [bind_ok_iff] at h
    obtain ⟨b, hb, h⟩ := h
    rw [idxPred_ok_iff] at hb
    have hb' : layerTop cum f.layer = b := by simp [layerTop, hb.2]
    cases t with
    | nil =>
      simp [massBalGo] at h
      simp only [mass, slab, hb', add_zero]; exact h.symm
    | cons n t =>
      simp only at h
      rw [show mass cum (f :: n :: t) = slab cum f (n :: t) + mass cum (n :: t) from rfl]
      simp only [slab, hb']
      split at h
      · rw [ih h, if_pos ‹_›]; ring
      · rw [ih h, if_neg ‹_›]; ring

theorem massBal_val {cum : List K} {l : List (Front K)} {m : K} (h : massBal cum l = .ok m) : m = mass cum l := by
  have := massBalGo_layers h; simpa using this

/-- The booked change bounds the storage change. -/
theorem fixDryLoop_bound {g : Geo K} {k : Int} {fuel cnt cur : Nat} {l : List (Front K)} {mc : K}
    {r : List (Front K) × K} (hn : NumFrom k l) (h : fixDryLoop g fuel cnt cur l mc = .ok r) :
    |mass g.cum r.1 - mass g.cum l| ≤ r.2 - mc := by
  refine (fixDryLoop_ind (P := fun x m => |mass g.cum x - mass g.cum l| ≤ m - mc) ?_ hn (by simp) h).2
  intro a b c n m r hn hP _ _ hr
  obtain ⟨m0, m1, l2, hm0, hm1, rfl, _⟩ := fixDryRepair_inv hn hr
  simp only
  rw [massBal_val hm0, massBal_val hm1, fabs_eq]
  calc |mass g.cum l2 - mass g.cum l|
      = |(mass g.cum l2 - mass g.cum (a ++ c :: n :: b)) + (mass g.cum (a ++ c :: n :: b) - mass g.cum l)| := by
        congr 1; ring
    _ ≤ _ := abs_add_le _ _
    _ ≤ _ := by linarith

/-- Depths do not decrease with the front number within a layer, and no front is above the top of its layer. -/
def Ordered (cum : List K) : List (Front K) → Prop
  | [] => True
  | [f] => layerTop cum f.layer ≤ f.depth
  | f :: n :: t => layerTop cum f.layer ≤ f.depth ∧ (f.layer = n.layer → f.depth ≤ n.depth) ∧ Ordered cum (n :: t)

theorem Ordered.suffix {cum : List K} {a : List (Front K)} {x : Front K} {u : List (Front K)}
    (h : Ordered cum (a ++ x :: u)) : Ordered cum (x :: u) := by
  induction a with
  | nil => exact h
  | cons f a ih =>
    cases a with
    | nil => exact h.2.2
    | cons g a => exact ih h.2.2

theorem Ordered.dec {cum : List K} {a b : List (Front K)} (h : Ordered cum (a ++ b)) : Ordered cum (a ++ decFronts b) := by
  have key : ∀ (l l' : List (Front K)), l.map (fun f => (f.depth, f.layer)) = l'.map (fun f => (f.depth, f.layer)) →
      Ordered cum l → Ordered cum l' := by
    intro l
    induction l with
    | nil => intro l' e _; cases l' <;> simp_all [Ordered]
    | cons f t ih =>
      intro l' e h
      cases l' with
      | nil => simp at e
      | cons f' t' =>
        simp only [List.map_cons, List.cons.injEq, Prod.mk.injEq] at e
        cases t with
        | nil =>
          have : t' = [] := by simpa using e.2.symm
          subst this
          simp only [Ordered] at h ⊢
          rw [← e.1.1, ← e.1.2]; exact h
        | cons n t =>
          cases t' with
          | nil => simp at e
          | cons n' t' =>
            have e2 := e.2
            simp only [List.map_cons, List.cons.injEq, Prod.mk.injEq] at e2
            refine ⟨by rw [← e.1.1, ← e.1.2]; exact h.1, ?_, ih _ (by simp [e2]) h.2.2⟩
            rw [← e.1.1, ← e.1.2, ← e2.1.1, ← e2.1.2]; exact h.2.1
  exact key _ _ (by simp [decFronts]) h

theorem Ordered.remove {cum : List K} {a : List (Front K)} {c n : Front K} {b : List (Front K)}
    (h : Ordered cum (a ++ c :: n :: b)) (hl : c.layer = n.layer) : Ordered cum (a ++ n :: b) := by
  induction a with
  | nil => exact h.2.2
  | cons f a ih =>
    cases a with
    | nil =>
      refine ⟨h.1, ?_, h.2.2.2.2⟩
      intro he
      exact le_trans (h.2.1 (he.trans hl.symm)) (h.2.2.2.1 hl)
    | cons g a => exact ⟨h.1, h.2.1, ih h.2.2⟩

/-- Removing a dry-over-wet front gains storage. -/
theorem mass_remove {cum : List K} {a : List (Front K)} {c n : Front K} {b : List (Front K)}
    (h : Ordered cum (a ++ c :: n :: b)) (hl : c.layer = n.layer) (hle : c.theta ≤ n.theta) :
    mass cum (a ++ c :: n :: b) ≤ mass cum (a ++ n :: b) := by
  induction a with
  | nil =>
    simp only [List.nil_append]
    rw [show mass cum (c :: n :: b) = slab cum c (n :: b) + mass cum (n :: b) from rfl]
    simp only [slab, hl, if_true]
    have h1 : layerTop cum c.layer ≤ c.depth := h.1
    rw [hl] at h1
    nlinarith [mul_nonneg (sub_nonneg.mpr h1) (sub_nonneg.mpr hle)]
  | cons f a ih =>
    cases a with
    | nil =>
      simp only [List.cons_append, List.nil_append] at h ⊢
      rw [show ∀ u, mass cum (f :: u) = slab cum f u + mass cum u from fun _ => rfl,
        show ∀ u, mass cum (f :: u) = slab cum f u + mass cum u from fun _ => rfl,
        show mass cum (c :: n :: b) = slab cum c (n :: b) + mass cum (n :: b) from rfl]
      have h1 : layerTop cum c.layer ≤ c.depth := h.2.2.1
      rw [hl] at h1
      simp only [slab, hl, if_true]
      by_cases hf : n.layer = f.layer
      · have h2 := h.2.1 (by rw [hl, hf])
        simp only [if_pos hf]
        rw [hf]
        nlinarith [mul_nonneg (sub_nonneg.mpr h2) (sub_nonneg.mpr hle)]
      · simp only [if_neg hf]
        nlinarith [mul_nonneg (sub_nonneg.mpr h1) (sub_nonneg.mpr hle)]
    | cons g a =>
      have := ih h.2.2
      simp only [List.cons_append] at this ⊢
      rw [show ∀ u, mass cum (f :: g :: u) = slab cum f (g :: u) + mass cum (g :: u) from fun _ => rfl,
        show ∀ u, mass cum (f :: g :: u) = slab cum f (g :: u) + mass cum (g :: u) from fun _ => rfl]
      simp only [slab]; linarith

/-- Neighbouring fronts of one layer with the upper one not wetter occur in layer 1 only. -/
def DryInTop : List (Front K) → Prop
  | [] => True
  | [_] => True
  | c :: n :: t => (c.theta ≤ n.theta → c.layer = n.layer → c.layer = 1) ∧ DryInTop (n :: t)

theorem DryInTop.congr {l l' : List (Front K)}
    (e : l.map (fun f => (f.theta, f.layer)) = l'.map (fun f => (f.theta, f.layer))) (h : DryInTop l) : DryInTop l' := by
  induction l generalizing l' with
  | nil => cases l' <;> simp_all [DryInTop]
  | cons c t ih =>
    cases l' with
    | nil => simp at e
    | cons c' t' =>
      simp only [List.map_cons, List.cons.injEq, Prod.mk.injEq] at e
      cases t with
      | nil =>
        have : t' = [] := by simpa using e.2.symm
        subst this; trivial
      | cons n t =>
        cases t' with
        | nil => simp at e
        | cons n' t' =>
          have e2 := e.2
          simp only [List.map_cons, List.cons.injEq, Prod.mk.injEq] at e2
          refine ⟨?_, ih e.2 h.2⟩
          rw [← e.1.1, ← e.1.2, ← e2.1.1, ← e2.1.2]; exact h.1

theorem DryInTop.remove {a b : List (Front K)} {c n : Front K} (h : DryInTop (a ++ c :: n :: b))
    (hl : c.layer = n.layer) (h1 : c.layer = 1) : DryInTop (a ++ n :: b) := by
  induction a with
  | nil => exact h.2
  | cons f a ih =>
    cases a with
    | nil => exact ⟨fun _ he => by rw [he, ← hl, h1], h.2.2⟩
    | cons g a => exact ⟨h.1, ih h.2⟩

theorem DryInTop.at {a b : List (Front K)} {c n : Front K} (h : DryInTop (a ++ c :: n :: b))
    (ht : c.theta ≤ n.theta) (hl : c.layer = n.layer) : c.layer = 1 := by
  induction a with
  | nil => exact h.1 ht hl
  | cons f a ih =>
    cases a with
    | nil => exact ih h.2
    | cons g a => exact ih h.2

theorem fixDryLoop_gain {g : Geo K} {k : Int} {fuel cnt cur : Nat} {l : List (Front K)} {mc : K}
    {r : List (Front K) × K} (hn : NumFrom k l) (ho : Ordered g.cum l) (hd : DryInTop l)
    (h : fixDryLoop g fuel cnt cur l mc = .ok r) : mass g.cum r.1 - mass g.cum l = r.2 - mc := by
  refine (fixDryLoop_ind
    (P := fun x m => Ordered g.cum x ∧ DryInTop x ∧ mass g.cum x - mass g.cum l = m - mc) ?_ hn
      ⟨ho, hd, by simp⟩ h).2.2.2
  rintro a b c n m r hn ⟨ho, hd, hP⟩ ht hl hr
  have h1 := hd.at ht hl
  obtain ⟨m0, m1, l2, hm0, hm1, rfl, ⟨_, rfl⟩ | ⟨hgt, _⟩⟩ := fixDryRepair_inv hn hr
  · refine ⟨(ho.remove hl).dec, ?_, ?_⟩
    · exact DryInTop.congr (l := a ++ n :: b) (by simp [decFronts]) (hd.remove hl h1)
    · simp only
      have e : mass g.cum (a ++ decFronts (n :: b)) = mass g.cum (a ++ n :: b) :=
        mass_congr_data _ _ _ (by simp only [List.map_append, decFronts_data])
      rw [massBal_val hm0, massBal_val hm1, fabs_eq, abs_of_nonneg, e]
      · linarith
      · rw [e]; linarith [mass_remove ho hl ht]
  · omega

/-! ### detector -/

theorem checkDryGo_iff (l : List (Front K)) : checkDryGo l = true ↔
    ∃ i f h, l[i]? = some f ∧ l[i + 1]? = some h ∧ f.layer = h.layer ∧ f.theta ≤ h.theta := by
  induction l with
  | nil => simp [checkDryGo]
  | cons c t ih =>
    cases t with
    | nil => simp [checkDryGo]
    | cons n t =>
      unfold checkDryGo
      split
      · rename_i hc
        simp only [true_iff]
        exact ⟨0, c, n, rfl, rfl, hc.2, hc.1⟩
      · rename_i hc
        rw [ih]
        constructor
        · rintro ⟨i, f, h, h1, h2, h3⟩
          exact ⟨i + 1, f, h, by simpa using h1, by simpa using h2, h3⟩
        · rintro ⟨i, f, h, h1, h2, h3, h4⟩
          cases i with
          | zero =>
            simp at h1 h2
            subst h1; subst h2
            exact absurd ⟨h4, h3⟩ hc
          | succ i => exact ⟨i, f, h, by simpa using h1, by simpa using h2, h3, h4⟩

theorem fixDryLoop_clean {g : Geo K} {fuel cnt cur : Nat} {l : List (Front K)} {mc : K} {r : List (Front K) × K}
    (hno : ∀ i f h, l[i]? = some f → l[i + 1]? = some h → f.layer = h.layer → ¬ f.theta ≤ h.theta)
    (h : fixDryLoop g fuel cnt cur l mc = .ok r) : r = (l, mc) := by
  induction fuel generalizing cnt cur with
  | zero => simp [fixDryLoop] at h
  | succ f ih =>
    unfold fixDryLoop at h
    split at h
    · simpa using h.symm
    · split at h
      · simp only [bind_ok_iff, deref_ok_iff] at h
        obtain ⟨c, hc, n, hn', h⟩ := h
        rw [if_neg (fun hcond => hno _ _ _ hc hn' hcond.2 hcond.1)] at h
        exact ih h
      · exact ih h

theorem fixDryLoop_len {g : Geo K} {k : Int} {fuel cnt cur : Nat} {l : List (Front K)} {mc : K} {r : List (Front K) × K}
    (hn : NumFrom k l) (h : fixDryLoop g fuel cnt cur l mc = .ok r) : r.1.length ≤ l.length := by
  refine (fixDryLoop_ind (P := fun x _ => x.length ≤ l.length) ?_ hn (le_refl _) h).2
  intro a b c n m r hn hP ht hl hr
  refine le_trans ?_ hP
  obtain ⟨m0, m1, l2, _, _, rfl, hl2 | ⟨_, d, b', sl, Se, psi, e, _, _, _, hu⟩⟩ := fixDryRepair_inv hn hr
  · simp [hl2.2]
  · obtain ⟨rfl, rfl⟩ := List.cons.inj e
    have := congrArg List.length (updAbove_shape hu)
    simp at this
    simp [← this]

theorem fixDryLoop_shrinks {g : Geo K} {k : Int} {fuel cnt cur : Nat} {l : List (Front K)} {mc : K}
    {r : List (Front K) × K} (hn : NumFrom k l) (hcnt : cnt = cur + 1)
    (hex : ∃ i f h, cur ≤ i ∧ l[i]? = some f ∧ l[i + 1]? = some h ∧ f.layer = h.layer ∧ f.theta ≤ h.theta)
    (h : fixDryLoop g fuel cnt cur l mc = .ok r) : r.1.length < l.length := by
  induction fuel generalizing cnt cur mc with
  | zero => simp [fixDryLoop] at h
  | succ f ih =>
    obtain ⟨i, f0, h0, hi, p1, p2, p3, p4⟩ := hex
    have hlen : i + 1 < l.length := (List.getElem?_eq_some_iff.mp p2).1
    unfold fixDryLoop at h
    rw [if_neg (by omega), if_pos (by omega)] at h
    simp only [bind_ok_iff, deref_ok_iff] at h
    obtain ⟨c, hc, n, hn', h⟩ := h
    split at h
    · rename_i hcond
      simp only [bind_ok_iff, Prod.exists] at h
      obtain ⟨del, l2, dm, hr, x, hx, h⟩ := h
      obtain ⟨a, b, rfl, rfl⟩ := split2 hc hn'
      have h3 := fixDryLoop_len (fixDryRepair_num hn hr) h
      refine lt_of_le_of_lt h3 ?_
      obtain ⟨m0, m1, l3, _, _, e3, hl2 | ⟨_, d, b', sl, Se, psi, e, _, _, _, hu⟩⟩ := fixDryRepair_inv hn hr
      · simp only [Prod.mk.injEq] at e3
        simp [e3.2.1, hl2.2]
      · obtain ⟨rfl, rfl⟩ := List.cons.inj e
        have := congrArg List.length (updAbove_shape hu)
        simp at this
        simp only [Prod.mk.injEq] at e3
        simp [e3.2.1, ← this]
    · rename_i hcond
      refine ih (by omega) ⟨i, f0, h0, ?_, p1, p2, p3, p4⟩ h
      rcases Nat.lt_or_ge cur i with h' | h'
      · omega
      · exfalso
        obtain rfl : i = cur := by omega
        rw [hc] at p1; rw [hn'] at p2
        simp only [Option.some.injEq] at p1 p2
        subst p1; subst p2
        exact hcond ⟨p4, p3⟩

end LGAR
