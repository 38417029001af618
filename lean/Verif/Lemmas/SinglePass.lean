import Verif.Lemmas.SingleLayer
import Verif.Spec.Solved
/-
One movement of the fronts of a one-layer column: order of moisture, depths and balance.
-/
set_option linter.unusedSectionVars false
namespace LGAR

section Exact
variable {K : Type} [Field K] [LinearOrder K] [IsStrictOrderedRing K] [CMath K] [LawfulNum K]

theorem strictlyDrying_iff {l : List (Front K)} : StrictlyDrying l ↔
    ∀ i f h, l[i]? = some f → l[i + 1]? = some h → f.layer = h.layer → h.theta < f.theta := by
  induction l with
  | nil => simp [StrictlyDrying]
  | cons f t ih =>
    cases t with
    | nil => simp [StrictlyDrying]
    | cons n t =>
      rw [StrictlyDrying, ih]
      constructor
      · rintro ⟨h1, h2⟩ i x y hx hy hl
        cases i with
        | zero => simp at hx hy; subst hx; subst hy; exact h1 hl
        | succ i => exact h2 i x y (by simpa using hx) (by simpa using hy) hl
      · intro h
        exact ⟨fun hl => h 0 f n rfl rfl hl, fun i x y hx hy hl => h (i + 1) x y (by simpa using hx) (by simpa using hy) hl⟩

theorem mass_congr_water (cum : List K) : ∀ (l l' : List (Front K)),
    l.map (fun f => (f.depth, f.theta, f.layer)) = l'.map (fun f => (f.depth, f.theta, f.layer)) → mass cum l = mass cum l'
  | [], [], _ => rfl
  | [], _ :: _, h => by simp at h
  | _ :: _, [], h => by simp at h
  | f :: t, f' :: t', h => by
    simp only [List.map_cons, List.cons.injEq, Prod.mk.injEq] at h
    obtain ⟨⟨h1, h2, h3⟩, h⟩ := h
    have ih := mass_congr_water cum t t' h
    simp only [mass, ih]
    congr 1
    cases t <;> cases t' <;> simp_all [slab]

/-- Storage of a pair of fronts in a layer whose top is the surface. -/
theorem mass_pair {cum : List K} (h0 : layerTop cum 1 = 0) {c n : Front K} {t : List (Front K)} (hc : c.layer = 1)
    (hn : n.layer = 1) : mass cum (c :: n :: t) = c.depth * (c.theta - n.theta) + mass cum (n :: t) := by
  rw [mass, slab]
  simp only [hc, hn, if_true, h0, sub_zero]

/-- Fronts below the first one move without loss of water. -/
theorem shift_tail {e r column dt x : K} {cum : List K} (h0 : layerTop cum 1 = 0) (hdt : 0 ≤ dt) {l l' : List (Front K)}
    (h : Shift e r column dt x l l') (hx : x = 0) (hlay : ∀ f ∈ l, f.layer = 1) (hd : StrictlyDrying l)
    (hdep : ∀ f ∈ l, 0 < f.depth ∧ f.depth ≤ column) (he : ∀ f ∈ l, f.theta ≤ e) (hz : ∀ f ∈ l.dropLast, 0 < f.dzdt) :
    StrictlyDrying l' ∧ (∀ f ∈ l', 0 < f.depth ∧ f.depth ≤ column) ∧ mass cum l' = mass cum l ∧
      ∀ c ∈ l.head?, ∀ c' ∈ l'.head?, c'.theta ≤ c.theta := by
  induction h with
  | last x f => exact ⟨hd, hdep, rfl, by simp⟩
  | cons x c n c' n' t t' hs ht hde hne hr hth ih =>
    subst hx
    obtain ⟨i1, i2, i3, i4⟩ := ih rfl (fun f hf => hlay f (by simp [List.mem_cons.mp hf |>.elim Or.inl Or.inr])) hd.2
      (fun f hf => hdep f (by simp [List.mem_cons.mp hf |>.elim Or.inl Or.inr]))
      (fun f hf => he f (by simp [List.mem_cons.mp hf |>.elim Or.inl Or.inr]))
      (fun f hf => hz f (by rw [List.dropLast_cons_cons]; exact List.mem_cons_of_mem _ hf))
    have hcl := hlay c (by simp)
    have hnl := hlay n (by simp)
    have hcl' : c'.layer = 1 := by rw [(Front.tag_eq ht).1]; exact hcl
    have hnl' : n'.layer = 1 := by
      have := hs.tags
      rw [List.map_cons, List.map_cons, List.cons.injEq] at this
      rw [(Front.tag_eq this.1).1]; exact hnl
    obtain ⟨d1, d2⟩ := hdep c (by simp)
    have hv := hz c (by rw [List.dropLast_cons_cons]; simp)
    have hgt := hd.1 (by rw [hcl, hnl])
    have hn' := i4 n (by simp) n' (by simp)
    have hge : c.depth ≤ c'.depth := by
      rw [hde]; exact le_min (by nlinarith) d2
    have hle : c'.depth ≤ column := by rw [hde]; exact min_le_right _ _
    have hpos : 0 < c'.depth := d1.trans_le hge
    have hq1 : 0 < c.depth * (c.theta - n.theta) / c'.depth := div_pos (mul_pos d1 (by linarith)) hpos
    have hq2 : c.depth * (c.theta - n.theta) / c'.depth ≤ c.theta - n.theta := by
      rw [div_le_iff₀ hpos, mul_comm]
      exact mul_le_mul_of_nonneg_left hge (by linarith)
    rw [add_zero] at hth
    rw [min_eq_right (by linarith [he c (by simp)])] at hth
    refine ⟨⟨fun _ => by linarith, i1⟩, ?_, ?_, ?_⟩
    · intro f hf
      rcases List.mem_cons.mp hf with rfl | hf
      · exact ⟨hpos, hle⟩
      · exact i2 f hf
    · rw [mass_pair h0 hcl' hnl', mass_pair h0 hcl hnl, i3, hth]
      rw [add_sub_cancel_right, mul_div_cancel₀ _ hpos.ne']
    · intro a ha b hb
      simp only [List.head?_cons, Option.mem_def, Option.some.injEq] at ha hb
      subst ha; subst hb
      linarith

/-- Movement of all fronts: the first one takes the water in, up to saturation. -/
theorem shift_top {e r column dt x : K} {cum : List K} (h0 : layerTop cum 1 = 0) (hdt : 0 ≤ dt) {c n : Front K}
    {t l' : List (Front K)} (hcol : 0 < column) (h : Shift e r column dt x (c :: n :: t) l')
    (hlay : ∀ f ∈ c :: n :: t, f.layer = 1) (hd : StrictlyDrying (c :: n :: t)) (hc : 0 < c.depth)
    (hdep : ∀ f ∈ n :: t, 0 < f.depth ∧ f.depth ≤ column) (he : ∀ f ∈ c :: n :: t, f.theta ≤ e)
    (hz : ∀ f ∈ (c :: n :: t).dropLast, 0 < f.dzdt) :
    ∃ c' n' t', l' = c' :: n' :: t' ∧ StrictlyDrying (n' :: t') ∧ (∀ f ∈ c' :: n' :: t', 0 < f.depth ∧ f.depth ≤ column) ∧
      n'.theta < e ∧ (mass cum l' = mass cum (c :: n :: t) + x ∨ c'.theta = e) := by
  cases h with
  | cons x c n c' n' t t' hs ht hde hne hr hth =>
    obtain ⟨i1, i2, i3, i4⟩ := shift_tail h0 hdt hs rfl
      (fun f hf => hlay f (by simp [List.mem_cons.mp hf |>.elim Or.inl Or.inr])) hd.2 hdep
      (fun f hf => he f (by simp [List.mem_cons.mp hf |>.elim Or.inl Or.inr]))
      (fun f hf => hz f (by rw [List.dropLast_cons_cons]; exact List.mem_cons_of_mem _ hf))
    have hcl := hlay c (by simp)
    have hnl := hlay n (by simp)
    have hcl' : c'.layer = 1 := by rw [(Front.tag_eq ht).1]; exact hcl
    have hnl' : n'.layer = 1 := by
      have := hs.tags
      rw [List.map_cons, List.map_cons, List.cons.injEq] at this
      rw [(Front.tag_eq this.1).1]; exact hnl
    have hv := hz c (by rw [List.dropLast_cons_cons]; simp)
    have hgt := hd.1 (by rw [hcl, hnl])
    have hn' := i4 n (by simp) n' (by simp)
    have hle : c'.depth ≤ column := by rw [hde]; exact min_le_right _ _
    have hpos : 0 < c'.depth := by rw [hde]; exact lt_min (by nlinarith) hcol
    refine ⟨c', n', t', rfl, i1, ?_, by linarith [he c (by simp)], ?_⟩
    · intro f hf
      rcases List.mem_cons.mp hf with rfl | hf
      · exact ⟨hpos, hle⟩
      · exact i2 f hf
    · rcases min_choice e ((c.depth * (c.theta - n.theta) + x) / c'.depth + n'.theta) with hm | hm
      · right; rw [hth, hm]
      · left
        rw [mass_pair h0 hcl' hnl', mass_pair h0 hcl hnl, i3, hth, hm, add_sub_cancel_right, mul_div_cancel₀ _ hpos.ne']
        ring

/-- The layer-crossing pass does nothing to a one-layer column. -/
theorem crossLayer_single {g : Geo K} {l l' : List (Front K)} (hN : ∀ f ∈ l, f.layer = g.numLayers)
    (h : crossLayer g l = .ok l') : l' = l := by
  refine crossLoop_ind (P := fun x => x = l) ?_ rfl h
  intro cur x x' hx hs
  subst hx
  rcases crossStep_inv hs with rfl | ⟨a, c, n, nn, b, sl, ff, s2, bot, psi, Kc, tn, Se, z, rfl, _, _, _, _, _, _, hne, _⟩
  · rfl
  · exact absurd (hN c (by simp)) hne

theorem freeDrainage_one {l : List (Front K)} (hlay : ∀ f ∈ l, f.layer = 1) (hne : l ≠ []) :
    wettingFrontFreeDrainage l = 1 := by
  unfold wettingFrontFreeDrainage
  match l, hne with
  | [f], _ => simp [freeDrainageGo]
  | f :: n :: t, _ =>
    have h1 := hlay f (by simp)
    have h2 := hlay n (by simp)
    simp [freeDrainageGo, h1, h2]

/-- The mass correction on a one-layer column: nothing if the storage already is as wanted, otherwise the depth of the first front
changes. -/
theorem moveTop_single {g : Geo K} {oldMass precip aet : K} {c : Front K} {t : List (Front K)} {s : SoilProps K}
    {r : List (Front K) × K × K} (hN : g.numLayers = 1) (hs : g.soil 1 = .ok s) (hn : NumFrom 1 (c :: t))
    (hlay : ∀ f ∈ c :: t, f.layer = 1) (h : moveTop g oldMass precip (c :: t) aet = .ok r) :
    ((|mass g.cum (c :: t) - (oldMass + precip - aet)| ≤ 1e-5 ∨ |c.theta - s.thetaE| < 1e-15) →
      |mass g.cum r.1 + r.2.1 + r.2.2 - (oldMass + precip)| ≤ 1e-5) ∧
      (mass g.cum (c :: t) = oldMass + precip - aet → r = (c :: t, aet, 0)) ∧
      ∃ d, r.1 = { c with depth := d } :: t ∧ (c.toBottom = true → c.layer = g.numLayers → d = c.depth ∨ g.cum[g.numLayers]? = some d) := by
  have hfd := freeDrainage_one hlay (by simp)
  have hcross : ∀ l', crossLayer g (c :: t) = .ok l' → l' = c :: t :=
    fun l' h' => crossLayer_single (fun f hf => by rw [hN]; exact hlay f hf) h'
  have hfind : listFindFront (Int.ofNat 1) (c :: t) [] = some 0 := by
    rw [find_num hn (le_refl 1) (by simp)]
  have hbal : (|mass g.cum (c :: t) - (oldMass + precip - aet)| ≤ 1e-5 ∨ |c.theta - s.thetaE| < 1e-15) →
      |mass g.cum r.1 + r.2.1 + r.2.2 - (oldMass + precip)| ≤ 1e-5 := by
    intro hex
    obtain ⟨l1, w, s1, h1, hs1, hw, ho⟩ := moveTop_out h
    have := hcross l1 h1
    subst this
    rw [hfd, hs, Except.ok.injEq] at hs1
    subst hs1
    rw [hfd, hfind] at hw
    obtain ⟨i, hi, hw⟩ := derefOpt_ok_iff.mp hw
    simp only [Option.some.injEq] at hi
    subst hi
    simp only [List.getElem?_cons_zero, Option.some.injEq] at hw
    subst hw
    rcases ho with ⟨h2, rfl⟩ | ⟨h2, m, hm, h3⟩ | ⟨m, hm, _, h3, h4⟩
    · rcases hex with hex | hex
      · simp only
        rw [show mass g.cum (c :: t) + aet + 0 - (oldMass + precip) = mass g.cum (c :: t) - (oldMass + precip - aet) by ring]
        exact hex
      · exact absurd hex h2
    · rw [h2, ← massBal_val hm]
      simp only
      rw [show m + aet + 0 - (oldMass + precip) = m - (oldMass + precip - aet) by ring]
      exact h3.trans (by norm_num)
    · rw [h4, ← massBal_val hm]
      rw [show m + r.2.1 + (oldMass + precip - r.2.1 - m) - (oldMass + precip) = 0 by ring, abs_zero]
      norm_num
  refine ⟨hbal, ?_, ?_⟩
  · intro hmass
    unfold moveTop at h
    simp only [bind_ok_iff, idx_ok_iff] at h
    obtain ⟨column, hcol, l1, hl1, s1, hs1, _, _, w, hw, h⟩ := h
    have := hcross l1 hl1
    subst this
    split at h
    · simp only [bind_ok_iff, Prod.exists] at h
      obtain ⟨m, hm, fac, hfac, st, brk, hmc, h⟩ := h
      have hm' := massBal_val hm
      have e0 : CMath.fabs (m - (oldMass + precip - (aet + 0))) = (0 : K) := by
        rw [fabs_eq, hm', hmass, add_zero, sub_self, abs_zero]
      unfold mcFuel at hmc
      unfold mcLoop at hmc
      rw [if_neg] at hmc
      · simp only [Except.ok.injEq, Prod.mk.injEq] at hmc
        obtain ⟨rfl, rfl⟩ := hmc
        simpa using h.symm
      · simp only [e0]
        rw [fabs_eq, zero_sub, abs_neg, abs_of_pos (by norm_num)]
        exact lt_irrefl _
    · simpa using h.symm
  · obtain ⟨l1, column, h1, hcol, h2⟩ := moveTop_inv h
    have := hcross l1 h1
    subst this
    rcases h2 with h2 | ⟨p, w, d, hp, hw, h2, h3⟩
    · exact ⟨c.depth, by rw [h2], fun _ _ => .inl rfl⟩
    · rw [hfd, hfind, Option.some.injEq] at hp
      subst hp
      simp only [List.getElem?_cons_zero, Option.some.injEq] at hw
      subst hw
      refine ⟨d, by rw [h2]; simp, fun hb hl => (h3 hb hl).imp_right fun e => by rw [hcol, e]⟩

/-- Fronts of a one-layer column as they are between two passes: drying downwards and within the column, except that a saturated
first front may have any depth. -/
structure Neat (column e : K) (l : List (Front K)) : Prop where
  lay : ∀ f ∈ l, f.layer = 1
  dry : StrictlyDrying l
  tail : ∀ f ∈ l.tail, 0 < f.depth ∧ f.depth ≤ column
  head : ∀ f ∈ l.head?, (0 < f.depth ∧ f.depth ≤ column) ∨ f.theta = e

theorem Neat.congr {column e : K} {l l' : List (Front K)} (h : Neat column e l)
    (hd : l'.map (fun f => (f.depth, f.theta, f.layer)) = l.map (fun f => (f.depth, f.theta, f.layer))) : Neat column e l' := by
  have hget : ∀ (i : Nat) f, l'[i]? = some f → ∃ f0, l[i]? = some f0 ∧ f0.depth = f.depth ∧ f0.theta = f.theta ∧ f0.layer = f.layer := by
    intro i f hf
    have := congrArg (fun x => x[i]?) hd
    simp only [List.getElem?_map, hf, Option.map_some] at this
    cases hl : l[i]? with
    | none => rw [hl] at this; simp at this
    | some f0 =>
      rw [hl] at this
      simp only [Option.map_some, Option.some.injEq, Prod.mk.injEq] at this
      exact ⟨f0, rfl, this.1.symm, this.2.1.symm, this.2.2.symm⟩
  refine ⟨?_, ?_, ?_, ?_⟩
  · intro f hf
    obtain ⟨i, hi⟩ := List.mem_iff_getElem?.mp hf
    obtain ⟨f0, h0, _, _, e3⟩ := hget i f hi
    rw [← e3]; exact h.lay f0 (List.mem_iff_getElem?.mpr ⟨i, h0⟩)
  · refine strictlyDrying_congr ?_ h.dry
    have := congrArg (List.map (fun x : K × K × Nat => x.2)) hd
    rw [List.map_map, List.map_map] at this
    exact this.symm
  · intro f hf
    obtain ⟨i, hi⟩ := List.mem_iff_getElem?.mp hf
    rw [List.getElem?_tail] at hi
    obtain ⟨f0, h0, e1, _, _⟩ := hget (i + 1) f hi
    rw [← e1]; exact h.tail f0 (List.mem_iff_getElem?.mpr ⟨i, by rw [List.getElem?_tail]; exact h0⟩)
  · intro f hf
    rw [Option.mem_def, List.head?_eq_getElem?] at hf
    obtain ⟨f0, h0, e1, e2, _⟩ := hget 0 f hf
    rw [← e1, ← e2]; exact h.head f0 (by rw [Option.mem_def, List.head?_eq_getElem?]; exact h0)

theorem Neat.merge {g : Geo K} {column e : K} {l l' : List (Front K)} {k : Int} (hn : NumFrom k l) (hl : Neat column e l)
    (h : mergeFronts g l = .ok l') : Neat column e l' := by
  refine (mergeLoop_ind (P := Neat column e) ?_ hn hl h).2
  intro cur l r hn hl hs
  rcases mergeStep_inv hn hs with rfl | ⟨a, c, n, nn, b, d, psi, Kc, rfl, _, hd0, hcl, hb, hd, hpos, _, rfl⟩
  · exact hl
  · refine Neat.congr (l := a ++ { c with depth := d, psi := psi, K := Kc } :: nn :: b) ?_ (by simp [decFronts])
    have hlay : ∀ f ∈ a ++ c :: n :: nn :: b, f.layer = 1 := hl.lay
    have hs' := hl.dry.suffix (a := a)
    have h1 := hs'.1 hcl
    have h2 := hs'.2.1 (by rw [hlay n (by simp), hlay nn (by simp)])
    have hdc : d ≤ c.depth := by
      rw [(cdiv_ok.mp hd).2, div_le_iff₀ (by linarith)]
      nlinarith
    refine ⟨?_, ?_, ?_, ?_⟩
    · intro f hf
      simp only [List.mem_append, List.mem_cons] at hf
      rcases hf with hf | rfl | rfl | hf
      · exact hlay f (by simp [hf])
      · exact hlay c (by simp)
      · exact hlay f (by simp)
      · exact hlay f (by simp [hf])
    · exact strictlyDrying_congr (by simp) (hl.dry.remove hcl)
    · intro f hf
      have ht : ∀ f ∈ (a ++ c :: n :: nn :: b).tail, 0 < f.depth ∧ f.depth ≤ column := hl.tail
      cases a with
      | nil => exact ht f (by simp at hf ⊢; rcases hf with h | h <;> simp [h])
      | cons x a =>
        simp only [List.cons_append, List.tail_cons, List.mem_append, List.mem_cons] at hf ht
        rcases hf with hf | rfl | hf
        · exact ht f (.inl hf)
        · exact ⟨hpos, hdc.trans (ht c (by simp)).2⟩
        · exact ht f (by rcases hf with h | h <;> simp [h])
    · intro f hf
      cases a with
      | nil =>
        simp only [List.nil_append, List.head?_cons, Option.mem_def, Option.some.injEq] at hf
        subst hf
        rcases hl.head c (by simp) with h | h
        · exact .inl ⟨hpos, hdc.trans h.2⟩
        · exact .inr h
      | cons x a => exact hl.head f (by simpa using hf)

theorem Neat.domain {g : Geo K} {column e dom : K} {l : List (Front K)} {r : K × List (Front K)} {k : Int} (hn : NumFrom k l)
    (hl : Neat column e l) (h : crossDomain g dom l = .ok r) : Neat column e r.2 := by
  rcases domainLoop_inv hn h with rfl | ⟨a, c, n, psi, Kc, rfl, _, _, rfl⟩
  · exact hl
  · refine Neat.congr (l := a ++ [{ n with theta := c.theta, psi := psi, K := Kc }]) ?_ (by simp [decFronts])
    have hcl := hl.lay c (by simp)
    have hnl := hl.lay n (by simp)
    have hnt : n ∈ (a ++ [c, n]).tail := by cases a <;> simp
    refine ⟨?_, ?_, ?_, ?_⟩
    · intro f hf
      simp only [List.mem_append, List.mem_singleton] at hf
      rcases hf with hf | rfl
      · exact hl.lay f (by simp [hf])
      · exact hnl
    · have h1 : StrictlyDrying (a ++ [c]) := by
        rw [strictlyDrying_iff]
        intro i f x hf hx
        have e1 : ∀ (j : Nat) y, (a ++ [c])[j]? = some y → (a ++ [c, n])[j]? = some y := by
          intro j y hy
          have : (a ++ [c]) ++ [n] = a ++ [c, n] := by simp
          rw [← this, List.getElem?_append_left (List.getElem?_eq_some_iff.mp hy).1]; exact hy
        exact strictlyDrying_iff.mp hl.dry i f x (e1 _ _ hf) (e1 _ _ hx)
      refine strictlyDrying_congr ?_ h1
      simp [hcl, hnl]
    · intro f hf
      cases a with
      | nil => simp at hf
      | cons x a =>
        simp only [List.cons_append, List.tail_cons, List.mem_append, List.mem_singleton] at hf
        rcases hf with hf | rfl
        · exact hl.tail f (by simp [hf])
        · exact hl.tail n hnt
    · intro f hf
      cases a with
      | nil =>
        simp only [List.nil_append, List.head?_cons, Option.mem_def, Option.some.injEq] at hf
        subst hf
        exact .inl (hl.tail n hnt)
      | cons x a => exact hl.head f (by simpa using hf)

theorem checkFix_drying {g : Geo K} {mc : K} {l : List (Front K)} {r : List (Front K) × K} (hd : StrictlyDrying l)
    (h : checkFix g mc l = .ok r) : r = (l, mc) := by
  rcases checkFix_inv h with h | h
  · exact h
  · unfold fixDry at h
    simp only [bind_ok_iff] at h
    obtain ⟨_, _, h⟩ := h
    exact fixDryLoop_clean (fun i f x hf hx hl => not_le.mpr (strictlyDrying_iff.mp hd i f x hf hx hl)) h

/-- A first front that is not wetter than the next one is removed; the water that this adds is noted. -/
theorem checkFix_top {g : Geo K} {c n : Front K} {t : List (Front K)} {r : List (Front K) × K} (h0 : layerTop g.cum 1 = 0)
    (hn : NumFrom 1 (c :: n :: t)) (hlay : ∀ f ∈ c :: n :: t, f.layer = 1) (hd : StrictlyDrying (n :: t))
    (hc : 0 < c.depth) (hle : c.theta ≤ n.theta) (h : checkFix g 0 (c :: n :: t) = .ok r) :
    r.1 = decFronts (n :: t) ∧ r.2 = mass g.cum (n :: t) - mass g.cum (c :: n :: t) := by
  have hcl := hlay c (by simp)
  have hnl := hlay n (by simp)
  unfold checkFix at h
  simp only [bind_ok_iff] at h
  obtain ⟨b, hb, h⟩ := h
  have hb1 : b = true := by
    unfold checkDry at hb
    simp only [bind_ok_iff, pure_eq_ok, Except.ok.injEq] at hb
    obtain ⟨_, _, rfl⟩ := hb
    rw [checkDryGo_iff]
    exact ⟨0, c, n, rfl, rfl, by rw [hcl, hnl], hle⟩
  subst hb1
  simp only [if_true] at h
  unfold fixDry at h
  simp only [bind_ok_iff] at h
  obtain ⟨_, _, h⟩ := h
  unfold fixDryLoop at h
  rw [if_neg (by simp), if_pos (by simp)] at h
  simp only [bind_ok_iff, deref_ok_iff, List.getElem?_cons_zero, List.getElem?_cons_succ, Option.some.injEq] at h
  obtain ⟨c0, rfl, n0, rfl, h⟩ := h
  rw [if_pos ⟨hle, by rw [hcl, hnl]⟩] at h
  simp only [bind_ok_iff, Prod.exists] at h
  obtain ⟨del, l2, dm, hrep, _, _, h⟩ := h
  obtain ⟨m0, m1, l3, hm0, hm1, e, hl3⟩ := fixDryRepair_inv (a := []) (b := n :: t) hn (by simpa using hrep)
  simp only [Prod.mk.injEq] at e
  obtain ⟨_, rfl, rfl⟩ := e
  rcases hl3 with ⟨_, rfl⟩ | ⟨hgt, _⟩
  · simp only [List.nil_append] at h hm0 hm1
    have hd2 : StrictlyDrying (decFronts (n :: t)) := strictlyDrying_congr (by simp [decFronts]) hd
    have := fixDryLoop_clean (fun i f x hf hx hl => not_le.mpr (strictlyDrying_iff.mp hd2 i f x hf hx hl)) h
    subst this
    refine ⟨rfl, ?_⟩
    simp only
    rw [massBal_val hm0, massBal_val hm1, mass_dec, fabs_eq, zero_add, abs_of_nonneg]
    rw [mass_pair h0 hcl hnl]
    have : 0 ≤ c.depth * (n.theta - c.theta) := mul_nonneg hc.le (by linarith)
    linarith
  · omega

/-- Clean-up after the movement in a one-layer column. -/
theorem movePost_single {g : Geo K} {column e aet flux : K} {l : List (Front K)} {r : List (Front K) × K × K} (hN : g.numLayers = 1)
    (h0 : layerTop g.cum 1 = 0) (hinc : g.cum.Pairwise (· < ·)) (hg : Good g l) (hcol : g.cum[1]? = some column)
    (hl : Neat column e l ∨ ∃ c n t, l = c :: n :: t ∧ StrictlyDrying (n :: t) ∧ 0 < c.depth ∧ c.theta ≤ n.theta ∧
      ∀ f ∈ n :: t, 0 < f.depth ∧ f.depth ≤ column)
    (h : movePost g l aet flux = .ok r) :
    Neat column e r.1 ∧ |mass g.cum r.1 + r.2.1 + r.2.2 - (mass g.cum l + aet + flux)| ≤ 1e-7 := by
  obtain ⟨l1, mc1, l2, l3, l4, mc4, l5, col, fl, l6, l7, mc7, l8, h1, h2, h3, h4, h5, hc, h6, h7, h8, h9, ha, hf⟩ :=
    movePost_inv h
  rw [hN, hcol, Option.some.injEq] at hc
  subst hc
  have hlay1 : ∀ f ∈ l, f.layer = 1 := by
    intro f hf
    have := hg.col.range f hf
    rw [hN] at this
    omega
  have hg1 := hg.checkFix h1
  have n1 : Neat column e l1 ∧ mass g.cum l1 = mass g.cum l + mc1 := by
    rcases hl with hl | ⟨c, n, t, rfl, hd, hcd, hle, hdep⟩
    · have := checkFix_drying hl.dry h1
      simp only [Prod.mk.injEq] at this
      obtain ⟨rfl, rfl⟩ := this
      exact ⟨hl, by simp⟩
    · obtain ⟨e1, e2⟩ := checkFix_top h0 hg.sound.num hlay1 hd hcd hle h1
      simp only at e1 e2
      rw [e1, mass_dec, e2]
      refine ⟨Neat.congr (l := n :: t) ⟨fun f hf => hlay1 f (by simp [List.mem_cons.mp hf |>.elim Or.inl Or.inr]), hd, ?_, ?_⟩
        (by simp [decFronts]), by ring⟩
      · exact fun f hf => hdep f (by simp at hf; simp [hf])
      · intro f hf
        simp only [List.head?_cons, Option.mem_def, Option.some.injEq] at hf
        subst hf
        exact .inl (hdep _ (by simp))
  obtain ⟨n1, m1⟩ := n1
  have n2 := n1.merge hg1.sound.num h2
  have m2 : mass g.cum l2 = mass g.cum l1 := mergeFronts_mass hg1.sound.num hg1.col h2
  have hg2 := hg1.merge h2
  have := crossLayer_single (fun f hf => by rw [hN]; exact n2.lay f hf) h3
  subst this
  have := checkFix_drying n2.dry h4
  simp only [Prod.mk.injEq] at this
  obtain ⟨rfl, rfl⟩ := this
  have n5 := n2.merge hg2.sound.num h5
  have m5 : mass g.cum l5 = mass g.cum l4 := mergeFronts_mass hg2.sound.num hg2.col h5
  have hg5 := hg2.merge h5
  have n6 := n5.domain hg5.sound.num h6
  have m6 : mass g.cum l5 = fl + mass g.cum l6 := crossDomain_mass hg5.sound.num hg5.col
    (fun f hf _ hne => absurd (by rw [hN]; exact n5.lay f hf) hne) h6
  have hg6 := hg5.domain hinc (by rw [hN]; exact hcol) h6
  have := checkFix_drying n6.dry h7
  simp only [Prod.mk.injEq] at this
  obtain ⟨rfl, rfl⟩ := this
  have e8 := refresh_inv h8
  have e8' := congrArg (List.map (fun x : K × K × Nat × Int × Bool × K => (x.1, x.2.1, x.2.2.1))) e8
  rw [List.map_map, List.map_map] at e8'
  have n8 : Neat column e l8 := n6.congr e8'
  have m8 : mass g.cum l8 = mass g.cum l7 := mass_congr_water _ _ _ e8'
  have hr1 : r.1 = l8 := by
    rcases fixSingle_inv h9 with h | ⟨f, c1, rfl, hc1, hne, _⟩
    · exact h
    · have c8 : Col g.numLayers g.cum 1 [f] := by
        refine col_congr ?_ hg6.col
        have := congrArg (List.map (fun x : K × K × Nat × Int × Bool × K => (x.1, x.2.2.1, x.2.2.2.2.1))) e8
        rw [List.map_map, List.map_map] at this
        exact this.symm
      rw [col_single_iff] at c8
      obtain ⟨e1, e2, _, e4⟩ := c8
      rw [e1, hc1, Option.some.injEq] at e4
      rw [e4] at hne
      simp at hne
  rw [hr1]
  refine ⟨n8, ?_⟩
  rw [ha, hf, m8]
  have hm : mass g.cum l7 + fl = mass g.cum l + mc7 := by linarith
  split
  · rw [show mass g.cum l7 + (aet - mc7) + (flux + fl) - (mass g.cum l + aet + flux) = 0 by linarith, abs_zero]
    norm_num
  · rename_i hlt
    rw [show mass g.cum l7 + aet + (flux + fl) - (mass g.cum l + aet + flux) = mc7 by linarith]
    rw [fabs_eq] at hlt
    rw [not_lt] at hlt
    norm_num at hlt ⊢
    exact hlt

/-- The movement of the fronts of a one-layer column, with the clean-up. -/
theorem moveFronts_single {fuel : Nat} {g : Geo K} {column dt precip oldMass aet : K} {s : SoilProps K} {l : List (Front K)}
    {r : List (Front K) × K × K} (hN : g.numLayers = 1) (hs : g.soil 1 = .ok s) (hgap : s.thetaR < s.thetaE)
    (h0 : layerTop g.cum 1 = 0) (hinc : g.cum.Pairwise (· < ·)) (hcol : g.cum[1]? = some column) (hpos : 0 < column) (hdt : 0 ≤ dt)
    (hf : Fine g l) (hl : Neat column s.thetaE l) (hhd : ∀ f ∈ l.head?, 0 < f.depth) (hz : ∀ f ∈ l.dropLast, 0 < f.dzdt)
    (hold : oldMass = mass g.cum l) (h : moveFronts fuel g dt precip 1 oldMass aet l l = .ok r) :
    Good g r.1 ∧ Neat column s.thetaE r.1 ∧ (MoveSolved fuel g dt precip 1 oldMass aet l l →
      |mass g.cum r.1 + r.2.1 + r.2.2 - (oldMass + precip)| ≤ 1e-5 + 1e-7) := by
  refine ⟨hf.good.moveFronts hinc (.inl hN) h, ?_⟩
  unfold moveFronts at h
  simp only [bind_ok_iff, Prod.exists] at h
  obtain ⟨l2, aet2, fl, h1, h⟩ := h
  unfold moveMain at h1
  rw [if_neg (by simpa using hf.good.col.ne_nil)] at h1
  simp only [bind_ok_iff, Prod.exists] at h1
  obtain ⟨l1, aet1, h01, h1⟩ := h1
  have g1 : Good g l1 := moveOnes_good hf.good rfl le_rfl h01
  have g2 : Good g l2 := g1.moveTop (.inl hN) h1
  have hlay1 : ∀ f ∈ l1, f.layer = 1 := by
    intro f hf
    have := g1.col.range f hf
    rw [hN] at this
    omega
  have he : ∀ f ∈ l, f.theta ≤ s.thetaE := by
    intro f hm
    obtain ⟨s', hs', _, h2, _⟩ := hf.bd f hm
    rw [hl.lay f hm, hs, Except.ok.injEq] at hs'
    subst hs'
    exact h2
  have key : (Neat column s.thetaE l2 ∨ ∃ c n t, l2 = c :: n :: t ∧ StrictlyDrying (n :: t) ∧ 0 < c.depth ∧ c.theta ≤ n.theta ∧
      ∀ f ∈ n :: t, 0 < f.depth ∧ f.depth ≤ column) ∧
      (MoveSolved fuel g dt precip 1 oldMass aet l l → |mass g.cum l2 + aet2 + fl - (oldMass + precip)| ≤ 1e-5) := by
    match l, hf, hl, hhd, hz, hold, h01, he with
    | [], hf, _, _, _, _, _, _ => exact absurd rfl hf.good.col.ne_nil
    | [f], hf, hl, hhd, hz, hold, h01, he =>
      have hlen : l1.length = 1 := by
        have := moveOnes_tags hf.good.sound.num rfl le_rfl h01
        simpa using congrArg List.length this
      obtain ⟨f1, rfl⟩ := List.length_eq_one_iff.mp hlen
      have hm1 : mass g.cum [f1] = f1.theta * f1.depth := by
        simp [mass, slab, hlay1 f1 (by simp), h0]
      obtain ⟨b1, _, d, b3, _⟩ := moveTop_single hN hs g1.sound.num hlay1 h1
      simp only at b1 b3
      subst b3
      refine ⟨.inl ⟨?_, trivial, by simp, ?_⟩, fun hsol => b1 ?_⟩
      · intro f hf; simp only [List.mem_singleton] at hf; subst hf; exact hlay1 f1 (by simp)
      · intro f hf
        have := g2.lastDepth f (by simpa using hf)
        rw [hN, hcol, Option.some.injEq] at this
        rw [← this]
        exact .inl ⟨hpos, le_rfl⟩
      · have hsol1 := hsol.of_ok h01
        rcases hsol1 with h | h
        · left; rw [hm1]; rw [fabs_eq] at h; exact h
        · right; have := h.of_ok hs; rw [fabs_eq] at this; exact this
    | c :: n :: t, hf, hl, hhd, hz, hold, h01, he =>
      obtain ⟨e1, hsh⟩ := moveOnes_single hf.good.sound.num (by simp) hN hs hgap (by rw [hN]; exact hcol) hl.lay
        (fun f hf => (hz f hf).ne') h01
      simp only at e1 hsh
      subst e1
      obtain ⟨c', n', t', rfl, s1, s2, s3, s4⟩ := shift_top (cum := g.cum) h0 hdt hpos hsh hl.lay hl.dry (hhd c (by simp))
        (fun f hf => hl.tail f hf) he hz
      rw [← hold] at s4
      have hq : oldMass + (precip - aet1) = oldMass + precip - aet1 := by ring
      rw [hq] at s4
      obtain ⟨b1, b2, d, b3, _⟩ := moveTop_single hN hs g1.sound.num hlay1 h1
      refine ⟨?_, fun _ => b1 (by
        rcases s4 with h | h
        · left; rw [h, sub_self, abs_zero]; norm_num
        · right; rw [h, sub_self, abs_zero]; norm_num)⟩
      by_cases hm : mass g.cum (c' :: n' :: t') = oldMass + precip - aet1
      · have := b2 hm
        simp only [Prod.mk.injEq] at this
        obtain ⟨rfl, rfl, rfl⟩ := this
        by_cases hle : c'.theta ≤ n'.theta
        · exact .inr ⟨c', n', t', rfl, s1, (s2 c' (by simp)).1, hle,
            fun f hf => s2 f (List.mem_cons_of_mem _ hf)⟩
        · refine .inl ⟨hlay1, ⟨fun _ => not_le.mp hle, s1⟩, fun f hf => s2 f (List.mem_cons_of_mem _ hf), ?_⟩
          intro f hf
          simp only [List.head?_cons, Option.mem_def, Option.some.injEq] at hf
          subst hf
          exact .inl (s2 _ (by simp))
      · have hce := s4.resolve_left hm
        simp only at b3
        subst b3
        refine .inl ⟨?_, ⟨fun _ => ?_, s1⟩, fun f hf => s2 f (List.mem_cons_of_mem _ hf), ?_⟩
        · intro f hf
          rcases List.mem_cons.mp hf with rfl | hf
          · exact hlay1 c' (by simp)
          · exact hlay1 f (List.mem_cons_of_mem _ hf)
        · simp only; rw [hce]; exact s3
        · intro f hf
          simp only [List.head?_cons, Option.mem_def, Option.some.injEq] at hf
          subst hf
          exact .inr hce
  obtain ⟨k1, k2⟩ := key
  obtain ⟨p1, p2⟩ := movePost_single hN h0 hinc g2 hcol k1 h
  refine ⟨p1, fun hsol => ?_⟩
  have k2 := k2 hsol
  rw [show mass g.cum r.1 + r.2.1 + r.2.2 - (oldMass + precip) =
    (mass g.cum r.1 + r.2.1 + r.2.2 - (mass g.cum l2 + aet2 + fl)) + (mass g.cum l2 + aet2 + fl - (oldMass + precip)) by ring]
  refine (abs_add_le _ _).trans ?_
  linarith

end Exact
end LGAR
