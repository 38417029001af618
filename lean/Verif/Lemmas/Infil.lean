import Verif.Lemmas.PassSafe
/-
Lemmas about infiltration (exact arithmetic).
-/
set_option linter.unusedSectionVars false
namespace LGAR

variable {K : Type} [Field K] [LinearOrder K] [IsStrictOrderedRing K] [CMath K] [LawfulNum K]

theorem lit_two : (2.0 : K) = 2 := by norm_num
theorem lit_half : (0.5 : K) = 1 / 2 := by norm_num
theorem lit_four : (4.0 : K) = 4 := by norm_num

/-- The four outcomes of the ponding partition. -/
theorem partitionPond_inv {dt ponded volin pondMax fp : K} {r v p : K}
    (h : partitionPond dt ponded volin pondMax fp = .ok (r, v, p)) :
    dt ≠ 0 ∧
    ((0 < pondMax ∧ max (ponded - fp * dt) 0 < pondMax ∧ v = min ponded (fp * dt) ∧ r = 0 ∧ p = ponded - v) ∨
     (0 < pondMax ∧ pondMax < max (ponded - fp * dt) 0 ∧ v = fp * dt ∧ r = max (ponded - fp * dt) 0 - pondMax ∧
        p = pondMax) ∨
     (0 < pondMax ∧ max (ponded - fp * dt) 0 = pondMax ∧ v = volin ∧ r = 0 ∧ p = ponded) ∨
     (pondMax ≤ 0 ∧ v = min ponded (fp * dt) ∧ r = ponded - v ∧ p = 0)) := by
  unfold partitionPond at h
  simp only [bind_ok_iff, cdiv_ok, fmax_eq, fmin_eq] at h
  obtain ⟨z, ⟨hdt, hz⟩, h⟩ := h
  have hz' : z = 0 := by rw [hz]; simp
  subst hz'
  refine ⟨hdt, ?_⟩
  simp only [mul_zero, sub_zero, add_zero] at h
  split at h
  · rename_i h0
    split at h
    · rename_i h1
      simp only [pure_eq_ok, Except.ok.injEq, Prod.mk.injEq] at h
      obtain ⟨rfl, rfl, rfl⟩ := h
      exact Or.inl ⟨h0, h1, rfl, rfl, rfl⟩
    · rename_i h1
      split at h
      · rename_i h2
        simp only [pure_eq_ok, Except.ok.injEq, Prod.mk.injEq] at h
        obtain ⟨rfl, rfl, rfl⟩ := h
        exact Or.inr (Or.inl ⟨h0, h2, rfl, rfl, rfl⟩)
      · rename_i h2
        simp only [pure_eq_ok, Except.ok.injEq, Prod.mk.injEq] at h
        obtain ⟨rfl, rfl, rfl⟩ := h
        exact Or.inr (Or.inr (Or.inl ⟨h0, le_antisymm (not_lt.mp h2) (not_lt.mp h1), rfl, rfl, rfl⟩))
  · rename_i h0
    simp only [pure_eq_ok, Except.ok.injEq, Prod.mk.injEq] at h
    obtain ⟨rfl, rfl, rfl⟩ := h
    refine Or.inr (Or.inr (Or.inr ⟨not_lt.mp h0, rfl, ?_, rfl⟩))
    split
    · rename_i h1
      rw [min_eq_left h1.le]; simp
    · rfl

theorem partitionPond_bal {dt ponded pondMax fp r v p : K}
    (h : partitionPond dt ponded 0 pondMax fp = .ok (r, v, p)) : ponded = v + r + p ∧ 0 ≤ r := by
  obtain ⟨_, ⟨_, _, rfl, rfl, rfl⟩ | ⟨h0, h1, rfl, rfl, rfl⟩ | ⟨_, _, rfl, rfl, rfl⟩ | ⟨_, rfl, rfl, rfl⟩⟩ :=
    partitionPond_inv h
  · exact ⟨by ring, le_refl _⟩
  · have : max (ponded - fp * dt) 0 = ponded - fp * dt := by
      rcases max_choice (ponded - fp * dt) 0 with e | e
      · exact e
      · rw [e] at h1; exact absurd h1 (not_lt.mpr h0.le)
    exact ⟨by rw [this]; ring, by linarith⟩
  · exact ⟨by ring, le_refl _⟩
  · refine ⟨by ring, ?_⟩
    have := min_le_left ponded (fp * dt)
    linarith

theorem insertWater_inv {fuel : Nat} {closed : Bool} {nint : Int} {g : Geo K} {dt aet ponded volin precip pondMax : K}
    {nFd : Nat} {l : List (Front K)} {r : K × K × K}
    (h : insertWater fuel closed nint g dt aet ponded volin precip nFd pondMax l = .ok r) :
    ∃ fp, fpCapacity fuel closed nint g dt aet ponded precip nFd l = .ok fp ∧
      partitionPond dt ponded volin pondMax fp = .ok r := by
  unfold insertWater at h
  simpa only [bind_ok_iff] using h

theorem fpCapacity_cap {fuel : Nat} {closed : Bool} {nint : Int} {g : Geo K} {dt aet ponded precip : K}
    {nFd : Nat} {l : List (Front K)} {fp : K}
    (h : fpCapacity fuel closed nint g dt aet ponded precip nFd l = .ok fp) :
    ∃ mx, maxStorage g = .ok mx ∧ dt ≠ 0 ∧ fp ≤ (mx - mass g.cum l) / dt := by
  unfold fpCapacity at h
  simp only [bind_ok_iff] at h
  obtain ⟨fp2, hfp2, m, hm, mx, hmx, cap, hcap, h⟩ := h
  rw [cdiv_ok] at hcap
  refine ⟨mx, hmx, hcap.1, ?_⟩
  rw [massBal_val hm] at hcap
  rw [← hcap.2]
  simp only [pure_eq_ok, Except.ok.injEq] at h
  rw [← h]
  split
  · exact le_refl _
  · exact not_lt.mp ‹_›

/-- Volume of the insert. -/
theorem partitionPond_vol {dt ponded pondMax fp r v p c : K} (hdt : 0 < dt) (hfp : fp ≤ c / dt) (hc : 0 ≤ c)
    (h : partitionPond dt ponded 0 pondMax fp = .ok (r, v, p)) : v ≤ c := by
  have h1 : fp * dt ≤ c := by rwa [le_div_iff₀ hdt] at hfp
  obtain ⟨_, ⟨_, _, rfl, rfl, rfl⟩ | ⟨h0, _, rfl, rfl, rfl⟩ | ⟨_, _, rfl, rfl, rfl⟩ | ⟨_, rfl, rfl, rfl⟩⟩ :=
    partitionPond_inv h
  · exact (min_le_right _ _).trans h1
  · exact h1
  · exact hc
  · exact (min_le_right _ _).trans h1

/-- Saturated moisture of layer `k`. -/
theorem maxStorageGo_val {g : Geo K} {n k : Nat} {s r : K} (h : maxStorageGo g n k s = .ok r) :
    r = s + ((List.range' k n).map fun j =>
      (match g.soil j with | .ok so => so.thetaE | .error _ => 0) * (g.cum.getD j 0 - layerTop g.cum j)).sum := by
  induction n generalizing k s with
  | zero => simp [maxStorageGo] at h; simp [h]
  | succ n ih =>
    unfold maxStorageGo at h
    simp only [bind_ok_iff, idx_ok_iff, idxPred_ok_iff] at h
    obtain ⟨sk, hsk, c1, hc1, c0, ⟨hk, hc0⟩, h⟩ := h
    rw [ih h]
    simp [List.range'_succ, hsk, layerTop, hc0, hc1]
    ring

/-- What createSurficial does before the clean-up passes. -/
theorem createSurficial_inv {g : Geo K} {ponded dry theta1 : K} {l : List (Front K)} {r : K × K × List (Front K)}
    (h : createSurficial g ponded dry theta1 l = .ok r) :
    ∃ s thn psi Kc, g.soil 1 = .ok s ∧
      ((ponded < dry * (s.thetaE - theta1) ∧ dry ≠ 0 ∧ r.2.1 = ponded ∧ r.1 = 0 ∧
          thn = min (theta1 + ponded / dry) s.thetaE) ∨
        (dry * (s.thetaE - theta1) ≤ ponded ∧ r.2.1 = dry * (s.thetaE - theta1) ∧
          r.1 = ponded - dry * (s.thetaE - theta1) ∧ thn = s.thetaE)) ∧
      ∃ l1, l1 = (⟨dry, thn, psi, Kc, 1, 1, false, 0⟩ : Front K) :: incFronts l ∧
        ((∀ n ∈ l.head?, dry ≤ n.depth) ∧ r.2.2 = l1 ∨
          (∃ n ∈ l.head?, n.depth < dry) ∧ ∃ l2, mergeFronts g l1 = .ok l2 ∧ crossLayer g l2 = .ok r.2.2) := by
  unfold createSurficial at h
  simp only [bind_ok_iff, Prod.exists] at h
  obtain ⟨ponded', volin, l1, hcf, h⟩ := h
  unfold createFront at hcf
  simp only [bind_ok_iff] at hcf
  obtain ⟨s, hs, vpt, hvpt, hcf⟩ := hcf
  obtain ⟨volin0, ponded0, thn⟩ := vpt
  simp only [bind_ok_iff, deref_ok_iff, idx_ok_iff] at hcf
  obtain ⟨ff, hff, Se, hSe, psi, hpsi, Kc, hKc, c, hc, hcf⟩ := hcf
  have hl : listInsertFirst 0 0 dry thn 1 1 false l =
      (⟨dry, thn, 0, 0, 1, 1, false, 0⟩ : Front K) :: incFronts l := rfl
  rw [hl] at hc hcf
  simp only [List.getElem?_cons_zero, Option.some.injEq] at hc
  subst hc
  simp only [List.set_cons_zero, pure_eq_ok, Except.ok.injEq, Prod.mk.injEq] at hcf
  obtain ⟨rfl, rfl, rfl⟩ := hcf
  have hv : (ponded < dry * (s.thetaE - theta1) ∧ dry ≠ 0 ∧ volin0 = ponded ∧ ponded0 = 0 ∧
          thn = min (theta1 + ponded / dry) s.thetaE) ∨
        (dry * (s.thetaE - theta1) ≤ ponded ∧ volin0 = dry * (s.thetaE - theta1) ∧
          ponded0 = ponded - dry * (s.thetaE - theta1) ∧ thn = s.thetaE) := by
    unfold surficialSplit at hvpt
    split at hvpt
    · rename_i hlt
      simp only [bind_ok_iff, cdiv_ok, fmin_eq, pure_eq_ok, Except.ok.injEq, Prod.mk.injEq] at hvpt
      obtain ⟨q, ⟨hd, rfl⟩, rfl, rfl, rfl⟩ := hvpt
      exact Or.inl ⟨hlt, hd, rfl, rfl, rfl⟩
    · rename_i hlt
      simp only [pure_eq_ok, Except.ok.injEq, Prod.mk.injEq] at hvpt
      obtain ⟨rfl, rfl, rfl⟩ := hvpt
      exact Or.inr ⟨not_lt.mp hlt, rfl, rfl, rfl⟩
  refine ⟨s, thn, psi, Kc * ff, hs, ?_⟩
  cases l with
  | nil =>
    simp only [pure_eq_ok, Except.ok.injEq] at h
    subst h
    exact ⟨hv, _, rfl, Or.inl ⟨by simp, rfl⟩⟩
  | cons n t =>
    simp only at h
    split at h
    · rename_i hlt
      simp only [bind_ok_iff, pure_eq_ok, Except.ok.injEq] at h
      obtain ⟨l2, h2, l3, h3, rfl⟩ := h
      exact ⟨hv, _, rfl, Or.inr ⟨⟨n, by simp, hlt⟩, l2, h2, h3⟩⟩
    · rename_i hlt
      simp only [pure_eq_ok, Except.ok.injEq] at h
      subst h
      exact ⟨hv, _, rfl, Or.inl ⟨by simpa using hlt, rfl⟩⟩

/-- The column after pushing a front of layer 1. -/
theorem col_push {N : Nat} {cum : List K} {l : List (Front K)} {f : Front K} (hc : Col N cum 1 l) (hf : f.layer = 1)
    (hb : f.toBottom = false) : Col N cum 1 (f :: incFronts l) := by
  have hi : Col N cum 1 (incFronts l) := col_congr (by simp [incFronts]) hc
  cases l with
  | nil => exact absurd rfl hc.ne_nil
  | cons n t =>
    have hh := hc.head
    have e : incFronts (n :: t) = { n with front := n.front + 1 } :: incFronts t := rfl
    rw [e] at hi ⊢
    rw [col_cons_iff]
    refine ⟨hf, Or.inl hh, by simp [hb, hf, hh], by simp [hb], ?_⟩
    simpa [hh] using hi

/-- Water of the pushed front. -/
theorem mass_push {cum : List K} {n : Front K} {t : List (Front K)} {f : Front K} (hf : f.layer = 1) (hn : n.layer = 1) :
    mass cum (f :: incFronts (n :: t)) = (f.depth - layerTop cum 1) * (f.theta - n.theta) + mass cum (n :: t) := by
  rw [← mass_inc cum (n :: t)]
  have e : incFronts (n :: t) = { n with front := n.front + 1 } :: incFronts t := rfl
  rw [e]
  simp only [mass, slab, hf, hn, if_true]

/-- Balance of the split. -/
theorem surficial_amount {ponded dry te th1 thn v p : K} (hdry : 0 < dry) (hp : 0 ≤ ponded)
    (hv : (ponded < dry * (te - th1) ∧ dry ≠ 0 ∧ v = ponded ∧ p = 0 ∧ thn = min (th1 + ponded / dry) te) ∨
      (dry * (te - th1) ≤ ponded ∧ v = dry * (te - th1) ∧ p = ponded - dry * (te - th1) ∧ thn = te)) :
    dry * (thn - th1) = v ∧ p = ponded - v ∧ 0 ≤ p := by
  rcases hv with ⟨h1, h2, rfl, rfl, rfl⟩ | ⟨h1, rfl, rfl, rfl⟩
  · have : th1 + v / dry ≤ te := by
      have : v / dry ≤ te - th1 := by rw [div_le_iff₀ hdry, mul_comm]; exact h1.le
      linarith
    rw [min_eq_left this]
    refine ⟨?_, by simp, le_refl _⟩
    field_simp
    ring
  · exact ⟨rfl, rfl, by linarith⟩

/-- No front lies below the bottom of its layer. -/
def WithinLayers (cum : List K) (l : List (Front K)) : Prop := ∀ f ∈ l, ∀ b, cum[f.layer]? = some b → f.depth ≤ b

/-- Moisture strictly decreases downwards within each layer. -/
def StrictlyDrying : List (Front K) → Prop
  | [] => True
  | [_] => True
  | f :: n :: t => (f.layer = n.layer → n.theta < f.theta) ∧ StrictlyDrying (n :: t)

theorem crossStep_id {g : Geo K} {cur : Nat} {l l' : List (Front K)} (hw : WithinLayers g.cum l)
    (h : crossStep g cur l = .ok l') : l' = l := by
  rcases crossStep_inv h with rfl |
    ⟨a, c, n, nn, b, sl, ff, s2, bot, psi, Kc, tn, Se, z, rfl, rfl, _, _, hbot, hlt, _⟩
  · rfl
  · exact absurd hlt (not_lt.mpr (hw c (by simp) bot hbot))

theorem crossLayer_id {g : Geo K} {l l' : List (Front K)} (hw : WithinLayers g.cum l)
    (h : crossLayer g l = .ok l') : l' = l := by
  obtain ⟨_, h⟩ := crossLoop_pos (P := fun _ x => x = l) (fun cur x x' hx hs => by
    subst hx; exact crossStep_id hw hs) rfl h
  exact h

theorem StrictlyDrying.suffix {a : List (Front K)} {u : List (Front K)}
    (h : StrictlyDrying (a ++ u)) : StrictlyDrying u := by
  induction a with
  | nil => exact h
  | cons f a ih =>
    cases a with
    | nil => cases u with
      | nil => trivial
      | cons x u => exact h.2
    | cons g a => exact ih h.2

theorem strictlyDrying_congr : ∀ {l l' : List (Front K)},
    l.map (fun f => (f.theta, f.layer)) = l'.map (fun f => (f.theta, f.layer)) → StrictlyDrying l → StrictlyDrying l'
  | [], [], _, h => h
  | [], _ :: _, e, _ => by simp at e
  | _ :: _, [], e, _ => by simp at e
  | [_], [_], _, _ => trivial
  | [_], _ :: _ :: _, e, _ => by simp at e
  | _ :: _ :: _, [_], e, _ => by simp at e
  | f :: n :: t, f' :: n' :: t', e, h => by
    have e' : (n :: t).map (fun f => (f.theta, f.layer)) = (n' :: t').map (fun f => (f.theta, f.layer)) := by
      simp only [List.map_cons, List.cons.injEq] at e ⊢; exact e.2
    refine ⟨?_, strictlyDrying_congr e' h.2⟩
    simp only [List.map_cons, List.cons.injEq, Prod.mk.injEq] at e
    obtain ⟨⟨e1, e2⟩, ⟨e3, e4⟩, _⟩ := e
    rw [← e1, ← e2, ← e3, ← e4]
    exact h.1

theorem StrictlyDrying.remove {a : List (Front K)} {c n : Front K} {nn : Front K} {b : List (Front K)}
    (h : StrictlyDrying (a ++ c :: n :: nn :: b)) (hl : c.layer = n.layer) :
    StrictlyDrying (a ++ c :: nn :: b) := by
  induction a with
  | nil =>
    refine ⟨fun e => ?_, h.2.2⟩
    have h1 := h.1 hl
    have h2 := h.2.1 (by rw [← hl, e])
    exact h2.trans h1
  | cons f a ih =>
    cases a with
    | nil => exact ⟨h.1, ih h.2⟩
    | cons f' a => exact ⟨h.1, ih h.2⟩

theorem mergeStep_within {g : Geo K} {N cur : Nat} {cum : List K} {l : List (Front K)}
    {r : Nat × List (Front K)} {k : Int} (hn : NumFrom k l) (hc : Col N cum 1 l) (hw : WithinLayers cum l)
    (hs : StrictlyDrying l) (h : mergeStep g cur l = .ok r) : WithinLayers cum r.2 ∧ StrictlyDrying r.2 := by
  rcases mergeStep_inv hn h with rfl | ⟨a, c, n, nn, b, d, psi, Kc, rfl, _, hd0, hl, hb, hd, _, _, rfl⟩
  · exact ⟨hw, hs⟩
  · simp only
    have hs' := hs.suffix (a := a)
    have hnl : n.layer = nn.layer := by
      have := (hc.suffix (a := a)).tail
      rw [col_cons_iff] at this
      by_contra hne
      have := this.2.2.1.mpr hne
      simp [hb] at this
    have h1 := hs'.1 hl
    have h2 := hs'.2.1 hnl
    constructor
    · intro f hf bt hbt
      simp only [List.mem_append, List.mem_cons] at hf
      rcases hf with hf | rfl | hf
      · exact hw f (by simp [hf]) bt hbt
      · have hcw := hw c (by simp) bt hbt
        simp only
        rw [(cdiv_ok.mp hd).2]
        have hpos : 0 < c.theta - nn.theta := by linarith
        rw [div_le_iff₀ hpos]
        nlinarith [mul_le_mul_of_nonneg_right hcw (by linarith : 0 ≤ c.theta - n.theta),
          mul_le_mul_of_nonneg_right (hd0.le.trans hcw) (by linarith : 0 ≤ n.theta - nn.theta)]
      · simp only [decFronts, List.mem_map] at hf
        obtain ⟨f0, hf0, rfl⟩ := hf
        exact hw f0 (by simp [List.mem_cons.mp hf0 |>.elim Or.inl Or.inr]) bt hbt
    · exact strictlyDrying_congr (by simp [decFronts]) (hs.remove hl)

theorem mergeFronts_within {g : Geo K} {N : Nat} {cum : List K} {l l' : List (Front K)} {k : Int}
    (hn : NumFrom k l) (hc : Col N cum 1 l) (hw : WithinLayers cum l) (hs : StrictlyDrying l)
    (h : mergeFronts g l = .ok l') : WithinLayers cum l' ∧ StrictlyDrying l' :=
  (mergeLoop_ind (P := fun x => Col N cum 1 x ∧ WithinLayers cum x ∧ StrictlyDrying x)
    (fun _ _ _ hn hp hs => ⟨mergeStep_col hn hp.1 hs, mergeStep_within hn hp.1 hp.2.1 hp.2.2 hs⟩)
    hn ⟨hc, hw, hs⟩ h).2.2

end LGAR
