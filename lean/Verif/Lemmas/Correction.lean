import Verif.Lemmas.Undrained
import Verif.Lemmas.Balance
/-
The mass correction at the end of lgar_move_wetting_fronts (lgar.cxx 1323-1415) and the ET it books.
-/
set_option linter.unusedSectionVars false
namespace LGAR

section Exact
variable {K : Type} [Field K] [LinearOrder K] [IsStrictOrderedRing K] [CMath K] [LawfulNum K] {fb : Guard}

/-- How the loop ends. -/
theorem mcLoop_out {g : Geo K} {target column : K} {p : Nat} : ∀ {fuel : Nat} {st : McState K} {r : McState K × Bool},
    massBal g.cum st.list = .ok st.mass → st.err = |st.mass - target| → mcLoop g target column p fuel st = .ok r →
      massBal g.cum r.1.list = .ok r.1.mass ∧ r.1.err = |r.1.mass - target| ∧
        (r.2 = false → |r.1.mass - target| ≤ 2e-10) ∧ (r.2 = true → 2e-10 < |r.1.mass - target|)
  | 0, _, _, _, _, h => by simp [mcLoop] at h
  | fuel + 1, st, r, hm, he, h => by
    have e : (2e-10 : K) = 1e-10 + 1e-10 := by norm_num
    have e0 : (0 : K) < 1e-10 := by norm_num
    unfold mcLoop at h
    split at h
    · rename_i hc
      dsimp only at h
      split at h
      · simp only [Except.ok.injEq] at h
        subst h
        refine ⟨hm, he, by simp, fun _ => ?_⟩
        show 2e-10 < |st.mass - target|
        rw [fabs_eq, he] at hc
        have h0 := abs_nonneg (st.mass - target)
        rcases lt_abs.mp hc with h | h
        · rw [e]; linarith
        · linarith
      · simp only [bind_ok_iff] at h
        obtain ⟨w', hw', m, hm', h⟩ := h
        exact mcLoop_out hm' (fabs_eq _) h
    · rename_i hc
      simp only [Except.ok.injEq] at h
      subst h
      refine ⟨hm, he, fun _ => ?_, by simp⟩
      show |st.mass - target| ≤ 2e-10
      rw [fabs_eq, he, not_lt] at hc
      have := (abs_le.mp hc).2
      rw [e]; linarith

/-- A deepest front at the depth of the column cannot be moved: the loop runs into its limit. -/
theorem mcLoop_stuck {g : Geo K} {target column m : K} {p : Nat} {l : List (Front K)} {w : Front K} (hw : l[p]? = some w)
    (hb : w.toBottom = true) (hN : w.layer = g.numLayers) (hd : w.depth = column) (hm : massBal g.cum l = .ok m)
    (hbig : 2e-10 < |m - target|) : ∀ {fuel : Nat} {st : McState K}, st.list = l → st.mass = m → st.err = |m - target| →
      st.iter ≤ 10000 → 10000 < fuel + st.iter →
      ∃ st', mcLoop g target column p fuel st = .ok (st', true) ∧ st'.list = l ∧ st'.err = |m - target|
  | 0, st, _, _, _, h1, h2 => by omega
  | fuel + 1, st, e1, e2, e3, h1, h2 => by
    have e : (2e-10 : K) = 1e-10 + 1e-10 := by norm_num
    unfold mcLoop
    rw [if_pos (by rw [fabs_eq, e3]; exact lt_of_lt_of_le (by rw [e] at hbig; linarith) (le_abs_self _))]
    dsimp only
    split
    · exact ⟨_, rfl, e1, e3⟩
    · rename_i hit
      subst hd
      rw [e1, deref_ok_iff.mpr hw, ok_bind, if_pos ⟨hb, hN⟩]
      have hl : l.set p { w with depth := w.depth } = l := list_set_self hw
      rw [hl, hm, ok_bind]
      refine mcLoop_stuck hw hb hN rfl hm hbig rfl rfl (by exact fabs_eq _) ?_ ?_
      · simp only; omega
      · simp only; omega

/-- The outcomes of the mass correction. -/
theorem moveTop_out {g : Geo K} {oldMass precip aet : K} {l : List (Front K)} {r : List (Front K) × K × K}
    (h : moveTop g oldMass precip l aet = .ok r) :
    ∃ l1 w s, crossLayer g l = .ok l1 ∧ g.soil (wettingFrontFreeDrainage l1) = .ok s ∧
      derefOpt l1 (listFindFront (Int.ofNat (wettingFrontFreeDrainage l1)) l1 []) = .ok w ∧
      (¬ |w.theta - s.thetaE| < 1e-15 ∧ r = (l1, aet, 0) ∨
       r.2 = (aet, 0) ∧ (∃ m, massBal g.cum r.1 = .ok m ∧ |m - (oldMass + precip - aet)| ≤ 2e-10) ∨
       ∃ m, massBal g.cum r.1 = .ok m ∧ 2e-10 < |m - (oldMass + precip - aet)| ∧
        r.2.1 = aet + |m - (oldMass + precip - aet)| ∧ r.2.2 = oldMass + precip - r.2.1 - m) := by
  unfold moveTop at h
  simp only [bind_ok_iff, idx_ok_iff] at h
  obtain ⟨column, hcol, l1, hl1, s1, hs1, _, _, w, hw, h⟩ := h
  refine ⟨l1, w, s1, hl1, hs1, hw, ?_⟩
  split at h
  · right
    simp only [bind_ok_iff, Prod.exists] at h
    obtain ⟨m, hm, fac, hfac, st, brk, hmc, h⟩ := h
    obtain ⟨o1, o2, o3, o4⟩ := mcLoop_out (by exact hm) (by exact fabs_eq _) hmc
    rw [add_zero] at o2 o3 o4
    split at h
    · rename_i hb
      simp only [bind_ok_iff] at h
      obtain ⟨m2, hm2, h⟩ := h
      simp only [pure_eq_ok, Except.ok.injEq] at h
      subst h
      simp only at o1 o2 o4
      rw [hm2, Except.ok.injEq] at o1
      rw [← o1] at o2 o4
      right
      exact ⟨m2, hm2, o4 hb, by simp only; rw [o2], by simp only [add_zero, zero_add]⟩
    · rename_i hb
      simp only [pure_eq_ok, Except.ok.injEq] at h
      subst h
      simp only at o1 o3
      exact .inl ⟨rfl, _, o1, o3 (by simpa using hb)⟩
  · rename_i hc
    simp only [pure_eq_ok, Except.ok.injEq] at h
    subst h
    rw [fabs_eq] at hc
    exact .inl ⟨hc, rfl⟩

/-- The repair books an amount that is not negative. -/
theorem checkFix_le {g : Geo K} {mc : K} {l : List (Front K)} {r : List (Front K) × K} {k : Int} (hn : NumFrom k l)
    (h : checkFix g mc l = .ok r) : mc ≤ r.2 := by
  rcases checkFix_inv h with rfl | h
  · exact le_rfl
  · unfold fixDry at h
    simp only [bind_ok_iff] at h
    obtain ⟨_, _, h⟩ := h
    have := fixDryLoop_bound hn h
    have := (abs_nonneg _).trans this
    linarith

theorem movePost_aet {g : Geo K} {N : Nat} {l : List (Front K)} {aet flux : K} {r : List (Front K) × K × K} (hs : Sound N l)
    (h : movePost g l aet flux = .ok r) : r.2.1 ≤ aet := by
  obtain ⟨l1, mc1, l2, l3, l4, mc4, l5, column, fl, l6, l7, mc7, l8, h1, h2, h3, h4, h5, _, h6, h7, _, _, ha, _⟩ :=
    movePost_inv h
  have s1 : Sound N l1 := hs.checkFix h1
  have s3 : Sound N l3 := (s1.merge h2).cross h3
  have s4 : Sound N l4 := s3.checkFix h4
  have s6 : Sound N l6 := (s4.merge h5).domain h6
  have b1 : 0 ≤ mc1 := checkFix_le hs.num h1
  have b2 : mc1 ≤ mc4 := checkFix_le s3.num h4
  have b3 : mc4 ≤ mc7 := checkFix_le s6.num h7
  rw [ha]
  split
  · linarith
  · exact le_rfl

theorem moveFronts_aet {fuel : Nat} {g : Geo K} {dt oldMass precip aet : K} {nFd N : Nat} {prev l : List (Front K)}
    {r : List (Front K) × K × K} (hs : Sound N l) (hc : MoveConverges fuel g dt precip nFd oldMass aet prev l)
    (h : moveFronts fuel g dt precip nFd oldMass aet prev l = .ok r) : r.2.1 ≤ max aet 0 := by
  unfold moveFronts at h
  simp only [bind_ok_iff, Prod.exists] at h
  obtain ⟨l2, aet2, fl, h1, h⟩ := h
  have s2 := hs.moveMain h1
  refine (movePost_aet s2 h).trans ?_
  unfold moveMain at h1
  split at h1
  · simp only [Except.ok.injEq, Prod.mk.injEq] at h1
    rw [← h1.2.1]; exact le_max_left _ _
  · simp only [bind_ok_iff, Prod.exists] at h1
    obtain ⟨l1, aet1, h0, h1⟩ := h1
    have := (hc.of_ok h0).of_ok h1
    simp only at this
    rw [this]
    exact moveOnes_aet (r := (l1, aet1)) hs.num rfl le_rfl h0

theorem aetDemand_bound {c : StepCfg K} {pet : K} {l : List (Front K)} {a : K} (hd : 0 ≤ c.dt) (hp : 0 ≤ pet)
    (h : aetDemand c pet l = .ok a) : 0 ≤ a ∧ a ≤ pet * c.dt := by
  unfold aetDemand at h
  split at h
  · rename_i h0
    have hpd : 0 ≤ pet * c.dt := mul_nonneg hp hd
    unfold calcAet at h
    simp only [bind_ok_iff] at h
    obtain ⟨_, _, s, _, tf, _, tw, _, Se, _, pw, _, q, _, p, _, inv, _, h⟩ := h
    split at h
    · simp only [pure_eq_ok, Except.ok.injEq] at h; subst h; exact ⟨le_refl _, hpd⟩
    · split at h
      · simp only [pure_eq_ok, Except.ok.injEq] at h; subst h; exact ⟨hpd, le_refl _⟩
      · simp only [pure_eq_ok, Except.ok.injEq] at h
        subst h
        exact ⟨not_lt.mp ‹_›, not_lt.mp ‹_›⟩
  · simp only [Except.ok.injEq] at h
    subst h
    exact ⟨le_rfl, mul_nonneg hp hd⟩

theorem subStep_aet {c : StepCfg K} {s s' : SubSt K} {N : Nat} (hd : 0 ≤ c.dt) (hs : Sound N s.head) (hc : StepConverges c s)
    (h : subStep c s = .ok s') : s'.aetT - s.aetT ≤ max s.petMm 0 * 0.1 * c.dt ∧
      s'.aetT - s.aetT ≤ s'.petT - s.petT := by
  obtain ⟨aet, vs, h0, hsoil, f, l, ve, h1, ha, _, hh0, hhs, hf, hl, _, _, _, _, rfl⟩ := subStep_inv h
  have hp : (0 : K) ≤ CMath.fmax s.petMm 0 * 0.1 := by
    rw [fmax_eq]; exact mul_nonneg (le_max_right _ _) (by norm_num)
  obtain ⟨b1, b2⟩ := aetDemand_bound hd hp ha
  replace hc := ((hc.of_ok ha).of_ok (deref_ok_iff.mpr hh0)).of_ok hhs
  have key : f.aet ≤ aet := by
    have : f.aet ≤ max aet 0 := by
      unfold FlowConverges at hc
      unfold LGAR.subFlow at hf
      split at hf
      · rename_i e
        rw [if_pos e] at hc
        obtain ⟨l, flux, dry, d, h0, pd, hm, _⟩ := flowCreate_inv hf
        exact moveFronts_aet (r := (l, f.aet, flux)) hs hc hm
      · rename_i e
        rw [if_neg e] at hc
        obtain ⟨hsf, hm, _⟩ := flowMove_inv hf
        exact moveFronts_aet (r := (f.head, f.aet, f.rech)) hs (hc.of_ok hsf) hm
    rwa [max_eq_left b1] at this
  simp only [fmax_eq] at b2 ⊢
  have h3 := le_max_left (max s.petMm 0 * 0.1 * c.dt) 0
  constructor <;> linarith

theorem subLoop_aet {c : StepCfg K} {N : Nat} (hd : 0 ≤ c.dt) : ∀ {n : Nat} {s s' : SubSt K}, Sound N s.head →
    LoopConverges c n s → subLoop c n s = .ok s' → s'.aetT - s.aetT ≤ s'.petT - s.petT
  | 0, s, s', _, _, h => by simp [subLoop] at h; subst h; simp
  | n + 1, s, s', hs, hc, h => by
    unfold subLoop at h
    simp only [bind_ok_iff] at h
    obtain ⟨s1, h1, h⟩ := h
    have b := (subStep_aet hd hs hc.1 h1).2
    split at h
    · simp only [pure_eq_ok, Except.ok.injEq] at h
      subst h; exact b
    · have := subLoop_aet hd (hs.subStep h1) (hc.2.of_ok h1) h
      linarith

end Exact
end LGAR
