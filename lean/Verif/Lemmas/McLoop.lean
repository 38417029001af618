import Verif.Lemmas.Correction
/-
How many rounds the mass correction at the end of lgar_move_wetting_fronts (lgar.cxx 1352-1398) needs.
-/
set_option linter.unusedSectionVars false
set_option linter.unusedTactic false
namespace LGAR

section Exact
variable {K : Type} [Field K] [LinearOrder K] [IsStrictOrderedRing K] [CMath K] [LawfulNum K]

/-- A state of the loop that moves front `w` at place `p` of `l`; the water depends on the depth with slope `D`. -/
structure McAt (g : Geo K) (target : K) (p : Nat) (l : List (Front K)) (w : Front K) (A D : K) (st : McState K) : Prop where
  list : st.list = l.set p { w with depth := st.depth }
  mass : st.mass = A + st.depth * D
  err : st.err = |st.mass - target|
  flag : st.aug = false → st.iter ≤ 1000

/-- What the loop moves: the front exists, is not held at the bottom, and the water is affine in its depth. -/
structure McFree (g : Geo K) (p : Nat) (l : List (Front K)) (w : Front K) (A D : K) : Prop where
  mem : l[p]? = some w
  free : ¬ (w.toBottom = true ∧ w.layer = g.numLayers)
  water : ∀ d, massBal g.cum (l.set p { w with depth := d }) = .ok (A + d * D)

/-- Missing water. -/
def mcGap (target : K) (st : McState K) : K := target - st.mass

/-- Water of one step. -/
def mcWater (D : K) (st : McState K) : K := 0.01 * st.factor * D

/-- Water of the next step down. -/
def mcDown (D : K) (st : McState K) : K := if st.switched then mcWater D st else mcWater D st * 0.001

/-- How much larger the steps have become. -/
def mcScale (aug : Bool) : K := if aug then 100 else 1

/-- One round: either the loop ends within the tolerance, or at the limit, or it goes on with the next state. -/
theorem mcLoop_round {g : Geo K} {target column A D : K} {p : Nat} {l : List (Front K)} {w : Front K} {fuel : Nat} {st : McState K}
    {r : McState K × Bool} (hf : McFree g p l w A D) (ha : McAt g target p l w A D st)
    (h : mcLoop g target column p (fuel + 1) st = .ok r) :
    (r.2 = false ∧ |mcGap target st| ≤ 2e-10) ∨ (r = ({ st with iter := st.iter + 1 }, true) ∧ 10000 ≤ st.iter) ∨
      ∃ (st' : McState K) (x : K), McAt g target p l w A D st' ∧ mcLoop g target column p fuel st' = .ok r ∧ st'.iter = st.iter + 1 ∧
        2e-10 < |mcGap target st| ∧ st.iter < 10000 ∧
        ((st'.aug = st.aug ∧ x = 1 ∧ (st.aug = false → st'.iter ≤ 1000)) ∨ (st.aug = false ∧ st'.aug = true ∧ st.iter = 1000 ∧ x = 100)) ∧
        ((0 < mcGap target st ∧ st'.switched = false ∧ mcWater D st' = mcWater D st * x ∧
            mcGap target st' = mcGap target st - mcWater D st') ∨
         (mcGap target st ≤ 0 ∧ st'.switched = true ∧ mcWater D st' = mcDown D st * x ∧
            mcGap target st' = mcGap target st + mcWater D st')) := by
  have e : (2e-10 : K) = 1e-10 + 1e-10 := by norm_num
  have e0 : (0 : K) < 1e-10 := by norm_num
  have c100 : (100.0 : K) = 100 := by norm_num
  have hgap : |st.mass - target| = |mcGap target st| := by unfold mcGap; exact abs_sub_comm _ _
  unfold mcLoop at h
  split at h
  · rename_i hc
    have hbig : 2e-10 < |mcGap target st| := by
      rw [fabs_eq, ha.err, hgap] at hc
      have h0 := abs_nonneg (mcGap target st)
      rcases lt_abs.mp hc with h | h
      · rw [e]; linarith
      · linarith
    dsimp only at h
    split at h
    · rename_i hi
      simp only [Except.ok.injEq] at h
      exact .inr (.inl ⟨h.symm, by omega⟩)
    · rename_i hi
      right; right
      simp only [bind_ok_iff] at h
      obtain ⟨w', hw', m, hm', h⟩ := h
      rw [ha.list, deref_ok_iff, List.getElem?_set_self (List.getElem?_eq_some_iff.mp hf.mem).1, Option.some.injEq] at hw'
      subst hw'
      rw [if_neg hf.free, ha.list, List.set_set] at hm' h
      simp only at hm' h
      rw [hf.water, Except.ok.injEq] at hm'
      have hmass := ha.mass
      by_cases hup : st.mass < target
      · simp only [hup, decide_true, if_true] at h hm'
        by_cases hau : 1000 < st.iter + 1 ∧ st.aug = false
        · rw [if_pos hau] at h hm'
          simp only at h hm'
          have := ha.flag hau.2
          refine ⟨_, 100, ⟨rfl, hm'.symm, fabs_eq _, by simp⟩, h, rfl, hbig, by omega, .inr ⟨hau.2, rfl, by omega, rfl⟩,
            .inl ⟨by unfold mcGap; linarith, rfl, ?_, ?_⟩⟩
          · simp only [mcWater, c100]; generalize (0.01 : K) = a; ring
          · simp only [mcGap, mcWater]; rw [← hm', hmass]; generalize (0.01 : K) = a; try generalize (0.001 : K) = b
            try generalize (100.0 : K) = z
            ring
        · rw [if_neg hau] at h hm'
          simp only at h hm'
          refine ⟨_, 1, ⟨rfl, hm'.symm, fabs_eq _, ?_⟩, h, rfl, hbig, by omega, .inl ⟨rfl, rfl, ?_⟩,
            .inl ⟨by unfold mcGap; linarith, rfl, ?_, ?_⟩⟩
          · intro hs; by_contra hc; exact hau ⟨by simp only at hc; omega, hs⟩
          · intro hs; by_contra hc; exact hau ⟨by simp only at hc; omega, hs⟩
          · simp only [mcWater]; generalize (0.01 : K) = a; ring
          · simp only [mcGap, mcWater]; rw [← hm', hmass]; generalize (0.01 : K) = a; try generalize (0.001 : K) = b
            try generalize (100.0 : K) = z
            ring
      · simp only [hup, decide_false, Bool.false_eq_true, if_false] at h hm'
        by_cases hau : 1000 < st.iter + 1 ∧ st.aug = false
        · rw [if_pos hau] at h hm'
          simp only at h hm'
          have := ha.flag hau.2
          refine ⟨_, 100, ⟨rfl, hm'.symm, fabs_eq _, by simp⟩, h, rfl, hbig, by omega, .inr ⟨hau.2, rfl, by omega, rfl⟩,
            .inr ⟨by unfold mcGap; linarith, rfl, ?_, ?_⟩⟩
          · simp only [mcWater, mcDown, c100]; generalize (0.01 : K) = a; generalize (0.001 : K) = b; split <;> ring
          · simp only [mcGap, mcWater]; rw [← hm', hmass]; generalize (0.01 : K) = a; try generalize (0.001 : K) = b
            try generalize (100.0 : K) = z
            ring
        · rw [if_neg hau] at h hm'
          simp only at h hm'
          refine ⟨_, 1, ⟨rfl, hm'.symm, fabs_eq _, ?_⟩, h, rfl, hbig, by omega, .inl ⟨rfl, rfl, ?_⟩,
            .inr ⟨by unfold mcGap; linarith, rfl, ?_, ?_⟩⟩
          · intro hs; by_contra hc; exact hau ⟨by simp only at hc; omega, hs⟩
          · intro hs; by_contra hc; exact hau ⟨by simp only at hc; omega, hs⟩
          · simp only [mcWater, mcDown]; generalize (0.01 : K) = a; generalize (0.001 : K) = b; split <;> ring
          · simp only [mcGap, mcWater]; rw [← hm', hmass]; generalize (0.01 : K) = a; try generalize (0.001 : K) = b
            try generalize (100.0 : K) = z
            ring
  · rename_i hc
    simp only [Except.ok.injEq] at h
    subst h
    refine .inl ⟨rfl, ?_⟩
    rw [fabs_eq, ha.err, hgap, not_lt] at hc
    have := (abs_le.mp hc).2
    rw [e]; linarith

/-- Near the target: less than a step is missing, or at most `j` steps down are left. -/
def McNear (target D : K) (k j : Nat) (st : McState K) : Prop :=
  (0 < mcGap target st ∧ mcGap target st ≤ mcWater D st ∧ mcWater D st * 1000 ^ k ≤ 0.01 * mcScale st.aug ∧ j = 0) ∨
  (mcGap target st ≤ 0 ∧ -(j * mcDown D st) < mcGap target st ∧ mcDown D st * 1000 ^ k ≤ 0.01 * mcScale st.aug ∧ 0 < mcDown D st)

/-- Near the target the loop settles: at most 1001 rounds for every factor of 1000 in the step. -/
theorem mcLoop_near {g : Geo K} {target column A D : K} {p : Nat} {l : List (Front K)} {w : Front K} (hf : McFree g p l w A D) :
    ∀ {fuel k j : Nat} {st : McState K} {r : McState K × Bool}, McAt g target p l w A D st → McNear target D k j st → k ≤ 4 →
      st.iter + j + (4 - k) * 1001 ≤ 9999 → mcLoop g target column p fuel st = .ok r → r.2 = false
  | 0, k, j, st, r, _, _, _, _, h => by simp [mcLoop] at h
  | fuel + 1, k, j, st, r, ha, hn, hk, hi, h => by
    rcases mcLoop_round hf ha h with ⟨h1, _⟩ | ⟨_, h2⟩ | ⟨st', x, ha', h', hit, hbig, _, hx, hs⟩
    · exact h1
    · omega
    have hx1 : (1 : K) ≤ x ∧ mcScale (K := K) st'.aug = mcScale st.aug * x := by
      rcases hx with ⟨e, rfl, _⟩ | ⟨e1, e2, _, rfl⟩
      · exact ⟨le_rfl, by rw [e]; simp⟩
      · exact ⟨by norm_num, by rw [e1, e2]; simp [mcScale]⟩
    have hx0 : (0 : K) < x := lt_of_lt_of_le one_pos hx1.1
    rcases hn with ⟨n1, n2, n3, rfl⟩ | ⟨n1, n2, n3, n4⟩
    · have hk4 : k < 4 := by
        by_contra hc
        have : k = 4 := by omega
        subst this
        have hsc : mcScale (K := K) st.aug ≤ 100 := by unfold mcScale; split <;> norm_num
        rw [abs_of_pos n1] at hbig
        norm_num at n3 hbig
        linarith
      rcases hs with ⟨_, s2, s3, s4⟩ | ⟨s1, _⟩
      · have hw : 0 < mcWater D st := lt_of_lt_of_le n1 n2
        have hw' : 0 < mcWater D st' := by rw [s3]; exact mul_pos hw hx0
        have hle : mcWater D st ≤ mcWater D st' := by rw [s3]; exact le_mul_of_one_le_right hw.le hx1.1
        have hd : mcDown D st' = mcWater D st' * 0.001 := by unfold mcDown; rw [s2]; simp
        refine mcLoop_near (k := k + 1) (j := 1000) hf ha' (.inr ⟨by rw [s4]; linarith, ?_, ?_, ?_⟩) (by omega) (by omega) h'
        · rw [hd, s4]; norm_num; linarith
        · rw [hd, s3, hx1.2]
          calc mcWater D st * x * 0.001 * 1000 ^ (k + 1) = (mcWater D st * 1000 ^ k) * x := by rw [pow_succ]; norm_num; ring
            _ ≤ (0.01 * mcScale st.aug) * x := mul_le_mul_of_nonneg_right n3 hx0.le
            _ = _ := by ring
        · rw [hd]; exact mul_pos hw' (by norm_num)
      · linarith
    · have hj : 0 < j := by
        rcases Nat.eq_zero_or_pos j with rfl | h
        · simp at n2; linarith
        · exact h
      rcases hs with ⟨s1, _⟩ | ⟨_, s2, s3, s4⟩
      · linarith
      · have hle : mcDown D st ≤ mcWater D st' := by rw [s3]; exact le_mul_of_one_le_right n4.le hx1.1
        have hd : mcDown D st' = mcWater D st' := by unfold mcDown; rw [s2]; simp
        have hb : mcWater D st' * 1000 ^ k ≤ 0.01 * mcScale st'.aug := by
          rw [s3, hx1.2]
          calc mcDown D st * x * 1000 ^ k = (mcDown D st * 1000 ^ k) * x := by ring
            _ ≤ (0.01 * mcScale st.aug) * x := mul_le_mul_of_nonneg_right n3 hx0.le
            _ = _ := by ring
        rcases lt_or_ge 0 (mcGap target st') with hp | hp
        · exact mcLoop_near (k := k) (j := 0) hf ha' (.inl ⟨hp, by rw [s4]; linarith, hb, rfl⟩) hk (by omega) h'
        · refine mcLoop_near (k := k) (j := j - 1) hf ha' (.inr ⟨hp, ?_, by rw [hd]; exact hb, by rw [hd]; linarith⟩) hk (by omega) h'
          rw [hd, s4, Nat.cast_sub hj]
          have h2 : (j : K) * mcDown D st ≤ j * mcWater D st' := mul_le_mul_of_nonneg_left hle (by positivity)
          push_cast
          linarith

/-- After the steps have been enlarged: `q` steps up are enough to reach the target. -/
theorem mcLoop_up {g : Geo K} {target column A D : K} {p : Nat} {l : List (Front K)} {w : Front K} (hf : McFree g p l w A D) :
    ∀ {fuel q : Nat} {st : McState K} {r : McState K × Bool}, McAt g target p l w A D st → st.aug = true → 0 < mcGap target st →
      mcGap target st ≤ q * mcWater D st → mcWater D st ≤ 1 → 0 < mcWater D st →
      st.iter + q + 4004 ≤ 9999 → mcLoop g target column p fuel st = .ok r → r.2 = false
  | 0, q, st, r, _, _, _, _, _, _, _, h => by simp [mcLoop] at h
  | fuel + 1, q, st, r, ha, hau, hp, hq, hw1, hw0, hi, h => by
    rcases mcLoop_round hf ha h with ⟨h1, _⟩ | ⟨_, h2⟩ | ⟨st', x, ha', h', hit, hbig, _, hx, hs⟩
    · exact h1
    · omega
    have hq0 : 0 < q := by
      rcases Nat.eq_zero_or_pos q with rfl | h
      · simp at hq; linarith
      · exact h
    obtain ⟨e, rfl⟩ : st'.aug = true ∧ x = 1 := by
      rcases hx with ⟨e, rfl, _⟩ | ⟨e1, _⟩
      · exact ⟨e.trans hau, rfl⟩
      · rw [hau] at e1; exact absurd e1 (by simp)
    rcases hs with ⟨_, s2, s3, s4⟩ | ⟨s1, _⟩
    · rw [mul_one] at s3
      rcases lt_or_ge 0 (mcGap target st') with hp' | hp'
      · refine mcLoop_up (q := q - 1) hf ha' e hp' ?_ (by rw [s3]; exact hw1) (by rw [s3]; exact hw0) (by omega) h'
        rw [s4, s3, Nat.cast_sub hq0]
        push_cast
        linarith
      · have hd : mcDown D st' = mcWater D st' * 0.001 := by unfold mcDown; rw [s2]; simp
        refine mcLoop_near (k := 1) (j := 1000) hf ha' (.inr ⟨hp', ?_, ?_, ?_⟩) (by omega) (by omega) h'
        · rw [hd, s4, s3]; norm_num; linarith
        · rw [hd, s3, e]; simp only [mcScale, if_true]; norm_num; linarith
        · rw [hd, s3]; exact mul_pos hw0 (by norm_num)
    · linarith

/-- From the start: `100 * q` small steps up, or `100 * q` small steps down, are enough. -/
theorem mcLoop_start {g : Geo K} {target column A D : K} {p : Nat} {l : List (Front K)} {w : Front K} (hf : McFree g p l w A D)
    {q : Nat} (hq : q ≤ 4990) :
    ∀ {fuel : Nat} {st : McState K} {r : McState K × Bool}, McAt g target p l w A D st → st.aug = false → 0 < mcWater D st →
      (0 < mcGap target st ∧ mcGap target st ≤ 100 * q * mcWater D st ∧ mcWater D st ≤ 0.01 ∨
        mcGap target st ≤ 0 ∧ -(100 * q * mcDown D st) < mcGap target st ∧ mcDown D st ≤ 0.01 * 0.001) →
      mcLoop g target column p fuel st = .ok r → r.2 = false
  | 0, st, r, _, _, _, _, h => by simp [mcLoop] at h
  | fuel + 1, st, r, ha, hau, hw0, hc, h => by
    have hit0 := ha.flag hau
    rcases mcLoop_round hf ha h with ⟨h1, _⟩ | ⟨_, h2⟩ | ⟨st', x, ha', h', hit, hbig, _, hx, hs⟩
    · exact h1
    · omega
    rcases hc with ⟨hp, hg, hw1⟩ | ⟨hp, hg, hw1⟩
    · rcases hs with ⟨_, s2, s3, s4⟩ | ⟨s1, _⟩
      swap
      · linarith
      have hd : mcDown D st' = mcWater D st' * 0.001 := by unfold mcDown; rw [s2]; simp
      rcases hx with ⟨e, rfl, hi'⟩ | ⟨e1, e2, e3, rfl⟩
      · rw [mul_one] at s3
        rcases lt_or_ge 0 (mcGap target st') with hp' | hp'
        · exact mcLoop_start hf hq ha' (e.trans hau) (by rw [s3]; exact hw0)
            (.inl ⟨hp', by rw [s4, s3]; linarith, by rw [s3]; exact hw1⟩) h'
        · have := hi' hau
          refine mcLoop_near (k := 1) (j := 1000) hf ha' (.inr ⟨hp', ?_, ?_, ?_⟩) (by omega) (by omega) h'
          · rw [hd, s4, s3]; norm_num; linarith
          · rw [hd, s3, e, hau]; simp only [mcScale]; norm_num at hw1 ⊢; linarith
          · rw [hd, s3]; exact mul_pos hw0 (by norm_num)
      · have hw' : 0 < mcWater D st' := by rw [s3]; exact mul_pos hw0 (by norm_num)
        have hw1' : mcWater D st' ≤ 1 := by rw [s3]; norm_num at hw1; linarith
        rcases lt_or_ge 0 (mcGap target st') with hp' | hp'
        · refine mcLoop_up (q := q) hf ha' e2 hp' ?_ hw1' hw' (by omega) h'
          rw [s4, s3]; linarith
        · refine mcLoop_near (k := 1) (j := 1000) hf ha' (.inr ⟨hp', ?_, ?_, ?_⟩) (by omega) (by omega) h'
          · rw [hd, s4]; norm_num; linarith
          · rw [hd, e2]; simp only [mcScale, if_true]; norm_num; linarith
          · rw [hd]; exact mul_pos hw' (by norm_num)
    · rcases hs with ⟨s1, _⟩ | ⟨_, s2, s3, s4⟩
      · linarith
      have hdn0 : 0 < mcDown D st := by
        unfold mcDown; split
        · exact hw0
        · exact mul_pos hw0 (by norm_num)
      have hd : mcDown D st' = mcWater D st' := by unfold mcDown; rw [s2]; simp
      rcases hx with ⟨e, rfl, hi'⟩ | ⟨e1, e2, e3, rfl⟩
      · rw [mul_one] at s3
        have := hi' hau
        rcases lt_or_ge 0 (mcGap target st') with hp' | hp'
        · refine mcLoop_near (k := 1) (j := 0) hf ha' (.inl ⟨hp', by rw [s4]; linarith, ?_, rfl⟩) (by omega) (by omega) h'
          rw [s3, e, hau]; simp only [mcScale]; norm_num at hw1 ⊢; linarith
        · exact mcLoop_start hf hq ha' (e.trans hau) (by rw [s3]; exact hdn0)
            (.inr ⟨hp', by rw [hd, s4, s3]; linarith, by rw [hd, s3]; exact hw1⟩) h'
      · have hw' : 0 < mcWater D st' := by rw [s3]; exact mul_pos hdn0 (by norm_num)
        have hb : mcWater D st' * 1000 ^ 1 ≤ 0.01 * mcScale st'.aug := by
          rw [s3, e2]; simp only [mcScale, if_true]; norm_num at hw1 ⊢; linarith
        rcases lt_or_ge 0 (mcGap target st') with hp' | hp'
        · exact mcLoop_near (k := 1) (j := 0) hf ha' (.inl ⟨hp', by rw [s4]; linarith, hb, rfl⟩) (by omega) (by omega) h'
        · refine mcLoop_near (k := 1) (j := q) hf ha' (.inr ⟨hp', ?_, by rw [hd]; exact hb, by rw [hd]; exact hw'⟩) (by omega) (by omega) h'
          rw [hd, s4]
          have : (q : K) * mcWater D st' = 100 * q * mcDown D st := by rw [s3]; ring
          linarith

/-- Far above the target the loop only goes down, until the limit. -/
theorem mcLoop_far {g : Geo K} {target column A D : K} {p : Nat} {l : List (Front K)} {w : Front K} (hf : McFree g p l w A D) :
    ∀ {fuel : Nat} {st : McState K} {r : McState K × Bool}, McAt g target p l w A D st → 0 < mcDown D st → st.iter ≤ 10000 →
      mcGap target st < -2e-10 - ((10000 - st.iter : Nat) : K) * (mcDown D st * if st.aug then 1 else 100) →
      mcLoop g target column p fuel st = .ok r → r.2 = true ∧ mcGap target r.1 < -2e-10
  | 0, st, r, _, _, _, _, h => by simp [mcLoop] at h
  | fuel + 1, st, r, ha, h0, hi, hg, h => by
    have hk : (0 : K) ≤ ((10000 - st.iter : Nat) : K) * (mcDown D st * if st.aug then 1 else 100) := by
      refine mul_nonneg (by positivity) (mul_nonneg h0.le ?_)
      split <;> norm_num
    have hneg : mcGap target st < -2e-10 := by linarith
    have e0 : (0 : K) < 2e-10 := by norm_num
    rcases mcLoop_round hf ha h with ⟨_, h1⟩ | ⟨h1, _⟩ | ⟨st', x, ha', h', hit, hbig, hlim, hx, hs⟩
    · rw [abs_of_neg (by linarith)] at h1; linarith
    · rw [h1]; exact ⟨rfl, hneg⟩
    rcases hs with ⟨s1, _⟩ | ⟨_, s2, s3, s4⟩
    · linarith
    have hd : mcDown D st' = mcWater D st' := by unfold mcDown; rw [s2]; simp
    have hn : (10000 - st.iter : Nat) = (10000 - st'.iter : Nat) + 1 := by omega
    rw [hn, Nat.cast_add, Nat.cast_one] at hg
    have hc : (0 : K) ≤ ((10000 - st'.iter : Nat) : K) := by positivity
    refine mcLoop_far hf ha' ?_ (by omega) ?_ h'
    · rw [hd, s3]
      refine mul_pos h0 ?_
      rcases hx with ⟨_, rfl, _⟩ | ⟨_, _, _, rfl⟩ <;> norm_num
    · rw [hd, s4, s3]
      rcases hx with ⟨e1, rfl, _⟩ | ⟨e1, e2, _, rfl⟩
      · rw [e1]
        cases ht : st.aug
        · rw [ht] at hg; simp only [Bool.false_eq_true, if_false, mul_one] at hg ⊢; linarith
        · rw [ht] at hg; simp only [if_true, mul_one] at hg ⊢; linarith
      · rw [e1] at hg; rw [e2]; simp only [Bool.false_eq_true, if_false, if_true, mul_one] at hg ⊢; linarith

/-- Deepening a front adds the moisture step to the front below, within its layer. -/
theorem mass_deepen {cum : List K} : ∀ {l : List (Front K)} {p : Nat} {w n : Front K} (d : K), l[p]? = some w → l[p + 1]? = some n →
    w.layer = n.layer → mass cum (l.set p { w with depth := d }) = mass cum l + (d - w.depth) * (w.theta - n.theta)
  | [], p, w, n, d, h, _, _ => by simp at h
  | x :: t, 0, w, n, d, h, h1, hl => by
    simp only [List.getElem?_cons_zero, Option.some.injEq] at h
    subst h
    match t, h1 with
    | y :: t, h1 =>
      simp only [zero_add, List.getElem?_cons_succ, List.getElem?_cons_zero, Option.some.injEq] at h1
      subst h1
      simp only [List.set_cons_zero, mass, slab, hl, if_true]
      ring
  | x :: t, p + 1, w, n, d, h, h1, hl => by
    simp only [List.getElem?_cons_succ] at h h1
    have ih := mass_deepen d h h1 hl (cum := cum)
    simp only [List.set_cons_succ, mass]
    rw [ih]
    have : slab cum x (t.set p { w with depth := d }) = slab cum x t := by
      match t, p with
      | [], p => simp
      | y :: t, 0 =>
        simp only [List.getElem?_cons_zero, Option.some.injEq] at h
        subst h
        simp [slab]
      | y :: t, p + 1 => simp [slab]
    rw [this]; ring

/-- The loop of the correction as it starts, for a saturated front above a drier one of its layer. -/
theorem moveTop_loop {g : Geo K} {oldMass precip aet : K} {l l1 : List (Front K)} {w n : Front K} {s : SoilProps K} {p : Nat}
    {r : List (Front K) × K × K}
    (h : moveTop g oldMass precip l aet = .ok r) (hcross : crossLayer g l = .ok l1) (hr : LayersInRange g.cum l1)
    (hp : listFindFront (Int.ofNat (wettingFrontFreeDrainage l1)) l1 [] = some p)
    (hw : l1[p]? = some w) (hn : l1[p + 1]? = some n) (hl : w.layer = n.layer) (hb : w.toBottom = false)
    (hs : g.soil (wettingFrontFreeDrainage l1) = .ok s) (hsat : |w.theta - s.thetaE| < 1e-15)
    (hdry : n.theta < w.theta) (hone : w.theta - n.theta ≤ 1) :
    ∃ (column fac : K) (st0 st : McState K) (brk : Bool),
      McFree g p l1 w (mass g.cum l1 - w.depth * (w.theta - n.theta)) (w.theta - n.theta) ∧
      McAt g (oldMass + precip - aet) p l1 w (mass g.cum l1 - w.depth * (w.theta - n.theta)) (w.theta - n.theta) st0 ∧
      st0.aug = false ∧ st0.switched = false ∧ st0.iter = 0 ∧ mcWater (w.theta - n.theta) st0 = 0.01 * fac * (w.theta - n.theta) ∧
      st0.mass = mass g.cum l1 ∧ 0.0001 ≤ 0.01 * fac * (w.theta - n.theta) ∧ 0.01 * fac * (w.theta - n.theta) ≤ 0.01 ∧
      mcLoop g (oldMass + precip - aet) column p mcFuel st0 = .ok (st, brk) ∧
      massBal g.cum st.list = .ok st.mass ∧ (brk = false → |st.mass - (oldMass + precip - aet)| ≤ 2e-10 ∧ r = (st.list, aet, 0)) ∧
      (brk = true → r.2.1 = aet + |st.mass - (oldMass + precip - aet)| ∧ r.2.2 = oldMass + precip - r.2.1 - st.mass) ∧
      (∃ d, st.list = l1.set p { w with depth := d }) ∧ r.1 = st.list := by
  have hD : 0 < w.theta - n.theta := by linarith
  unfold moveTop at h
  simp only [bind_ok_iff, idx_ok_iff] at h
  obtain ⟨column, hcol, l1', hl1, s1, hs1, _, _, w', hw', h⟩ := h
  rw [hcross, Except.ok.injEq] at hl1
  subst hl1
  rw [hs, Except.ok.injEq] at hs1
  subst hs1
  rw [hp] at hw' h
  obtain ⟨i, hi, hw'⟩ := derefOpt_ok_iff.mp hw'
  simp only [Option.some.injEq] at hi
  subst hi
  rw [hw, Option.some.injEq] at hw'
  subst hw'
  rw [if_pos (by rw [fabs_eq]; exact hsat)] at h
  simp only [bind_ok_iff, Prod.exists, Option.getD_some, hn, add_zero] at h
  obtain ⟨m, hm, fac, hfac, st, brk, hmc, h⟩ := h
  have hmw := massBal_val hm
  have hf : McFree g p l1 w (mass g.cum l1 - w.depth * (w.theta - n.theta)) (w.theta - n.theta) := by
    refine ⟨hw, fun h => by rw [hb] at h; simp at h, fun d => ?_⟩
    have hr' : LayersInRange g.cum (l1.set p { w with depth := d }) := by
      intro f hf
      rcases List.mem_or_eq_of_mem_set hf with h | rfl
      · exact hr f h
      · exact hr w (List.mem_of_getElem? hw)
    rw [massBal_eq _ _ hr', mass_deepen d hw hn hl]
    congr 1; ring
  have hfw : 0.0001 ≤ 0.01 * fac * (w.theta - n.theta) ∧ 0.01 * fac * (w.theta - n.theta) ≤ 0.01 := by
    unfold mcFactor at hfac
    simp only [fabs_eq, abs_of_pos hD] at hfac
    split at hfac
    · simp only [cdiv_ok] at hfac
      obtain ⟨_, rfl⟩ := hfac
      rw [mul_assoc, one_div, inv_mul_cancel₀ hD.ne']
      norm_num
    · rename_i hge
      simp only [Except.ok.injEq] at hfac
      subst hfac
      rw [not_lt] at hge
      norm_num at hge ⊢
      constructor <;> linarith
  obtain ⟨o1, o2, o3, _⟩ := mcLoop_out (by exact hm) (by exact fabs_eq _) hmc
  obtain ⟨d, hd, _⟩ := mcLoop_inv hw ⟨w.depth, (list_set_self hw).symm, fun _ _ => .inl rfl⟩ hmc
  refine ⟨column, fac, _, st, brk, hf, ⟨(list_set_self hw).symm, by rw [hmw]; ring, fabs_eq _, by simp⟩, rfl, rfl, rfl, rfl, hmw, hfw.1, hfw.2,
    hmc, o1, ?_, ?_, ⟨d, hd⟩, ?_⟩
  · rintro rfl
    simp only [Bool.false_eq_true, if_false, pure_eq_ok, Except.ok.injEq] at h
    exact ⟨o3 rfl, h.symm⟩
  · rintro rfl
    simp only [if_true, bind_ok_iff, pure_eq_ok, Except.ok.injEq] at h
    obtain ⟨m2, hm2, h⟩ := h
    simp only at o1 o2
    rw [o1, Except.ok.injEq] at hm2
    rw [← h, ← hm2]
    simp only [o2, zero_add, and_self]
  · split at h
    · simp only [bind_ok_iff] at h
      obtain ⟨m2, hm2, h⟩ := h
      simp only [pure_eq_ok, Except.ok.injEq] at h
      rw [← h]
    · simp only [pure_eq_ok, Except.ok.injEq] at h
      rw [← h]

/-- The loop always returns. -/
theorem mcLoop_total {g : Geo K} {target column A D : K} {p : Nat} {l : List (Front K)} {w : Front K} (hf : McFree g p l w A D) :
    ∀ {fuel : Nat} {st : McState K}, st.list = l.set p { w with depth := st.depth } → 10001 < fuel + st.iter → st.iter ≤ 10000 →
      ∃ r, mcLoop g target column p fuel st = .ok r
  | 0, st, _, h, hi => by omega
  | fuel + 1, st, hl, h, hi => by
    unfold mcLoop
    split
    · dsimp only
      split
      · exact ⟨_, rfl⟩
      · rw [hl, deref_ok_iff.mpr (by rw [List.getElem?_set_self (List.getElem?_eq_some_iff.mp hf.mem).1]), ok_bind, if_neg hf.free,
          List.set_set, hf.water, ok_bind]
        exact mcLoop_total hf rfl (by simp only; omega) (by simp only; omega)
    · exact ⟨_, rfl⟩

/-- So does the correction, for a front above a drier one of its layer. -/
theorem moveTop_total {g : Geo K} {oldMass precip aet column : K} {l l1 : List (Front K)} {w n : Front K} {s : SoilProps K} {p : Nat}
    (hcol : g.cum[g.numLayers]? = some column) (hcross : crossLayer g l = .ok l1) (hr : LayersInRange g.cum l1) (hold : 0 < oldMass)
    (hp : listFindFront (Int.ofNat (wettingFrontFreeDrainage l1)) l1 [] = some p)
    (hw : l1[p]? = some w) (hn : l1[p + 1]? = some n) (hl : w.layer = n.layer) (hb : w.toBottom = false)
    (hs : g.soil (wettingFrontFreeDrainage l1) = .ok s) (hdry : n.theta < w.theta) :
    ∃ r, moveTop g oldMass precip l aet = .ok r := by
  have hD : 0 < w.theta - n.theta := by linarith
  unfold moveTop
  rw [idx_ok_iff.mpr hcol, ok_bind, hcross, ok_bind]
  simp only [hs, ok_bind, hp, Option.getD_some]
  rw [show cassert (0 < oldMass) "old_mass > 0.0" = .ok () from cassert_ok_iff.mpr hold, ok_bind,
    show derefOpt l1 (some p) = .ok w from derefOpt_ok_iff.mpr ⟨_, rfl, hw⟩, ok_bind]
  split
  · rw [massBal_eq _ _ hr, ok_bind, hn]
    have hfac : ∃ fac, mcFactor w (some n) = .ok fac := by
      unfold mcFactor
      simp only [fabs_eq, abs_of_pos hD]
      split
      · exact ⟨_, cdiv_ok.mpr ⟨hD.ne', rfl⟩⟩
      · exact ⟨_, rfl⟩
    obtain ⟨fac, hfac⟩ := hfac
    rw [hfac, ok_bind]
    have hr' : ∀ d, LayersInRange g.cum (l1.set p { w with depth := d }) := by
      intro d f hf
      rcases List.mem_or_eq_of_mem_set hf with h | rfl
      · exact hr f h
      · exact hr w (List.mem_of_getElem? hw)
    have hf : McFree g p l1 w (mass g.cum l1 - w.depth * (w.theta - n.theta)) (w.theta - n.theta) := by
      refine ⟨hw, fun h => by rw [hb] at h; simp at h, fun d => ?_⟩
      rw [massBal_eq _ _ (hr' d), mass_deepen d hw hn hl]
      congr 1; ring
    obtain ⟨⟨st, brk⟩, h⟩ := mcLoop_total (target := oldMass + precip - (aet + 0)) (column := column) hf (fuel := mcFuel)
      (st := { depth := w.depth, factor := fac, switched := false, mass := mass g.cum l1,
               err := CMath.fabs (mass g.cum l1 - (oldMass + precip - (aet + 0))), iter := 0, aug := false, list := l1 })
      (list_set_self hw).symm (by simp [mcFuel]) (by simp)
    rw [h, ok_bind]
    obtain ⟨d, hd, _⟩ := mcLoop_inv hw ⟨w.depth, (list_set_self hw).symm, fun _ _ => .inl rfl⟩ h
    simp only at hd
    split
    · rw [hd, massBal_eq _ _ (hr' d), ok_bind]; exact ⟨_, rfl⟩
    · exact ⟨_, rfl⟩
  · exact ⟨_, rfl⟩

end Exact
end LGAR
