import Verif.Lemmas.Solver
/-
The search of lgar_theta_mass_balance succeeds where the slope of the water content does not vary too much (C89).
-/
namespace LGAR

/-- Between the heads `lo` and `hi` the water falls with slopes from `mu` to `L`, and the head `hs` sought lies well inside. -/
structure SteadySlope (W : ℝ → ℝ) (hs lo hi mu L f0 : ℝ) : Prop where
  lo0 : 0 ≤ lo
  hi7 : hi ≤ 1e7
  f1 : 1 ≤ f0
  below : lo ≤ hs - 10 * f0
  above : hs + 10 * f0 ≤ hi
  slope : ∀ a b, lo ≤ a → a ≤ b → b ≤ hi → mu * (b - a) ≤ W a - W b ∧ W a - W b ≤ L * (b - a)
  mu0 : 1e-13 ≤ mu
  L10 : L ≤ 10
  ratio : L ≤ 90 * mu

section
variable {W : ℝ → ℝ} {hs lo hi mu L f0 : ℝ}

theorem SteadySlope.mu_pos (h : SteadySlope W hs lo hi mu L f0) : 0 < mu := by
  have := h.mu0; norm_num at this; linarith

/-- The difference to the wanted water on the wet side and on the dry side. -/
theorem SteadySlope.wet (h : SteadySlope W hs lo hi mu L f0) {a : ℝ} (h1 : lo ≤ a) (h2 : a ≤ hs) : |W a - W hs| = W a - W hs := by
  have := (h.slope a hs h1 h2 (by linarith [h.above, h.f1])).1
  have := mul_nonneg h.mu_pos.le (sub_nonneg.mpr h2)
  exact abs_of_nonneg (by linarith)

theorem SteadySlope.dry (h : SteadySlope W hs lo hi mu L f0) {a : ℝ} (h1 : hs ≤ a) (h2 : a ≤ hi) : |W a - W hs| = W hs - W a := by
  have := (h.slope hs a (by linarith [h.below, h.f1]) h1 h2).1
  have := mul_nonneg h.mu_pos.le (sub_nonneg.mpr h1)
  rw [abs_of_nonpos (by linarith)]; ring

theorem SteadySlope.near (h : SteadySlope W hs lo hi mu L f0) {a d : ℝ} (h1 : lo ≤ a) (h2 : a ≤ hi) (hd : |a - hs| ≤ d) : |W a - W hs| ≤ L * d := by
  have hL : 0 ≤ L := by
    have := h.slope lo hi le_rfl (by linarith [h.below, h.above, h.f1]) le_rfl
    by_contra hn
    have h3 : 0 < hi - lo := by linarith [h.below, h.above, h.f1]
    have := mul_pos h.mu_pos h3
    have := mul_neg_of_neg_of_pos (not_le.mp hn) h3
    linarith
  rw [abs_le] at hd
  rcases le_total a hs with hc | hc
  · rw [h.wet h1 hc]
    have := (h.slope a hs h1 hc (by linarith [h.above, h.f1])).2
    have := mul_le_mul_of_nonneg_left (show hs - a ≤ d by linarith) hL
    linarith
  · rw [h.dry hc h2]
    have := (h.slope hs a (by linarith [h.below, h.f1]) hc h2).2
    have := mul_le_mul_of_nonneg_left (show a - hs ≤ d by linarith) hL
    linarith

/-- What the search keeps.  Before the head sought has been passed the step is at least 0.01 cm; then the head is within ten steps. -/
structure Closing (W : ℝ → ℝ) (hs lo hi f0 : ℝ) (st : TmState ℝ) : Prop where
  mass : st.newMass = W st.psi
  delta : st.deltaMass = |W st.psi - W hs|
  prev : st.deltaPrev = st.deltaMass
  inside : lo ≤ st.psi ∧ st.psi ≤ hi
  factor : 0 < st.factor ∧ st.factor ≤ 100 * f0 ∧ (st.aug = false → st.factor ≤ f0)
  before : 0 ≤ st.psiPrev
  place : (st.count = 0 ∧ (st.switched = false ∧ 1 ≤ st.factor ∨ st.switched = true ∧ hs ≤ st.psi ∧ 1 / 10 ≤ st.factor)) ∨
    (|st.psi - hs| ≤ st.factor ∧ (st.switched = false → hs ≤ st.psi → st.psi - hs ≤ 1 / 10 * st.factor))
  quiet : st.count = 0 ∨ st.deltaMass ≤ 9e-13 + st.count * 1e-15 ∨ (st.count = 1 ∧ st.switched = true ∧ st.psi < hs) ∨
    (st.count ≤ 2 ∧ st.switched = false ∧ hs ≤ st.psi ∧ st.psi - 1 / 10 * st.factor ≤ hs ∧
      |st.deltaMass - abs (W (st.psi - 1 / 10 * st.factor) - W hs)| < 1e-15)

/-- The state after a move, with mass, error and count renewed. -/
noncomputable def tmRenew (W : ℝ → ℝ) (hs th : ℝ) (st : TmState ℝ) : TmState ℝ :=
  { tmMove (W hs) st with
      theta := th, newMass := W (tmMove (W hs) st).psi, deltaMass := |W (tmMove (W hs) st).psi - W hs|,
      count := if |(|W (tmMove (W hs) st).psi - W hs| - st.deltaMass)| < 1e-15 then st.count + 1 else 0,
      deltaPrev := |W (tmMove (W hs) st).psi - W hs| }

theorem tmFactor_cases (st : TmState ℝ) : tmFactor st = st.factor ∨ (st.aug = false ∧ tmFactor st = 100 * st.factor ∧
    (tmMove (W hs) st).aug = true) := by
  unfold tmFactor tmMove
  dsimp only
  by_cases hc : 1000 < st.iter + 1 ∧ st.aug = false
  · right
    refine ⟨hc.2, ?_, ?_⟩
    · rw [if_pos hc]; norm_num; ring
    · simp only [if_pos hc]; split <;> rfl
  · left; rw [if_neg hc]

theorem tmMove_aug_false {st : TmState ℝ} (h : (tmMove (W hs) st).aug = false) : st.aug = false := by
  by_contra hn
  rw [Bool.not_eq_false] at hn
  unfold tmMove at h
  dsimp only at h
  have hc : ¬ (1000 < st.iter + 1 ∧ st.aug = false) := fun h => by rw [hn] at h; exact absurd h.2 (by simp)
  rw [if_neg hc] at h
  dsimp only at h
  split at h <;> simp_all

theorem Closing.next (hW : SteadySlope W hs lo hi mu L f0) {st : TmState ℝ} (h : Closing W hs lo hi f0 st) (ht : 1e-12 < st.deltaMass) (th : ℝ) :
    Closing W hs lo hi f0 (tmRenew W hs th st) := by
  obtain ⟨fp, fl, fa⟩ := h.factor
  obtain ⟨i1, i2⟩ := h.inside
  have hmu := hW.mu_pos
  have hmu0 := hW.mu0
  have hf1 := hW.f1
  have hbe := hW.below
  have hab := hW.above
  have hlo0 := hW.lo0
  have hd := h.delta
  norm_num at hmu0
  have hne : st.psi ≠ hs := by
    intro e; rw [hd, e, sub_self, abs_zero] at ht; norm_num at ht
  have hF : st.factor ≤ tmFactor st ∧ tmFactor st ≤ 100 * f0 ∧ ((tmMove (W hs) st).aug = false → tmFactor st ≤ f0) := by
    rcases tmFactor_cases (W := W) (hs := hs) st with e | ⟨e1, e2, e3⟩
    · exact ⟨e.ge, e ▸ fl, fun ha => e ▸ fa (tmMove_aug_false ha)⟩
    · exact ⟨by linarith, by rw [e2]; linarith [fa e1], fun ha => by rw [e3] at ha; exact absurd ha (by simp)⟩
  have hF0 : 0 < tmFactor st := lt_of_lt_of_le fp hF.1
  -- a noncrossing step that changes little is small
  have small : ∀ f d : ℝ, 0 ≤ d → d ≤ f → mu * (1 / 10 * f) < 1e-15 → ∀ a, lo ≤ a → a ≤ hi → |a - hs| ≤ d → |W a - W hs| ≤ 9e-13 := by
    intro f d hd0 hdf hs1 a a1 a2 a3
    have h1 := hW.near a1 a2 a3
    have h2 := mul_le_mul_of_nonneg_right hW.ratio hd0
    have h3 := mul_le_mul_of_nonneg_left hdf hmu.le
    norm_num at hs1 ⊢
    linarith
  rcases lt_or_gt_of_ne hne with hlt | hgt
  · -- too wet: the head rises
    have hp : W hs < st.newMass := by
      rw [h.mass]
      have := (hW.slope st.psi hs i1 hlt.le (by linarith)).1
      have := mul_pos hmu (sub_pos.mpr hlt)
      linarith
    obtain ⟨e1, e2, e3, e4⟩ := tmMove_rise hp
    have e1 : (tmMove (W hs) st).psi = st.psi + 1 / 10 * tmFactor st := by rw [e1]; norm_num
    have in' : lo ≤ (tmMove (W hs) st).psi ∧ (tmMove (W hs) st).psi ≤ hi := by rw [e1]; constructor <;> linarith [hF.2.1]
    have hdw : st.deltaMass = W st.psi - W hs := by rw [hd]; exact hW.wet i1 hlt.le
    refine ⟨rfl, rfl, rfl, in', ⟨by show 0 < (tmMove (W hs) st).factor; rw [e2]; exact hF0,
      by show (tmMove (W hs) st).factor ≤ _; rw [e2]; exact hF.2.1,
      fun ha => by show (tmMove (W hs) st).factor ≤ _; rw [e2]; exact hF.2.2 ha⟩,
      by show 0 ≤ (tmMove (W hs) st).psiPrev; rw [e4]; exact h.before, ?_, ?_⟩
    · dsimp only [tmRenew]
      rw [e1, e2, e3]
      rcases le_or_gt (st.psi + 1 / 10 * tmFactor st) hs with hc | hc
      · rcases h.place with ⟨_, ⟨_, k⟩ | ⟨_, k, _⟩⟩ | ⟨k1, k2⟩
        · left
          refine ⟨?_, .inl ⟨rfl, by linarith [hF.1]⟩⟩
          rw [if_neg]
          rw [e1] at in'
          rw [hdw, hW.wet in'.1 hc, not_lt]
          have := (hW.slope st.psi _ i1 (by linarith) in'.2).1
          have h5 : mu * (1 / 10) ≤ mu * (st.psi + 1 / 10 * tmFactor st - st.psi) :=
            mul_le_mul_of_nonneg_left (by linarith [hF.1]) hmu.le
          rw [abs_of_nonpos (by linarith)]
          norm_num; linarith
        · linarith
        · right
          rw [abs_le] at k1
          refine ⟨by rw [abs_le]; constructor <;> linarith [hF.1], fun _ _ => by linarith⟩
      · right
        refine ⟨by rw [abs_le]; constructor <;> linarith, fun _ _ => by linarith⟩
    · dsimp only [tmRenew]
      by_cases hq : |(|W (tmMove (W hs) st).psi - W hs| - st.deltaMass)| < 1e-15
      swap
      · rw [if_neg hq]; exact .inl rfl
      rw [if_pos hq]
      rw [e1] at hq in' ⊢
      rw [e2, e3]
      rcases le_or_gt (st.psi + 1 / 10 * tmFactor st) hs with hc | hc
      · right; left
        have hsl := (hW.slope st.psi _ i1 (by linarith) in'.2).1
        have hq' := hq
        rw [hdw, hW.wet in'.1 hc, abs_of_nonpos (by
          have := mul_nonneg hmu.le (show 0 ≤ st.psi + 1 / 10 * tmFactor st - st.psi by linarith)
          linarith)] at hq'
        have hsm : mu * (1 / 10 * tmFactor st) < 1e-15 := by
          rw [show st.psi + 1 / 10 * tmFactor st - st.psi = 1 / 10 * tmFactor st by ring] at hsl
          linarith
        rcases h.place with ⟨_, ⟨_, k⟩ | ⟨_, k, _⟩⟩ | ⟨k1, _⟩
        · exfalso
          have : mu * (1 / 10) ≤ mu * (1 / 10 * tmFactor st) := mul_le_mul_of_nonneg_left (by linarith [hF.1]) hmu.le
          norm_num at hsm; linarith
        · linarith
        · have hdist : |st.psi + 1 / 10 * tmFactor st - hs| ≤ tmFactor st := by
            rw [abs_le] at k1 ⊢; constructor <;> linarith [hF.1]
          have := small _ _ hF0.le le_rfl hsm _ in'.1 in'.2 hdist
          have : (0 : ℝ) ≤ ((st.count + 1 : Nat) : ℝ) * 1e-15 := by positivity
          linarith
      · have hfin : st.psi + 1 / 10 * tmFactor st - 1 / 10 * tmFactor st = st.psi := by ring
        rcases h.quiet with k | k | ⟨k, _⟩ | ⟨_, _, k, _⟩
        · right; right; right
          exact ⟨by omega, rfl, hc.le, by rw [hfin]; exact hlt.le, by rw [hfin, ← hd]; exact hq⟩
        · right; left
          push_cast
          rw [abs_lt] at hq
          linarith [hq.2]
        · right; right; right
          exact ⟨by omega, rfl, hc.le, by rw [hfin]; exact hlt.le, by rw [hfin, ← hd]; exact hq⟩
        · linarith
  · -- too dry: the head falls
    have hp : ¬ W hs < st.newMass := by
      rw [h.mass, not_lt]
      have := (hW.slope hs st.psi (by linarith) hgt.le i2).1
      have := mul_pos hmu (sub_pos.mpr hgt)
      linarith
    obtain ⟨e4, e2, e3, e1⟩ := tmMove_fall hp
    obtain ⟨f', hf'⟩ : ∃ f', (tmMove (W hs) st).factor = f' := ⟨_, rfl⟩
    rw [hf'] at e1 e2
    have e2' : f' = if st.switched then tmFactor st else 1 / 10 * tmFactor st := by rw [e2]; split_ifs <;> norm_num; ring
    have hf0 : 0 < f' := by rw [e2']; split_ifs <;> linarith
    have hfle : f' ≤ tmFactor st := by rw [e2']; split_ifs <;> linarith
    have e1 : (tmMove (W hs) st).psi = st.psi - 1 / 10 * f' := by
      rw [e1, if_neg]
      · norm_num
      · rintro ⟨k, _⟩
        norm_num at k
        linarith [hF.2.1]
    have in' : lo ≤ (tmMove (W hs) st).psi ∧ (tmMove (W hs) st).psi ≤ hi := by rw [e1]; constructor <;> linarith [hF.2.1]
    have hdw : st.deltaMass = W hs - W st.psi := by rw [hd]; exact hW.dry hgt.le i2
    refine ⟨rfl, rfl, rfl, in', ⟨by show 0 < (tmMove (W hs) st).factor; rw [hf']; exact hf0,
      by show (tmMove (W hs) st).factor ≤ _; rw [hf']; linarith [hF.2.1],
      fun ha => by show (tmMove (W hs) st).factor ≤ _; rw [hf']; linarith [hF.2.2 ha]⟩,
      by show 0 ≤ (tmMove (W hs) st).psiPrev; rw [e4]; linarith, ?_, ?_⟩
    · dsimp only [tmRenew]
      rw [e1, hf', e3]
      rcases le_or_gt hs (st.psi - 1 / 10 * f') with hc | hc
      · rw [e1] at in'
        have hsl := (hW.slope _ st.psi in'.1 (by linarith) i2).1
        have unq : 1 / 10 ≤ f' → ¬ |(|W (st.psi - 1 / 10 * f') - W hs| - st.deltaMass)| < 1e-15 := by
          intro hff
          rw [hdw, hW.dry hc in'.2, not_lt]
          have h5 : mu * (1 / 100) ≤ mu * (st.psi - (st.psi - 1 / 10 * f')) := mul_le_mul_of_nonneg_left (by linarith) hmu.le
          rw [abs_of_nonpos (by linarith)]
          norm_num; linarith
        rcases h.place with ⟨_, ⟨k0, k⟩ | ⟨k0, _, k⟩⟩ | ⟨k1, k2⟩
        · have hff : 1 / 10 ≤ f' := by rw [e2', k0]; simp; linarith [hF.1]
          exact .inl ⟨if_neg (unq hff), .inr ⟨rfl, hc, hff⟩⟩
        · have hff : 1 / 10 ≤ f' := by rw [e2', k0]; simp; linarith [hF.1]
          exact .inl ⟨if_neg (unq hff), .inr ⟨rfl, hc, hff⟩⟩
        · right
          refine ⟨?_, fun h => absurd h (by simp)⟩
          rw [abs_of_nonneg (by linarith)]
          rw [abs_of_nonneg (by linarith)] at k1
          cases hsw : st.switched with
          | true => rw [e2', hsw]; simp only [if_true]; rw [e2', hsw] at hc hf0; simp only [if_true] at hc hf0; linarith [hF.1]
          | false =>
            have := k2 hsw hgt.le
            have : f' = 1 / 10 * tmFactor st := by rw [e2', hsw]; simp
            linarith [hF.1]
      · right
        exact ⟨by rw [abs_le]; constructor <;> linarith, fun h => absurd h (by simp)⟩
    · dsimp only [tmRenew]
      by_cases hq : |(|W (tmMove (W hs) st).psi - W hs| - st.deltaMass)| < 1e-15
      swap
      · rw [if_neg hq]; exact .inl rfl
      rw [if_pos hq]
      rw [e1] at hq in' ⊢
      rw [hf', e3]
      rcases le_or_gt hs (st.psi - 1 / 10 * f') with hc | hc
      · right; left
        have hsl := (hW.slope _ st.psi in'.1 (by linarith) i2).1
        have hq' := hq
        rw [hdw, hW.dry hc in'.2, abs_of_nonpos (by
          have := mul_nonneg hmu.le (show 0 ≤ st.psi - (st.psi - 1 / 10 * f') by linarith)
          linarith)] at hq'
        have hsm : mu * (1 / 10 * f') < 1e-15 := by
          rw [show st.psi - (st.psi - 1 / 10 * f') = 1 / 10 * f' by ring] at hsl
          linarith
        have big : 1 / 10 ≤ f' → False := by
          intro hff
          have : mu * (1 / 100) ≤ mu * (1 / 10 * f') := mul_le_mul_of_nonneg_left (by linarith) hmu.le
          norm_num at hsm; linarith
        rcases h.place with ⟨_, ⟨k0, k⟩ | ⟨k0, _, k⟩⟩ | ⟨k1, k2⟩
        · exact (big (by rw [e2', k0]; simp; linarith [hF.1])).elim
        · exact (big (by rw [e2', k0]; simp; linarith [hF.1])).elim
        · have hdist : |st.psi - 1 / 10 * f' - hs| ≤ f' := by
            rw [abs_of_nonneg (by linarith)]
            rw [abs_of_nonneg (by linarith)] at k1
            cases hsw : st.switched with
            | true =>
              have : f' = tmFactor st := by rw [e2', hsw]; simp
              linarith [hF.1]
            | false =>
              have := k2 hsw hgt.le
              have : f' = 1 / 10 * tmFactor st := by rw [e2', hsw]; simp
              linarith [hF.1]
          have := small _ _ hf0.le le_rfl hsm _ in'.1 in'.2 hdist
          have : (0 : ℝ) ≤ ((st.count + 1 : Nat) : ℝ) * 1e-15 := by positivity
          linarith
      · rcases h.quiet with k | k | ⟨_, _, k⟩ | ⟨_, k0, _, k1, k2⟩
        · right; right; left
          exact ⟨by omega, rfl, hc⟩
        · right; left
          push_cast
          rw [abs_lt] at hq
          linarith [hq.2]
        · linarith
        · right; left
          have hb : lo ≤ st.psi - 1 / 10 * st.factor := by linarith
          have hff : f' = 1 / 10 * tmFactor st := by rw [e2', k0]; simp
          rw [hW.wet hb k1] at k2
          have hw' := hW.wet in'.1 hc.le
          rw [hw'] at hq ⊢
          rw [abs_lt] at hq k2
          have hsum : mu * (9 / 100 * st.factor) ≤ 2e-15 := by
            rcases tmFactor_cases (W := W) (hs := hs) st with e | ⟨_, e, _⟩
            · have := (hW.slope (st.psi - 1 / 10 * st.factor) (st.psi - 1 / 10 * f') hb (by linarith) in'.2).1
              rw [show st.psi - 1 / 10 * f' - (st.psi - 1 / 10 * st.factor) = 9 / 100 * st.factor by rw [hff, e]; ring] at this
              norm_num at hq k2 ⊢; linarith
            · have := (hW.slope (st.psi - 1 / 10 * f') (st.psi - 1 / 10 * st.factor) in'.1 (by linarith) (by linarith)).1
              rw [show st.psi - 1 / 10 * st.factor - (st.psi - 1 / 10 * f') = 9 / 10 * st.factor by rw [hff, e]; ring] at this
              have h6 : mu * (9 / 100 * st.factor) ≤ mu * (9 / 10 * st.factor) := mul_le_mul_of_nonneg_left (by linarith) hmu.le
              norm_num at hq k2 ⊢; linarith
          have hnear := hW.near hb (by linarith) (d := 1 / 10 * st.factor) (by rw [abs_le]; constructor <;> linarith)
          rw [hW.wet hb k1] at hnear
          have h7 := mul_le_mul_of_nonneg_right hW.ratio (show 0 ≤ 1 / 10 * st.factor by linarith)
          have : (0 : ℝ) ≤ ((st.count + 1 : Nat) : ℝ) * 1e-15 := by positivity
          norm_num at hq k2 hsum ⊢
          norm_num at this
          linarith

theorem tmMove_keeps (st : TmState ℝ) (P : ℝ) : (tmMove P st).deltaPrev = st.deltaPrev ∧ (tmMove P st).count = st.count := by
  unfold tmMove
  dsimp only
  split <;> exact ⟨rfl, rfl⟩

/-- A search that stops because its step has become tiny or because nothing changes is within the tolerance. -/
theorem Closing.stop (hW : SteadySlope W hs lo hi mu L f0) {st : TmState ℝ} (h : Closing W hs lo hi f0 st)
    (hstop : st.factor < 1e-13 ∨ st.count = 5) : st.deltaMass ≤ 1e-12 := by
  rcases hstop with hc | hc
  · rcases h.place with ⟨_, ⟨_, k⟩ | ⟨_, _, k⟩⟩ | ⟨k, _⟩
    · norm_num at hc; linarith
    · norm_num at hc; linarith
    · rw [h.delta]
      have h1 := hW.near h.inside.1 h.inside.2 k
      have h2 := mul_le_mul_of_nonneg_right hW.L10 h.factor.1.le
      norm_num at hc ⊢
      linarith
  · rcases h.quiet with k | k | ⟨k, _⟩ | ⟨k, _⟩
    · omega
    · rw [hc] at k; norm_num at k ⊢; linarith
    · omega
    · omega

end

variable {g : Geo ℝ} {dTheta dThick : List ℝ} {layer : Nat} {sl : List Slab} {s : SoilProps ℝ} {hst lo hi mu L f0 : ℝ}

theorem tmLoop_converges (hd : SlabsOf g dTheta dThick layer sl) (hs : SlabsOk sl) (h1 : 1 ≤ layer) (hg : g.soil layer = .ok s)
    (hW : SteadySlope (stackWater sl) hst lo hi mu L f0) : ∀ (fuel : Nat) (st : TmState ℝ), Closing (stackWater sl) hst lo hi f0 st →
      (st.theta = moistAt s st.psi ∨ 1e-12 < st.deltaMass) →
      tmLoop g layer s dTheta dThick (stackWater sl hst) fuel st = .error .fuel ∨
        ∃ st', tmLoop g layer s dTheta dThick (stackWater sl hst) fuel st = .ok (.done st') ∧ 0 ≤ st'.psi ∧
          st'.theta = moistAt s st'.psi ∧ st'.deltaMass = |stackWater sl st'.psi - stackWater sl hst| ∧ st'.deltaMass ≤ 1e-12
  | 0, _, _, _ => .inl rfl
  | fuel + 1, st, hi', ht => by
    unfold tmLoop
    split
    · rename_i hlt
      have hn := hi'.next hW hlt (moistAt s (tmMove (stackWater sl hst) st).psi)
      have hin : 0 ≤ (tmMove (stackWater sl hst) st).psi := le_trans hW.lo0 hn.inside.1
      obtain ⟨k1, k2⟩ := tmMove_keeps st (stackWater sl hst)
      simp only [tmMass_water hd hs h1 hg hin, fabs_eq, k1, k2, hi'.prev]
      split
      · rename_i hc
        exact .inr ⟨_, rfl, hin, rfl, rfl, hn.stop hW (.inl hc.2)⟩
      · have h7 : ¬ 1e7 < (tmMove (stackWater sl hst) st).psi := not_lt.mpr (le_trans hn.inside.2 hW.hi7)
        have h8 : ¬ ((tmMove (stackWater sl hst) st).psi ≤ 0 ∧ (tmMove (stackWater sl hst) st).psiPrev < 0) :=
          fun h => absurd h.2 (not_lt.mpr hn.before)
        have hr := tmLoop_converges hd hs h1 hg hW fuel _ hn (.inl rfl)
        have hstop := hn.stop hW
        unfold tmRenew at hr hstop
        dsimp only at hr hstop
        simp only [if_neg h7, if_neg h8]
        generalize (if |(|stackWater sl (tmMove (stackWater sl hst) st).psi - stackWater sl hst| - st.deltaMass)| < 1e-15
          then st.count + 1 else 0) = cnt at hr hstop ⊢
        split
        · rename_i hc
          exact .inr ⟨_, rfl, hin, rfl, rfl, hstop (.inr hc)⟩
        · exact hr
    · rename_i hlt
      exact .inr ⟨st, rfl, le_trans hW.lo0 hi'.inside.1, ht.resolve_right hlt, hi'.delta, not_lt.mp hlt⟩

/-- lgar_theta_mass_balance succeeds. -/
theorem thetaMassBalance_converges (hd : SlabsOf g dTheta dThick layer sl) (hs : SlabsOk sl) (h1 : 1 ≤ layer)
    (hg : g.soil layer = .ok s) {fuel : Nat} {psi newMass aet : ℝ} (hW : SteadySlope (stackWater sl) hst lo hi mu L (max 1 (psi / 100)))
    (hpsi : lo ≤ psi ∧ psi ≤ hi) (hnew : newMass = stackWater sl psi) :
    thetaMassBalance fuel g layer s psi newMass (stackWater sl hst) aet dTheta dThick = .error .fuel ∨
    ∃ h, thetaMassBalance fuel g layer s psi newMass (stackWater sl hst) aet dTheta dThick = .ok (some (moistAt s h), aet) ∧ 0 ≤ h ∧
      |stackWater sl h - stackWater sl hst| ≤ 1e-12 := by
  have hp : s.Physical := by
    have hlt : layer - 1 < sl.length := by rw [hd.1]; omega
    obtain ⟨_, _, e3⟩ := hd.2 (layer - 1) _ (List.getElem?_eq_getElem hlt)
    rw [Nat.sub_add_cancel h1, hg, Except.ok.injEq] at e3
    rw [e3]; exact (hs _ (List.getElem_mem hlt)).2
  have hpsi0 : 0 ≤ psi := le_trans hW.lo0 hpsi.1
  unfold thetaMassBalance
  simp only [fabs_eq]
  split
  · rename_i hle
    rw [calcTheta_moistAt hp hpsi0, ok_bind, pure_eq_ok]
    exact .inr ⟨psi, rfl, hpsi0, by rw [← hnew]; exact hle⟩
  · rename_i hle
    have hf : CMath.fmax 1 (psi / 100.0) = max 1 (psi / 100) := by rw [fmax_eq]; norm_num
    have hf1 : (1 : ℝ) ≤ max 1 (psi / 100) := le_max_left _ _
    rcases tmLoop_converges hd hs h1 hg hW fuel
      { psi := psi, psiPrev := psi, factor := CMath.fmax 1 (psi / 100.0), switched := false, newMass := newMass,
        deltaMass := |newMass - stackWater sl hst|, deltaPrev := |newMass - stackWater sl hst|, count := 0, iter := 0, aug := false,
        wanted := false, theta := 0 }
      ⟨hnew, by rw [hnew], rfl, hpsi, by rw [hf]; exact ⟨by linarith, by linarith, fun _ => le_rfl⟩, hpsi0,
        .inl ⟨rfl, .inl ⟨rfl, by rw [hf]; exact hf1⟩⟩, .inl rfl⟩
      (.inr (not_le.mp hle)) with he | ⟨st, he, hh, hth, hdl, hfin⟩
    · rw [he]; exact .inl rfl
    rw [he, ok_bind]
    right
    have hover : ¬ (s.thetaE ≤ st.theta ∧ (st.psi == 0) = false) := by
      rintro ⟨a, b⟩
      have hne : st.psi ≠ 0 := by simpa using b
      have := moistAt_lt hp le_rfl (lt_of_le_of_ne hh hne.symm)
      rw [moistAt_zero hp, ← hth] at this
      linarith
    have hno : ¬ (1e-12 < st.deltaMass ∧ st.wanted = false) := fun h => absurd h.1 (not_lt.mpr hfin)
    simp only [hover, hno, if_false, pure_eq_ok]
    exact ⟨st.psi, by rw [hth], hh, hdl ▸ hfin⟩

end LGAR
