import Verif.Model.Dzdt
import Verif.Num.Real
import Verif.Lemmas.Stable
import Mathlib.Topology.UniformSpace.HeineCantor
import Mathlib.Analysis.SpecialFunctions.Pow.Continuity
/-
Termination of the loop of lgar_theta_mass_balance (`tmLoop`) over the real numbers.
-/
namespace LGAR

theorem calcThetaFromH_ne_fuel {α : Type} [Add α] [Sub α] [Mul α] [Div α] [One α] [CMath α] {h a m n e r : α} :
    calcThetaFromH h a m n e r ≠ .error .fuel :=
  bind_ne_fuel cpow_ne_fuel fun _ _ => bind_ne_fuel cpow_ne_fuel fun _ _ => bind_ne_fuel cdiv_ne_fuel fun _ _ => by simp

theorem tmLayers_ne_fuel {g : Geo ℝ} {psi : ℝ} {dTheta dThick : List ℝ} : ∀ (n k : Nat) (m : ℝ),
    tmLayers g psi dTheta dThick n k m ≠ .error .fuel
  | 0, _, _ => by unfold tmLayers; simp
  | n + 1, k, m => by
    unfold tmLayers
    exact bind_ne_fuel soil_ne_fuel fun _ _ => bind_ne_fuel calcThetaFromH_ne_fuel fun _ _ =>
      bind_ne_fuel idx_ne_fuel fun _ _ => bind_ne_fuel idx_ne_fuel fun _ _ => tmLayers_ne_fuel n (k + 1) _

theorem tmMass_ne_fuel {g : Geo ℝ} {layer : Nat} {s : SoilProps ℝ} {psi : ℝ} {dTheta dThick : List ℝ} :
    tmMass g layer s dTheta dThick psi ≠ .error .fuel := by
  unfold tmMass
  exact bind_ne_fuel calcThetaFromH_ne_fuel fun _ _ => bind_ne_fuel idx_ne_fuel fun _ _ =>
    bind_ne_fuel idx_ne_fuel fun _ _ => bind_ne_fuel (tmLayers_ne_fuel _ _ _) fun _ _ => by simp

/-- The water content of a soil at head `psi`, where the code computes it. -/
noncomputable def thetaReal (s : SoilProps ℝ) (psi : ℝ) : ℝ :=
  1 / (1 + (s.vgAlpha * psi) ^ s.vgN) ^ s.vgM * (s.thetaE - s.thetaR) + s.thetaR

theorem calcThetaFromH_value {s : SoilProps ℝ} {psi th : ℝ}
    (h : calcThetaFromH psi s.vgAlpha s.vgM s.vgN s.thetaE s.thetaR = .ok th) : th = thetaReal s psi := by
  unfold calcThetaFromH at h
  simp only [bind_ok_iff, cpow_ok_iff, cdiv_ok_iff, pure_eq_ok, Except.ok.injEq] at h
  obtain ⟨p, ⟨_, rfl⟩, q, ⟨_, rfl⟩, r, ⟨_, rfl⟩, rfl⟩ := h
  rfl

theorem thetaReal_cont (s : SoilProps ℝ) (ha : 0 < s.vgAlpha) (hn : 0 < s.vgN) :
    ∃ d, 0 < d ∧ ContinuousOn (thetaReal s) (Set.Ici (-d)) := by
  have hp : Continuous fun x : ℝ => (s.vgAlpha * x) ^ s.vgN :=
    (Real.continuous_rpow_const hn.le).comp (continuous_const.mul continuous_id)
  have h0 : ContinuousAt (fun x : ℝ => (s.vgAlpha * x) ^ s.vgN) 0 := hp.continuousAt
  rw [Metric.continuousAt_iff] at h0
  obtain ⟨d, hd, hh⟩ := h0 (1 / 2) (by norm_num)
  refine ⟨d / 2, by positivity, fun x hx => ?_⟩
  have hpos : 0 < 1 + (s.vgAlpha * x) ^ s.vgN := by
    rcases le_or_gt 0 x with hx0 | hx0
    · have := Real.rpow_nonneg (mul_nonneg ha.le hx0) s.vgN; linarith
    · have hx' : -(d / 2) ≤ x := hx
      have := hh (x := x) (by rw [Real.dist_eq, sub_zero, abs_of_neg hx0]; linarith)
      rw [Real.dist_eq, mul_zero, Real.zero_rpow hn.ne', sub_zero] at this
      have := (abs_lt.mp this).1
      linarith
  have hc : ContinuousAt (thetaReal s) x := by
    unfold thetaReal
    have h1 : ContinuousAt (fun x : ℝ => 1 + (s.vgAlpha * x) ^ s.vgN) x := (continuous_const.add hp).continuousAt
    have h2 : ContinuousAt (fun x : ℝ => (1 + (s.vgAlpha * x) ^ s.vgN) ^ s.vgM) x :=
      h1.rpow_const (Or.inl hpos.ne')
    have h3 : ContinuousAt (fun x : ℝ => 1 / (1 + (s.vgAlpha * x) ^ s.vgN) ^ s.vgM) x :=
      continuousAt_const.div h2 (Real.rpow_pos_of_pos hpos _).ne'
    exact (h3.mul continuousAt_const).add continuousAt_const
  exact hc.continuousWithinAt

/-- `F` describes the results of `f` and is continuous for heads above a small negative value. -/
def ContRes (f : ℝ → Res ℝ) (F : ℝ → ℝ) : Prop :=
  (∃ d, 0 < d ∧ ContinuousOn F (Set.Ici (-d))) ∧ ∀ x m, f x = .ok m → m = F x

theorem tmLayers_cont {g : Geo ℝ} {dTheta dThick : List ℝ}
    (hs : ∀ k s, 1 ≤ k → g.soil k = .ok s → 0 < s.vgAlpha ∧ 0 < s.vgN) : ∀ (n k : Nat) (M : ℝ → ℝ), 1 ≤ k →
    (∃ d, 0 < d ∧ ContinuousOn M (Set.Ici (-d))) →
    ∃ F, ContRes (fun x => tmLayers g x dTheta dThick n k (M x)) F
  | 0, k, M, _, hM => ⟨M, hM, fun x m h => by simpa [tmLayers] using h.symm⟩
  | n + 1, k, M, h1, ⟨d, hd, hM⟩ => by
    by_cases hk : ∃ s dk tk, g.soil k = .ok s ∧ dThick[k]? = some dk ∧ dTheta[k]? = some tk
    · obtain ⟨s, dk, tk, e1, e2, e3⟩ := hk
      obtain ⟨d', hd', hc⟩ := thetaReal_cont s (hs k s h1 e1).1 (hs k s h1 e1).2
      obtain ⟨F, hF, hv⟩ := tmLayers_cont (dTheta := dTheta) (dThick := dThick) hs n (k + 1)
        (fun x => M x + dk * (thetaReal s x - tk)) (by omega)
        ⟨min d d', lt_min hd hd', by
          refine (hM.mono ?_).add (continuousOn_const.mul ((hc.mono ?_).sub continuousOn_const))
          · exact Set.Ici_subset_Ici.mpr (neg_le_neg (min_le_left _ _))
          · exact Set.Ici_subset_Ici.mpr (neg_le_neg (min_le_right _ _))⟩
      refine ⟨F, hF, fun x m h => hv x m ?_⟩
      unfold tmLayers at h
      simp only [bind_ok_iff, idx_ok_iff, e1, e2, e3, Except.ok.injEq, Option.some.injEq] at h
      obtain ⟨_, rfl, th, hth, _, rfl, _, rfl, h⟩ := h
      rw [calcThetaFromH_value hth] at h
      exact h
    · refine ⟨M, ⟨d, hd, hM⟩, fun x m h => ?_⟩
      unfold tmLayers at h
      simp only [bind_ok_iff, idx_ok_iff] at h
      obtain ⟨s, e1, _, _, dk, e2, tk, e3, _⟩ := h
      exact absurd ⟨s, dk, tk, e1, e2, e3⟩ hk

theorem tmMass_cont {g : Geo ℝ} {layer : Nat} {s : SoilProps ℝ} {dTheta dThick : List ℝ}
    (hs : ∀ k s, 1 ≤ k → g.soil k = .ok s → 0 < s.vgAlpha ∧ 0 < s.vgN) (ha : 0 < s.vgAlpha) (hn : 0 < s.vgN) :
    ∃ F : ℝ → ℝ, (∃ d, 0 < d ∧ ContinuousOn F (Set.Ici (-d))) ∧
      ∀ x th m, tmMass g layer s dTheta dThick x = .ok (th, m) → m = F x := by
  by_cases hk : ∃ dl tl, dThick[layer]? = some dl ∧ dTheta[layer]? = some tl
  · obtain ⟨dl, tl, e1, e2⟩ := hk
    obtain ⟨d, hd, hc⟩ := thetaReal_cont s ha hn
    obtain ⟨F, hF, hv⟩ := tmLayers_cont (dTheta := dTheta) (dThick := dThick) hs (layer - 1) 1
      (fun x => 0 + dl * (thetaReal s x - tl)) le_rfl
      ⟨d, hd, continuousOn_const.add (continuousOn_const.mul (hc.sub continuousOn_const))⟩
    refine ⟨F, hF, fun x th m h => hv x m ?_⟩
    unfold tmMass at h
    simp only [bind_ok_iff, idx_ok_iff, e1, e2, Except.ok.injEq, Option.some.injEq, pure_eq_ok, Prod.mk.injEq] at h
    obtain ⟨th', hth, _, rfl, _, rfl, m', h, _, rfl⟩ := h
    rw [calcThetaFromH_value hth] at h
    exact h
  · refine ⟨fun _ => 0, ⟨1, one_pos, continuousOn_const⟩, fun x th m h => ?_⟩
    unfold tmMass at h
    simp only [bind_ok_iff, idx_ok_iff] at h
    obtain ⟨_, _, dl, e1, tl, e2, _⟩ := h
    exact absurd ⟨dl, tl, e1, e2⟩ hk

section
variable {g : Geo ℝ} {layer : Nat} {s : SoilProps ℝ} {dTheta dThick : List ℝ} {prior : ℝ}

variable (g layer s dTheta dThick prior) in
/-- `st'` is the state after one more round of the loop, and the loop goes on. -/
def TmNext (st st' : TmState ℝ) : Prop :=
  ∃ th m, tmMass g layer s dTheta dThick (tmMove prior st).psi = .ok (th, m) ∧
    (let c := if |(|m - prior| - st.deltaPrev)| < 1e-15 then st.count + 1 else 0
     c ≠ 5 ∧ (tmMove prior st).psi ≤ 1e7 ∧ ¬ ((tmMove prior st).psi ≤ 0 ∧ (tmMove prior st).psiPrev < 0) ∧
     st' = { tmMove prior st with theta := th, newMass := m, deltaMass := |m - prior|, count := c,
                                  deltaPrev := |m - prior| })

variable (g layer s dTheta dThick prior) in
/-- The loop ends from `st`. -/
abbrev TmHalts (st : TmState ℝ) : Prop := Finishes fun f => tmLoop g layer s dTheta dThick prior f st

theorem tmMove_deltaPrev (st : TmState ℝ) : (tmMove prior st).deltaPrev = st.deltaPrev ∧
    (tmMove prior st).count = st.count := by
  unfold tmMove; dsimp only; split_ifs <;> exact ⟨rfl, rfl⟩

theorem Finishes.shift {β : Type} {f : Nat → Res β} (h : Finishes fun n => f (n + 1)) : Finishes f := by
  obtain ⟨r, hr, N, hN⟩ := h
  refine ⟨r, hr, N + 1, fun n hn => ?_⟩
  obtain ⟨k, rfl⟩ : ∃ k, n = k + 1 := ⟨n - 1, by omega⟩
  exact hN k (by omega)

theorem tmHalts_of_next {st : TmState ℝ}
    (h : ∀ st', TmNext g layer s dTheta dThick prior st st' → TmHalts g layer s dTheta dThick prior st') :
    TmHalts g layer s dTheta dThick prior st := by
  apply Finishes.shift
  simp only [tmLoop]
  refine Finishes.ite (fun _ => ?_) (fun _ => Finishes.ok _)
  cases e : tmMass g layer s dTheta dThick (tmMove prior st).psi with
  | error e' =>
    have hne : e' ≠ .fuel := fun h' => tmMass_ne_fuel (by rw [e, h'])
    cases e' <;> first | exact Finishes.ok _ | exact Finishes.err hne
  | ok r =>
    obtain ⟨th, m⟩ := r
    dsimp only
    refine Finishes.ite (fun _ => Finishes.ok _) fun _ => ?_
    refine Finishes.ite (fun _ => Finishes.ok _) fun hc => ?_
    refine Finishes.ite (fun _ => Finishes.ok _) fun h7 => ?_
    refine Finishes.ite (fun _ => Finishes.ok _) fun h0 => ?_
    refine h _ ⟨th, m, e, ?_⟩
    simp only [(tmMove_deltaPrev st).1, (tmMove_deltaPrev st).2] at hc ⊢
    exact ⟨hc, not_lt.mp h7, h0, rfl⟩


/-- What the loop keeps after its first round; `F` is the mass as a function of the head. -/
structure TmInv0 (prior : ℝ) (F : ℝ → ℝ) (st : TmState ℝ) : Prop where
  mass : st.newMass = F st.psi
  prev : st.deltaPrev = |F st.psi - prior|
  count : st.count ≤ 4
  top : st.psi ≤ 1e7
  pos : 0 < st.factor

/-- With a lower limit of the head. -/
structure TmInv (prior : ℝ) (F : ℝ → ℝ) (st : TmState ℝ) : Prop extends TmInv0 prior F st where
  low : -(0.1 * st.factor) ≤ st.psi

/-- The factor used in a round that starts in `st`. -/
noncomputable def tmFactor (st : TmState ℝ) : ℝ := if 1000 < st.iter + 1 ∧ st.aug = false then st.factor * 100.0 else st.factor

theorem tmMove_aug (st : TmState ℝ) : (tmMove prior st).iter = st.iter + 1 ∧
    ((tmMove prior st).aug = true ↔ st.aug = true ∨ 1000 < st.iter + 1) := by
  unfold tmMove; dsimp only
  cases st.aug <;> split_ifs <;> simp_all

theorem tmMove_rise {st : TmState ℝ} (h : prior < st.newMass) : (tmMove prior st).psi = st.psi + 0.1 * tmFactor st ∧
    (tmMove prior st).factor = tmFactor st ∧ (tmMove prior st).switched = false ∧
    (tmMove prior st).psiPrev = st.psiPrev := by
  unfold tmMove tmFactor; dsimp only
  split_ifs <;> simp_all

theorem tmMove_fall {st : TmState ℝ} (h : ¬ prior < st.newMass) : (tmMove prior st).psiPrev = st.psi ∧
    (tmMove prior st).factor = (if st.switched then tmFactor st else tmFactor st * 0.1) ∧
    (tmMove prior st).switched = true ∧
    (tmMove prior st).psi = (if st.psi - 0.1 * (tmMove prior st).factor < 0 ∧ st.psi ≠ 0 then st.psi * 0.1
      else st.psi - 0.1 * (tmMove prior st).factor) := by
  unfold tmMove tmFactor; dsimp only
  split_ifs <;> simp_all

theorem tmFactor_pos {st : TmState ℝ} (h : 0 < st.factor) : 0 < tmFactor st ∧ st.factor ≤ tmFactor st := by
  unfold tmFactor; split_ifs
  · constructor <;> norm_num <;> linarith
  · exact ⟨h, le_rfl⟩

theorem tmFactor_aug {st : TmState ℝ} (h : st.aug = true) : tmFactor st = st.factor := by
  unfold tmFactor; simp [h]

section
variable {F : ℝ → ℝ} (hF : ∀ x th m, tmMass g layer s dTheta dThick x = .ok (th, m) → m = F x)
include hF

/-- One more round keeps `TmInv0`, and `TmInv` unless the head starts far below zero; a round that starts below zero and falls
is the last one. -/
theorem TmInv0.next {st st' : TmState ℝ} (hi : TmInv0 prior F st) (hn : TmNext g layer s dTheta dThick prior st st') :
    TmInv0 prior F st' ∧ (-(0.1 * st.factor) ≤ st.psi → TmInv prior F st') ∧ st'.iter = st.iter + 1 ∧
    (st'.aug = true ↔ st.aug = true ∨ 1000 < st.iter + 1) ∧
    st'.psi = (tmMove prior st).psi ∧ st'.factor = (tmMove prior st).factor ∧
    st'.switched = (tmMove prior st).switched ∧
    (¬ prior < st.newMass → 0 ≤ st.psi) ∧
    st'.count = (if |(|F st'.psi - prior| - |F st.psi - prior|)| < 1e-15 then st.count + 1 else 0) := by
  obtain ⟨th, m, hm, hc, h7, h0, rfl⟩ := hn
  have em := hF _ _ _ hm
  have hfp := tmFactor_pos hi.pos
  have hA := tmMove_aug (prior := prior) st
  have hneg : ¬ prior < st.newMass → 0 ≤ st.psi := by
    intro hp
    by_contra hlt
    rw [not_le] at hlt
    obtain ⟨e1, e2, e3, e4⟩ := tmMove_fall hp
    apply h0
    rw [e1]
    refine ⟨?_, hlt⟩
    have hfac : 0 < (tmMove prior st).factor := by rw [e2]; split_ifs <;> nlinarith
    rw [e4, if_pos ⟨by norm_num at hfac ⊢; linarith, hlt.ne⟩]
    nlinarith
  rw [hi.prev] at hc ⊢
  have hpos : 0 < (tmMove prior st).factor := by
    by_cases hp : prior < st.newMass
    · rw [(tmMove_rise hp).2.1]; exact hfp.1
    · rw [(tmMove_fall hp).2.1]; split_ifs <;> nlinarith
  have hlow : -(0.1 * st.factor) ≤ st.psi → -(0.1 * (tmMove prior st).factor) ≤ (tmMove prior st).psi := by
    intro hl
    by_cases hp : prior < st.newMass
    · obtain ⟨e1, e2, e3, e4⟩ := tmMove_rise hp
      have : 0 ≤ (tmMove prior st).psi := by rw [e1]; norm_num at hl ⊢; linarith
      rw [e2]; norm_num; linarith
    · obtain ⟨e1, e2, e3, e4⟩ := tmMove_fall hp
      have h0' := hneg hp
      rw [e4]; split_ifs <;> norm_num <;> linarith
  refine ⟨⟨em, by rw [em], ?_, h7, hpos⟩, fun hl => ⟨⟨em, by rw [em], ?_, h7, hpos⟩, hlow hl⟩, hA.1, hA.2, rfl, rfl, rfl, hneg, ?_⟩
  · have := hi.count
    dsimp only at hc ⊢
    split_ifs at hc ⊢ <;> omega
  · have := hi.count
    dsimp only at hc ⊢
    split_ifs at hc ⊢ <;> omega
  · dsimp only; rw [em]

theorem TmInv.next {st st' : TmState ℝ} (hi : TmInv prior F st) (hn : TmNext g layer s dTheta dThick prior st st') :
    TmInv prior F st' ∧ st'.iter = st.iter + 1 ∧ (st'.aug = true ↔ st.aug = true ∨ 1000 < st.iter + 1) ∧
    st'.psi = (tmMove prior st).psi ∧ st'.factor = (tmMove prior st).factor ∧
    st'.switched = (tmMove prior st).switched ∧
    (¬ prior < st.newMass → 0 ≤ st.psi) ∧
    st'.count = (if |(|F st'.psi - prior| - |F st.psi - prior|)| < 1e-15 then st.count + 1 else 0) := by
  obtain ⟨_, h2, h3⟩ := hi.toTmInv0.next hF hn
  exact ⟨h2 hi.low, h3⟩

variable {d : ℝ} (hd : 0 < d)
  (hu : ∀ x y, -d ≤ x → x ≤ 1e7 → -d ≤ y → y ≤ 1e7 → |x - y| ≤ d → |F x - F y| < 1e-15)
include hd hu

/-- Small steps change the mass so little that the loop counts them and stops. -/
theorem tm_small : ∀ (c : Nat) (st : TmState ℝ), TmInv prior F st → st.aug = true → st.factor ≤ d →
    5 - st.count ≤ c → TmHalts g layer s dTheta dThick prior st
  | 0, st, hi, _, _, hc => absurd hi.count (by omega)
  | c + 1, st, hi, ha, hf, hc => by
    refine tmHalts_of_next fun st' hn => ?_
    obtain ⟨hi', _, haug, ep, ef, es, hneg, ec⟩ := hi.next hF hn
    have hfac : st'.factor ≤ d ∧ |st'.psi - st.psi| ≤ d := by
      have hp0 := hi.pos
      by_cases hp : prior < st.newMass
      · obtain ⟨e1, e2, _, _⟩ := tmMove_rise hp
        rw [ep, ef, e1, e2, tmFactor_aug ha]
        refine ⟨hf, ?_⟩
        rw [abs_le]; constructor <;> norm_num <;> linarith
      · obtain ⟨_, e2, _, e4⟩ := tmMove_fall hp
        have h0 := hneg hp
        rw [tmFactor_aug ha] at e2
        have hle : (tmMove prior st).factor ≤ st.factor ∧ 0 < (tmMove prior st).factor := by
          rw [e2]; split_ifs
          · exact ⟨le_rfl, hp0⟩
          · norm_num; constructor <;> linarith
        rw [ep, ef]
        refine ⟨hle.1.trans hf, ?_⟩
        rw [e4, abs_le]
        split_ifs with hx
        · have := hx.1; norm_num at this ⊢; constructor <;> linarith
        · norm_num; constructor <;> linarith
    have hlow : -d ≤ st.psi := by have := hi.low; norm_num at this; linarith
    have hlow' : -d ≤ st'.psi := by have := hi'.low; norm_num at this; linarith [hfac.1, hi'.pos]
    have hF1 := hu st'.psi st.psi hlow' hi'.top hlow hi.top hfac.2
    have hcc : |(|F st'.psi - prior| - |F st.psi - prior|)| < 1e-15 := by
      refine lt_of_le_of_lt (abs_abs_sub_abs_le _ _) ?_
      rwa [sub_sub_sub_cancel_right]
    rw [if_pos hcc] at ec
    exact tm_small c st' hi' (haug.mpr (Or.inl ha)) hfac.1 (by omega)

section
variable {X : ℝ} (hX : ∀ st, TmInv prior F st → st.aug = true → st.factor ≤ X * 0.1 → TmHalts g layer s dTheta dThick prior st)
include hX
omit hd hu

/-- A first falling round after a rising one divides the factor by ten. -/
theorem tm_turn {st : TmState ℝ} (hi : TmInv prior F st) (ha : st.aug = true) (hf : st.factor ≤ X)
    (hs : st.switched = false) (hp : ¬ prior < st.newMass) : TmHalts g layer s dTheta dThick prior st := by
  refine tmHalts_of_next fun st' hn => ?_
  obtain ⟨hi', _, haug, ep, ef, es, hneg, ec⟩ := hi.next hF hn
  obtain ⟨_, e2, _, e4⟩ := tmMove_fall hp
  refine hX st' hi' (haug.mpr (Or.inl ha)) ?_
  rw [ef, e2, hs, tmFactor_aug ha]
  norm_num; linarith

/-- The rising rounds: the head passes 1e7 or the balance changes sign. -/
theorem tm_rise : ∀ (j : Nat) (st : TmState ℝ), TmInv prior F st → st.aug = true → st.factor ≤ X → prior < st.newMass →
    1e7 - st.psi ≤ j * (0.1 * st.factor) → TmHalts g layer s dTheta dThick prior st
  | j, st, hi, ha, hf, hp, hj => by
    refine tmHalts_of_next fun st' hn => ?_
    obtain ⟨hi', _, haug, ep, ef, es, hneg, ec⟩ := hi.next hF hn
    obtain ⟨e1, e2, e3, _⟩ := tmMove_rise hp
    rw [tmFactor_aug ha] at e1 e2
    have ha' := haug.mpr (Or.inl ha)
    have hf' : st'.factor ≤ X := by rw [ef, e2]; exact hf
    by_cases hp' : prior < st'.newMass
    · cases j with
      | zero =>
        have := hi'.top
        have h0 := hi.pos
        rw [ep, e1] at this
        norm_num at this hj; linarith
      | succ j =>
        refine tm_rise j st' hi' ha' hf' hp' ?_
        rw [ep, ef, e1, e2]
        push_cast at hj
        linarith
    · exact tm_turn hF hX hi' ha' hf' (by rw [es, e3]) hp'

theorem tm_rise' {st : TmState ℝ} (hi : TmInv prior F st) (ha : st.aug = true) (hf : st.factor ≤ X)
    (hp : prior < st.newMass) : TmHalts g layer s dTheta dThick prior st := by
  have h0 := hi.pos
  obtain ⟨j, hj⟩ := exists_nat_ge ((1e7 - st.psi) / (0.1 * st.factor))
  refine tm_rise hF hX j st hi ha hf hp ?_
  rwa [div_le_iff₀ (by norm_num; linarith)] at hj

/-- A negative head. -/
theorem tm_negative {st : TmState ℝ} (hi : TmInv prior F st) (ha : st.aug = true) (hf : st.factor ≤ X)
    (h0 : st.psi < 0) : TmHalts g layer s dTheta dThick prior st := by
  by_cases hp : prior < st.newMass
  · exact tm_rise' hF hX hi ha hf hp
  · refine tmHalts_of_next fun st' hn => ?_
    exact absurd ((hi.next hF hn).2.2.2.2.2.2.1 hp) (not_le.mpr h0)

/-- Falling rounds for a head that stays below one step: it is divided by ten in each round. -/
theorem tm_fall_step {st st' : TmState ℝ} (hi : TmInv prior F st) (ha : st.aug = true) (hs : st.switched = true)
    (hp : ¬ prior < st.newMass) (hl : st.psi < 0.1 * st.factor) (hn : TmNext g layer s dTheta dThick prior st st') :
    TmInv prior F st' ∧ st'.aug = true ∧ st'.switched = true ∧ st'.factor = st.factor ∧
    (st'.psi < 0 ∨ (0 < st.psi ∧ st'.psi = st.psi * 0.1)) := by
  obtain ⟨hi', _, haug, ep, ef, es, hneg, ec⟩ := hi.next hF hn
  obtain ⟨_, e2, e3, e4⟩ := tmMove_fall hp
  rw [tmFactor_aug ha, hs, if_pos rfl] at e2
  rw [e2] at e4
  refine ⟨hi', haug.mpr (Or.inl ha), by rw [es, e3], by rw [ef, e2], ?_⟩
  rcases (hneg hp).lt_or_eq with h | h
  · right; exact ⟨h, by rw [ep, e4, if_pos ⟨by linarith, h.ne'⟩]⟩
  · left; rw [ep, e4, if_neg (by rw [← h]; simp)]; linarith

include hd hu
theorem tm_fall3 : ∀ (c : Nat) (st : TmState ℝ), TmInv prior F st → st.aug = true → st.factor ≤ X →
    st.switched = true → ¬ prior < st.newMass → st.psi < 0.1 * st.factor → st.psi ≤ d → 5 - st.count ≤ c →
    TmHalts g layer s dTheta dThick prior st
  | 0, st, hi, _, _, _, _, _, _, hc => absurd hi.count (by omega)
  | c + 1, st, hi, ha, hf, hs, hp, hl, hld, hc => by
    refine tmHalts_of_next fun st' hn => ?_
    obtain ⟨hi', ha', hs', ef, hcase⟩ := tm_fall_step hF hX hi ha hs hp hl hn
    obtain ⟨_, _, _, _, _, _, _, ec⟩ := hi.next hF hn
    have hf' : st'.factor ≤ X := by rw [ef]; exact hf
    rcases hcase with h | ⟨h0, h⟩
    · exact tm_negative hF hX hi' ha' hf' h
    by_cases hp' : prior < st'.newMass
    · exact tm_rise' hF hX hi' ha' hf' hp'
    have hb : st'.psi < st.psi ∧ 0 < st'.psi := by rw [h]; norm_num; constructor <;> linarith
    have hcc : |(|F st'.psi - prior| - |F st.psi - prior|)| < 1e-15 := by
      refine lt_of_le_of_lt (abs_abs_sub_abs_le _ _) ?_
      rw [sub_sub_sub_cancel_right]
      refine hu _ _ (by linarith) hi'.top (by linarith) hi.top ?_
      rw [abs_le]; constructor <;> linarith
    rw [if_pos hcc] at ec
    exact tm_fall3 c st' hi' ha' hf' hs' hp' (by rw [ef]; linarith) (by linarith) (by omega)

theorem tm_fall2 : ∀ (j : Nat) (st : TmState ℝ), TmInv prior F st → st.aug = true → st.factor ≤ X →
    st.switched = true → ¬ prior < st.newMass → st.psi < 0.1 * st.factor → st.psi ≤ d * 10 ^ j →
    TmHalts g layer s dTheta dThick prior st
  | 0, st, hi, ha, hf, hs, hp, hl, hld => tm_fall3 hF hd hu hX 5 st hi ha hf hs hp hl (by simpa using hld) (by omega)
  | j + 1, st, hi, ha, hf, hs, hp, hl, hld => by
    refine tmHalts_of_next fun st' hn => ?_
    obtain ⟨hi', ha', hs', ef, hcase⟩ := tm_fall_step hF hX hi ha hs hp hl hn
    have hf' : st'.factor ≤ X := by rw [ef]; exact hf
    rcases hcase with h | ⟨h0, h⟩
    · exact tm_negative hF hX hi' ha' hf' h
    by_cases hp' : prior < st'.newMass
    · exact tm_rise' hF hX hi' ha' hf' hp'
    refine tm_fall2 j st' hi' ha' hf' hs' hp' ?_ ?_
    · rw [ef, h]; norm_num at hl ⊢; linarith
    · rw [h]; rw [pow_succ] at hld; norm_num at hld ⊢; linarith

theorem tm_fall1 : ∀ (j : Nat) (st : TmState ℝ), TmInv prior F st → st.aug = true → st.factor ≤ X →
    st.switched = true → ¬ prior < st.newMass → st.psi < (j + 1) * (0.1 * st.factor) →
    TmHalts g layer s dTheta dThick prior st
  | 0, st, hi, ha, hf, hs, hp, hl => by
    obtain ⟨j, hj⟩ := pow_unbounded_of_one_lt (st.psi / d) (by norm_num : (1 : ℝ) < 10)
    refine tm_fall2 hF hd hu hX j st hi ha hf hs hp (by simpa using hl) ?_
    rw [div_lt_iff₀ hd] at hj; linarith
  | j + 1, st, hi, ha, hf, hs, hp, hl => by
    by_cases hlt : st.psi < 0.1 * st.factor
    · exact tm_fall1 0 st hi ha hf hs hp (by simpa using hlt)
    refine tmHalts_of_next fun st' hn => ?_
    obtain ⟨hi', _, haug, ep, ef, es, hneg, ec⟩ := hi.next hF hn
    obtain ⟨_, e2, e3, e4⟩ := tmMove_fall hp
    rw [tmFactor_aug ha, hs, if_pos rfl] at e2
    rw [e2, if_neg (by intro h; exact hlt (by linarith [h.1]))] at e4
    have ha' := haug.mpr (Or.inl ha)
    have hf' : st'.factor ≤ X := by rw [ef, e2]; exact hf
    by_cases hp' : prior < st'.newMass
    · exact tm_rise' hF hX hi' ha' hf' hp'
    refine tm_fall1 j st' hi' ha' hf' (by rw [es, e3]) hp' ?_
    rw [ep, ef, e2, e4]; push_cast at hl; linarith

theorem tm_level {st : TmState ℝ} (hi : TmInv prior F st) (ha : st.aug = true) (hf : st.factor ≤ X) :
    TmHalts g layer s dTheta dThick prior st := by
  by_cases hp : prior < st.newMass
  · exact tm_rise' hF hX hi ha hf hp
  cases hs : st.switched
  · exact tm_turn hF hX hi ha hf hs hp
  · have h0 : 0 < 0.1 * st.factor := by have := hi.pos; norm_num; linarith
    obtain ⟨j, hj⟩ := exists_nat_gt (st.psi / (0.1 * st.factor))
    rw [div_lt_iff₀ h0] at hj
    exact tm_fall1 hF hd hu hX j st hi ha hf hs hp (by linarith)
end

theorem tm_levels : ∀ (k : Nat) (st : TmState ℝ), TmInv prior F st → st.aug = true → st.factor ≤ d * 10 ^ k →
    TmHalts g layer s dTheta dThick prior st
  | 0, st, hi, ha, hf => tm_small hF hd hu 5 st hi ha (by simpa using hf) (by omega)
  | k + 1, st, hi, ha, hf =>
    tm_level hF hd hu (X := d * 10 ^ (k + 1))
      (fun st' hi' ha' hf' => tm_levels k st' hi' ha' (by rw [pow_succ] at hf'; norm_num at hf'; linarith)) hi ha hf

theorem tm_augmented {st : TmState ℝ} (hi : TmInv prior F st) (ha : st.aug = true) :
    TmHalts g layer s dTheta dThick prior st := by
  obtain ⟨k, hk⟩ := pow_unbounded_of_one_lt (st.factor / d) (by norm_num : (1 : ℝ) < 10)
  rw [div_lt_iff₀ hd] at hk
  exact tm_levels hF hd hu k st hi ha (by linarith)

theorem tm_any : ∀ (c : Nat) (st : TmState ℝ), TmInv prior F st → 1001 - st.iter ≤ c →
    TmHalts g layer s dTheta dThick prior st
  | c, st, hi, hc => by
    by_cases ha : st.aug = true
    · exact tm_augmented hF hd hu hi ha
    refine tmHalts_of_next fun st' hn => ?_
    obtain ⟨hi', eit, haug, _⟩ := hi.next hF hn
    cases c with
    | zero => exact tm_augmented hF hd hu hi' (haug.mpr (Or.inr (by omega)))
    | succ c => exact tm_any c st' hi' (by omega)

/-- A start far below zero: the head can only rise. -/
theorem tm_below : ∀ (j : Nat) (st : TmState ℝ), TmInv0 prior F st → -st.psi ≤ (j + 1) * (0.1 * st.factor) →
    TmHalts g layer s dTheta dThick prior st
  | 0, st, hi, hj => tm_any hF hd hu _ st ⟨hi, by simp at hj ⊢; linarith⟩ le_rfl
  | j + 1, st, hi, hj => by
    refine tmHalts_of_next fun st' hn => ?_
    obtain ⟨hi', _, _, _, ep, ef, _, hneg, _⟩ := hi.next hF hn
    have h0 := tmFactor_pos hi.pos
    refine tm_below j st' hi' ?_
    have hf' := hi'.pos
    have hr : 0 ≤ ((j : ℝ) + 1) * (0.1 * st'.factor) := by positivity
    by_cases hp : prior < st.newMass
    · obtain ⟨e1, e2, _⟩ := tmMove_rise hp
      rw [ep, ef, e1, e2]
      have : ((j : ℝ) + 1) * (0.1 * st.factor) ≤ ((j : ℝ) + 1) * (0.1 * tmFactor st) := by
        gcongr; exact h0.2
      push_cast at hj
      have := h0.2
      norm_num at *
      linarith
    · have hn0 := hneg hp
      obtain ⟨_, e2, _, e4⟩ := tmMove_fall hp
      rw [← ef] at e4
      have hr' : (0.1 : ℝ) * st'.factor ≤ ((j : ℝ) + 1) * (0.1 * st'.factor) := by
        have : (0 : ℝ) ≤ j := Nat.cast_nonneg j
        nlinarith [mul_nonneg this (by positivity : (0 : ℝ) ≤ 0.1 * st'.factor)]
      rw [ep, e4]
      split_ifs
      · have : 0 ≤ st.psi * 0.1 := by positivity
        linarith
      · linarith

theorem tm_all {st : TmState ℝ} (hi : TmInv0 prior F st) : TmHalts g layer s dTheta dThick prior st := by
  have h0 : 0 < 0.1 * st.factor := by have := hi.pos; positivity
  obtain ⟨j, hj⟩ := exists_nat_gt (-st.psi / (0.1 * st.factor))
  rw [div_lt_iff₀ h0] at hj
  exact tm_below hF hd hu j st hi (by linarith)
end

/-- The state with which the loop starts. -/
noncomputable def tmStart (prior psi newMass f : ℝ) : TmState ℝ :=
  { psi := psi, psiPrev := psi, factor := f, switched := false, newMass := newMass,
    deltaMass := CMath.fabs (newMass - prior), deltaPrev := CMath.fabs (newMass - prior), count := 0, iter := 0,
    aug := false, wanted := false, theta := 0 }

/-- The loop of lgar_theta_mass_balance ends for every soil with positive van Genuchten alpha and n, whatever the
start masses are. -/
theorem thetaMassBalance_finishes {psi newMass aet : ℝ}
    (hs : ∀ k s, 1 ≤ k → g.soil k = .ok s → 0 < s.vgAlpha ∧ 0 < s.vgN) (ha : 0 < s.vgAlpha) (hn : 0 < s.vgN) :
    Finishes fun fuel => thetaMassBalance fuel g layer s psi newMass prior aet dTheta dThick := by
  obtain ⟨F, ⟨d0, hd0, hcont⟩, hF⟩ := tmMass_cont (g := g) (layer := layer) (s := s) (dTheta := dTheta)
    (dThick := dThick) hs ha hn
  have hunif : UniformContinuousOn F (Set.Icc (-d0) 1e7) :=
    isCompact_Icc.uniformContinuousOn_of_continuous (hcont.mono Set.Icc_subset_Ici_self)
  rw [Metric.uniformContinuousOn_iff] at hunif
  obtain ⟨e, he, hue⟩ := hunif 1e-15 (by norm_num)
  have hd : 0 < min (e / 2) d0 := lt_min (by positivity) hd0
  have hu : ∀ x y, -(min (e / 2) d0) ≤ x → x ≤ 1e7 → -(min (e / 2) d0) ≤ y → y ≤ 1e7 → |x - y| ≤ min (e / 2) d0 →
      |F x - F y| < 1e-15 := by
    intro x y h1 h2 h3 h4 h5
    have hm := min_le_right (e / 2) d0
    have hm' := min_le_left (e / 2) d0
    exact hue x ⟨by linarith, h2⟩ y ⟨by linarith, h4⟩ (by rw [Real.dist_eq]; linarith)
  unfold thetaMassBalance
  dsimp only
  refine Finishes.ite (fun _ => Finishes.const (bind_ne_fuel calcThetaFromH_ne_fuel fun _ _ => by simp)) fun _ => ?_
  refine Finishes.bind ?_ fun r _ => ?_
  · refine tmHalts_of_next fun st' hn => ?_
    have hmax : (1 : ℝ) ≤ CMath.fmax 1 (psi / 100.0) := le_max_left _ _
    generalize hfm : CMath.fmax 1 (psi / 100.0) = f0 at hn hmax
    suffices h : TmInv0 prior F st' from tm_all hF hd hu h
    change TmNext g layer s dTheta dThick prior (tmStart prior psi newMass f0) st' at hn
    obtain ⟨st0, hst0⟩ : ∃ st0, st0 = tmStart prior psi newMass f0 := ⟨_, rfl⟩
    rw [← hst0] at hn
    obtain ⟨th, m, hm, hc, h7, h0, rfl⟩ := hn
    have em := hF _ _ _ hm
    have efac : tmFactor st0 = f0 := by simp [tmFactor, hst0, tmStart]
    have hpos : 0 < (tmMove prior st0).factor := by
      by_cases hp : prior < st0.newMass
      · rw [(tmMove_rise hp).2.1, efac]; linarith
      · rw [(tmMove_fall hp).2.1, efac]; split_ifs <;> norm_num <;> linarith
    refine ⟨em, by rw [em], ?_, h7, hpos⟩
    dsimp only at hc ⊢
    split_ifs <;> simp [hst0, tmStart]
  · cases r with
    | nan => exact Finishes.pure _
    | done st => exact Finishes.pure _

end
end LGAR
