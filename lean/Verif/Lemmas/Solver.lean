import Verif.Spec.Solver
import Verif.Lemmas.SoilReal
import Verif.Lemmas.ThetaLoop
/-
The loop of lgar_theta_mass_balance as a search for the common head of a stack of slabs (C89).
-/
namespace LGAR

theorem calcTheta_moistAt {s : SoilProps ℝ} (hs : s.Physical) {h : ℝ} (hh : 0 ≤ h) :
    calcThetaFromH h s.vgAlpha s.vgM s.vgN s.thetaE s.thetaR = .ok (moistAt s h) := by
  rw [calcThetaFromH_real hs.alpha hs.n_pos hh]
  congr 1
  unfold vgSe moistAt
  ring

theorem moistAt_zero {s : SoilProps ℝ} (hs : s.Physical) : moistAt s 0 = s.thetaE := by
  unfold moistAt
  rw [mul_zero, Real.zero_rpow hs.n_pos.ne', add_zero, Real.one_rpow, div_one]
  ring

theorem moistAt_lt {s : SoilProps ℝ} (hs : s.Physical) {h1 h2 : ℝ} (h0 : 0 ≤ h1) (h : h1 < h2) : moistAt s h2 < moistAt s h1 := by
  have := vgSe_lt hs.alpha hs.m_pos hs.n_pos h0 h
  have hg := hs.gap
  have e : ∀ h, moistAt s h = vgSe s.vgAlpha s.vgM s.vgN h * (s.thetaE - s.thetaR) + s.thetaR := fun h => by
    unfold vgSe moistAt; ring
  rw [e, e]
  nlinarith

theorem moistAt_le {s : SoilProps ℝ} (hs : s.Physical) {h1 h2 : ℝ} (h0 : 0 ≤ h1) (h : h1 ≤ h2) : moistAt s h2 ≤ moistAt s h1 := by
  rcases h.lt_or_eq with h | rfl
  · exact (moistAt_lt hs h0 h).le
  · exact le_rfl

theorem Slab.water_le {x : Slab} (ht : 0 ≤ x.thick) (hs : x.soil.Physical) {h1 h2 : ℝ} (h0 : 0 ≤ h1) (h : h1 ≤ h2) :
    x.water h2 ≤ x.water h1 := by
  unfold Slab.water
  have := moistAt_le hs h0 h
  exact mul_le_mul_of_nonneg_left (by linarith) ht

theorem stackWater_cons {x : Slab} {sl : List Slab} {h : ℝ} : stackWater (x :: sl) h = x.water h + stackWater sl h := by
  simp [stackWater]

theorem stackWater_le {sl : List Slab} (hs : SlabsOk sl) {h1 h2 : ℝ} (h0 : 0 ≤ h1) (h : h1 ≤ h2) :
    stackWater sl h2 ≤ stackWater sl h1 := by
  induction sl with
  | nil => simp [stackWater]
  | cons x sl ih =>
    rw [stackWater_cons, stackWater_cons]
    have := Slab.water_le (hs x (by simp)).1 (hs x (by simp)).2 h0 h
    have := ih (fun y hy => hs y (by simp [hy]))
    linarith

/-- A drier stack is drier in every slab, so no slab is off by more than the stack. -/
theorem Slab.off_le {sl : List Slab} (hs : SlabsOk sl) {h1 h2 : ℝ} (h0 : 0 ≤ h1) (h : h1 ≤ h2) {x : Slab} (hx : x ∈ sl) :
    x.water h1 - x.water h2 ≤ stackWater sl h1 - stackWater sl h2 := by
  induction sl with
  | nil => simp at hx
  | cons y sl ih =>
    rw [stackWater_cons, stackWater_cons]
    have hl := stackWater_le (sl := sl) (fun y hy => hs y (by simp [hy])) h0 h
    have hw := Slab.water_le (hs y (by simp)).1 (hs y (by simp)).2 h0 h
    rcases List.mem_cons.mp hx with rfl | hx
    · linarith
    · have := ih (fun y hy => hs y (by simp [hy])) hx
      linarith

theorem Slab.off_abs {sl : List Slab} (hs : SlabsOk sl) {h1 h2 : ℝ} (h0 : 0 ≤ h1) (h0' : 0 ≤ h2) {x : Slab} (hx : x ∈ sl) :
    |x.water h1 - x.water h2| ≤ |stackWater sl h1 - stackWater sl h2| := by
  rcases le_total h1 h2 with h | h
  · have a := Slab.off_le hs h0 h hx
    have b := Slab.water_le (hs x hx).1 (hs x hx).2 h0 h
    rw [abs_of_nonneg (by linarith), abs_of_nonneg (by linarith)]; exact a
  · have a := Slab.off_le hs h0' h hx
    have b := Slab.water_le (hs x hx).1 (hs x hx).2 h0' h
    rw [abs_of_nonpos (by linarith), abs_of_nonpos (by linarith)]; linarith

variable {g : Geo ℝ} {dTheta dThick : List ℝ} {layer : Nat} {sl : List Slab} {s : SoilProps ℝ} {prior : ℝ}

theorem tmLayers_water (hd : SlabsOf g dTheta dThick layer sl) (hs : SlabsOk sl) {h : ℝ} (hh : 0 ≤ h) :
    ∀ (n k : Nat) (m : ℝ), k + n ≤ layer →
      tmLayers g h dTheta dThick n (k + 1) m = .ok (m + stackWater ((sl.drop k).take n) h)
  | 0, k, m, _ => by simp [tmLayers, stackWater]
  | n + 1, k, m, hk => by
    have hlt : k < sl.length := by rw [hd.1]; omega
    have hx : sl[k]? = some sl[k] := List.getElem?_eq_getElem hlt
    obtain ⟨e1, e2, e3⟩ := hd.2 k _ hx
    have hp := (hs sl[k] (List.getElem_mem hlt)).2
    unfold tmLayers
    rw [e3, ok_bind, calcTheta_moistAt hp hh, ok_bind, idx_ok_iff.mpr e1, ok_bind, idx_ok_iff.mpr e2, ok_bind,
      tmLayers_water hd hs hh n (k + 1) _ (by omega), List.drop_eq_getElem_cons hlt, List.take_succ_cons, stackWater_cons]
    congr 1
    unfold Slab.water
    ring

/-- The mass of the trial head is the water of the stack. -/
theorem tmMass_water (hd : SlabsOf g dTheta dThick layer sl) (hs : SlabsOk sl) (h1 : 1 ≤ layer) (hg : g.soil layer = .ok s)
    {h : ℝ} (hh : 0 ≤ h) : tmMass g layer s dTheta dThick h = .ok (moistAt s h, stackWater sl h) := by
  obtain ⟨j, rfl⟩ : ∃ j, layer = j + 1 := ⟨layer - 1, by omega⟩
  have hlt : j < sl.length := by rw [hd.1]; omega
  obtain ⟨e1, e2, e3⟩ := hd.2 j _ (List.getElem?_eq_getElem hlt)
  have hp := (hs sl[j] (List.getElem_mem hlt)).2
  rw [hg, Except.ok.injEq] at e3
  unfold tmMass
  rw [e3, calcTheta_moistAt hp hh, ok_bind, idx_ok_iff.mpr e1, ok_bind, idx_ok_iff.mpr e2, ok_bind, Nat.add_sub_cancel,
    tmLayers_water hd hs hh j 0 _ (by omega), ok_bind, List.drop_zero]
  have e : sl = sl.take j ++ [sl[j]] := by
    rw [List.take_concat_get', List.take_of_length_le (by rw [hd.1])]
  have : stackWater sl h = stackWater (sl.take j) h + sl[j].water h := by
    conv_lhs => rw [e]
    unfold stackWater
    rw [List.map_append, List.sum_append]
    simp
  rw [pure_eq_ok, this]
  congr 2
  unfold Slab.water
  ring

/-- What the loop keeps. -/
structure Searching (sl : List Slab) (prior : ℝ) (st : TmState ℝ) : Prop where
  head : 0 ≤ st.psi
  factor : 0 < st.factor
  mass : st.newMass = stackWater sl st.psi
  delta : st.deltaMass = |st.newMass - prior|

theorem Searching.move {st : TmState ℝ} (hi : Searching sl prior st) (hsat : prior ≤ stackWater sl 0) (ht : 1e-12 < st.deltaMass) :
    0 ≤ (tmMove prior st).psi ∧ 0 < (tmMove prior st).factor := by
  have hf := (tmFactor_pos hi.factor).1
  have h0 := hi.head
  by_cases hr : prior < st.newMass
  · obtain ⟨e1, e2, _⟩ := tmMove_rise hr
    rw [e1, e2]
    exact ⟨by norm_num; linarith, hf⟩
  · obtain ⟨_, e2, _, e4⟩ := tmMove_fall hr
    have hpos : 0 < st.psi := by
      rcases h0.lt_or_eq with h | h
      · exact h
      · have hm := hi.mass
        rw [← h] at hm
        have hd := hi.delta
        rw [hm] at hr hd
        rw [le_antisymm (not_lt.mp hr) hsat, sub_self, abs_zero] at hd
        rw [hd] at ht
        norm_num at ht
    constructor
    · rw [e4]
      split
      · norm_num; exact h0
      · rename_i hc
        by_contra hn
        exact hc ⟨not_le.mp hn, hpos.ne'⟩
    · rw [e2]
      split
      · exact hf
      · norm_num; exact hf

/-- The loop ends with a head at least 0, the moisture there and the water there. -/
theorem tmLoop_solves (hd : SlabsOf g dTheta dThick layer sl) (hs : SlabsOk sl) (h1 : 1 ≤ layer) (hg : g.soil layer = .ok s)
    (hsat : prior ≤ stackWater sl 0) : ∀ (fuel : Nat) (st : TmState ℝ), Searching sl prior st →
      (st.theta = moistAt s st.psi ∨ 1e-12 < st.deltaMass) →
      tmLoop g layer s dTheta dThick prior fuel st = .error .fuel ∨
        ∃ st', tmLoop g layer s dTheta dThick prior fuel st = .ok (.done st') ∧ Searching sl prior st' ∧
          st'.theta = moistAt s st'.psi
  | 0, _, _, _ => .inl rfl
  | fuel + 1, st, hi, ht => by
    unfold tmLoop
    split
    · rename_i hlt
      obtain ⟨m1, m2⟩ := hi.move hsat hlt
      simp only [tmMass_water hd hs h1 hg m1]
      split
      · exact .inr ⟨_, rfl, ⟨m1, m2, rfl, rfl⟩, rfl⟩
      · generalize (if CMath.fabs (CMath.fabs (stackWater sl (tmMove prior st).psi - prior) - (tmMove prior st).deltaPrev) < 1e-15
          then (tmMove prior st).count + 1 else 0) = cnt
        split
        · exact .inr ⟨_, rfl, ⟨m1, m2, rfl, rfl⟩, rfl⟩
        · split
          · exact .inr ⟨_, rfl, ⟨m1, m2, rfl, rfl⟩, rfl⟩
          · split
            · exact .inr ⟨_, rfl, ⟨m1, m2, rfl, rfl⟩, rfl⟩
            · refine tmLoop_solves hd hs h1 hg hsat fuel _ ?_ (.inl ?_)
              · exact ⟨m1, m2, rfl, rfl⟩
              · rfl
    · rename_i hlt
      exact .inr ⟨st, rfl, hi, ht.resolve_right hlt⟩

/-- The result of lgar_theta_mass_balance when the stack can hold the water. -/
theorem thetaMassBalance_solves (hd : SlabsOf g dTheta dThick layer sl) (hs : SlabsOk sl) (h1 : 1 ≤ layer)
    (hg : g.soil layer = .ok s) (hsat : prior ≤ stackWater sl 0) {fuel : Nat} {psi newMass aet : ℝ} (hpsi : 0 ≤ psi)
    (hnew : newMass = stackWater sl psi) :
    thetaMassBalance fuel g layer s psi newMass prior aet dTheta dThick = .error .fuel ∨
    ∃ h aet', thetaMassBalance fuel g layer s psi newMass prior aet dTheta dThick = .ok (some (moistAt s h), aet') ∧ 0 ≤ h ∧
      ((|stackWater sl h - prior| ≤ 1e-12 ∧ aet' = aet) ∨
        (1e-12 < |stackWater sl h - prior| ∧ (aet' = aet - (|stackWater sl h - prior| - 1e-12) ∨ aet' = aet))) := by
  have hp : s.Physical := by
    have hlt : layer - 1 < sl.length := by rw [hd.1]; omega
    obtain ⟨_, _, e3⟩ := hd.2 (layer - 1) _ (List.getElem?_eq_getElem hlt)
    rw [Nat.sub_add_cancel h1, hg, Except.ok.injEq] at e3
    rw [e3]; exact (hs _ (List.getElem_mem hlt)).2
  unfold thetaMassBalance
  simp only [fabs_eq]
  split
  · rename_i hle
    rw [calcTheta_moistAt hp hpsi, ok_bind, pure_eq_ok]
    exact .inr ⟨psi, aet, rfl, hpsi, .inl ⟨by rw [← hnew]; exact hle, rfl⟩⟩
  · rename_i hle
    rcases tmLoop_solves hd hs h1 hg hsat fuel
      { psi := psi, psiPrev := psi, factor := CMath.fmax 1 (psi / 100.0), switched := false, newMass := newMass,
        deltaMass := |newMass - prior|, deltaPrev := |newMass - prior|, count := 0, iter := 0, aug := false, wanted := false,
        theta := 0 }
      ⟨hpsi, by show (0 : ℝ) < CMath.fmax 1 (psi / 100.0); rw [fmax_eq]; exact lt_max_of_lt_left one_pos, hnew, rfl⟩
      (.inr (not_le.mp hle)) with he | ⟨st, he, hi, hth⟩
    · rw [he]; exact .inl rfl
    rw [he, ok_bind]
    right
    have hover : ¬ (s.thetaE ≤ st.theta ∧ (st.psi == 0) = false) := by
      rintro ⟨a, b⟩
      have hne : st.psi ≠ 0 := by simpa using b
      have := moistAt_lt hp le_rfl (lt_of_le_of_ne hi.head hne.symm)
      rw [moistAt_zero hp, ← hth] at this
      linarith
    simp only [hover, if_false, pure_eq_ok]
    have hdl : st.deltaMass = |stackWater sl st.psi - prior| := by rw [hi.delta, hi.mass]
    refine ⟨st.psi, _, by rw [hth], hi.head, ?_⟩
    rw [← hdl]
    rcases le_or_gt st.deltaMass 1e-12 with hc | hc
    · exact .inl ⟨hc, if_neg (by rintro ⟨a, _⟩; linarith)⟩
    · refine .inr ⟨hc, ?_⟩
      split
      · left
        rw [abs_of_pos (by linarith)]
      · exact .inr rfl

end LGAR
