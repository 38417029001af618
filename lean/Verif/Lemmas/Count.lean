import Verif.Lemmas.MassPasses
import Verif.Lemmas.Update
/-
The number of wetting fronts through a movement, a sub-timestep and an Update.
-/
set_option linter.unusedSectionVars false
namespace LGAR

section Exact
variable {K : Type} [Field K] [LinearOrder K] [IsStrictOrderedRing K] [CMath K] [LawfulNum K]

theorem mergeFronts_len {g : Geo K} {k : Int} {l l' : List (Front K)} (hn : NumFrom k l) (h : mergeFronts g l = .ok l') :
    l'.length ≤ l.length := by
  refine (mergeLoop_ind (P := fun x => x.length ≤ l.length) ?_ hn (le_refl _) h).2
  intro cur x r hn hx hs
  rcases mergeStep_inv hn hs with rfl | ⟨a, c, n, nn, b, d, psi, Kc, rfl, _, _, _, _, _, _, _, rfl⟩
  · exact hx
  · refine le_trans ?_ hx
    simp [decFronts]

theorem crossLayer_len {g : Geo K} {l l' : List (Front K)} (h : crossLayer g l = .ok l') : l'.length = l.length := by
  refine crossLoop_ind (P := fun x => x.length = l.length) ?_ rfl h
  intro cur x x' hx hs
  rcases crossStep_inv hs with rfl | ⟨a, c, n, nn, b, sl, ff, s2, bot, psi, Kc, tn, Se, z, rfl, _, _, _, _, _, _, _, _, _, _, _, _, _, rfl⟩
  · exact hx
  · rw [← hx]; simp

theorem crossDomain_len {g : Geo K} {k : Int} {dom : K} {l : List (Front K)} {r : K × List (Front K)} (hn : NumFrom k l)
    (h : crossDomain g dom l = .ok r) : r.2.length ≤ l.length := by
  rcases domainLoop_inv hn h with rfl | ⟨a, c, n, psi, Kc, rfl, _, _, rfl⟩
  · exact le_refl _
  · simp [decFronts]

theorem checkFix_len {g : Geo K} {k : Int} {mc : K} {l : List (Front K)} {r : List (Front K) × K} (hn : NumFrom k l)
    (h : checkFix g mc l = .ok r) : r.1.length ≤ l.length := by
  rcases checkFix_inv h with rfl | h
  · exact le_refl _
  · unfold fixDry at h
    simp only [bind_ok_iff] at h
    obtain ⟨_, _, h⟩ := h
    exact fixDryLoop_len hn h

theorem moveFronts_len {fuel : Nat} {g : Geo K} {dt oldMass precip : K} {nFd N : Nat} {prev l : List (Front K)} {aet : K}
    {r : List (Front K) × K × K} (hs : Sound N l) (h : moveFronts fuel g dt precip nFd oldMass aet prev l = .ok r) :
    r.1.length ≤ l.length := by
  unfold moveFronts at h
  simp only [bind_ok_iff, Prod.exists] at h
  obtain ⟨l1, aet1, fl, h1, h⟩ := h
  have s1 := hs.moveMain h1
  have e1 : l1.length = l.length := by
    unfold moveMain at h1
    split at h1
    · simp only [Except.ok.injEq, Prod.mk.injEq] at h1; rw [← h1.1]
    · simp only [bind_ok_iff, Prod.exists] at h1
      obtain ⟨l0, aet0, h0, h1⟩ := h1
      have e0 := congrArg List.length (moveOnes_tags hs.num rfl le_rfl h0)
      obtain ⟨lx, hx, ht⟩ := moveTop_tags h1
      have e2 := congrArg List.length ht
      simp only [List.length_map] at e0 e2
      rw [e2, crossLayer_len hx, e0]
  obtain ⟨l2, mc1, l3, l4, l5, mc4, l6, column, f2, l7, l8, mc7, l9, p1, p2, p3, p4, p5, _, p6, p7, p8, p9, _, _⟩ := movePost_inv h
  have s2 := s1.checkFix p1
  have s3 := s2.merge p2
  have s4 := s3.cross p3
  have s5 := s4.checkFix p4
  have s6 := s5.merge p5
  have s7 := s6.domain p6
  have k1 := checkFix_len s1.num p1
  have k2 := mergeFronts_len s2.num p2
  have k3 := crossLayer_len p3
  have k4 := checkFix_len s4.num p4
  have k5 := mergeFronts_len s5.num p5
  have k6 := crossDomain_len s6.num p6
  have k7 := checkFix_len s7.num p7
  have k8 := congrArg List.length (refresh_skel p8)
  have k9 := congrArg List.length (fixSingle_skel p9)
  simp only [List.length_map] at k8 k9
  simp only at k1 k2 k3 k4 k5 k6 k7
  omega

theorem create_len {g : Geo K} {N : Nat} {ponded dry theta1 : K} {l : List (Front K)} {r : K × K × List (Front K)}
    (hs : Sound N l) (h : createSurficial g ponded dry theta1 l = .ok r) : r.2.2.length ≤ l.length + 1 := by
  obtain ⟨thn, psi, Kc, l1, rfl, h1⟩ := createSurficial_list h
  have hp := hs.push (f := ⟨dry, thn, psi, Kc, 1, 1, false, 0⟩) rfl
  rcases h1 with h1 | ⟨l2, h2, h3⟩
  · rw [h1]; simp [incFronts]
  · rw [crossLayer_len h3]
    refine le_trans (mergeFronts_len hp.num h2) ?_
    simp [incFronts]

/-- A sub-timestep that starts a shower on soil that can take water. -/
structure Onset (c : StepCfg K) (s : SubSt K) : Prop where
  dry : s.precipPrev = 0
  rain : 0 < s.precipMm
  dt : 0 < c.dt
  pond : s.volon ≤ 1.0e-12
  top : ∃ h0 so, s.head[0]? = some h0 ∧ c.geo.soil h0.layer = .ok so ∧ h0.theta + 1.0e-12 < so.thetaE

theorem volonClean_pos {v : K} : 0 < volonClean v ↔ 1.0e-12 < v := by
  unfold volonClean
  have h0 : (0 : K) < 1.0e-12 := by norm_num
  rw [fmax_eq]
  constructor
  · intro h
    split at h
    · rename_i h1
      rcases lt_max_iff.mp h1 with h2 | h2
      · exact h2
      · exact absurd h2 (not_lt.mpr h0.le)
    · exact absurd h (lt_irrefl _)
  · intro h
    rw [if_pos (lt_max_of_lt_left h)]
    exact lt_max_of_lt_left (h0.trans h)

theorem wants_iff {c : StepCfg K} {s : SubSt K} {h0 : Front K} {so : SoilProps K} (hh : s.head[0]? = some h0)
    (hs : c.geo.soil h0.layer = .ok so) :
    wantsFront s.precipPrev (CMath.fmax s.precipMm 0 * 0.1 * c.dt) h0.theta so.thetaE (volonClean s.volon) = true ↔ Onset c s := by
  have h1 : (0 : K) < 0.1 := by norm_num
  unfold wantsFront
  simp only [Bool.and_eq_true, decide_eq_true_eq, beq_iff_eq, Bool.not_eq_true', Bool.or_eq_false_iff, decide_eq_false_iff_not,
    not_le, volonClean_pos, not_lt]
  constructor
  · rintro ⟨⟨a, b⟩, d, e⟩
    have hdt : 0 < c.dt := by
      have h2 : 0 ≤ CMath.fmax s.precipMm (0 : K) := by rw [fmax_eq]; exact le_max_right _ _
      by_contra hn
      exact absurd b (not_lt.mpr (mul_nonpos_of_nonneg_of_nonpos (by positivity) (not_lt.mp hn)))
    have hm : 0 < CMath.fmax s.precipMm 0 := by
      have := (mul_pos_iff_of_pos_right hdt).mp b
      exact (mul_pos_iff_of_pos_right h1).mp this
    rw [fmax_eq] at hm
    have hm : 0 < s.precipMm := by
      rcases lt_max_iff.mp hm with h | h
      · exact h
      · exact absurd h (lt_irrefl _)
    exact ⟨a, hm, hdt, e, h0, so, hh, hs, d⟩
  · rintro ⟨a, b, hdt, e, h0', so', hh', hs', d⟩
    rw [hh] at hh'
    obtain rfl : h0 = h0' := by simpa using hh'
    rw [hs] at hs'
    obtain rfl : so = so' := by simpa using hs'
    refine ⟨⟨a, ?_⟩, d, e⟩
    rw [fmax_eq, max_eq_left b.le]
    positivity

theorem subStep_len {c : StepCfg K} {N : Nat} {s s' : SubSt K} (hs : Sound N s.head) (h : subStep c s = .ok s') :
    s'.head.length ≤ s.head.length + 1 ∧ (s.head.length < s'.head.length → Onset c s) := by
  obtain ⟨aet, vs, h0, hsoil, f, l, ve, h1, _, _, hh0, hhs, hf, hl, _, _, _, _, rfl⟩ := subStep_inv h
  have e := congrArg List.length (dzdtCalc_frame hl)
  simp only [List.length_map] at e
  simp only
  rw [e]
  unfold LGAR.subFlow at hf
  split at hf
  · rename_i hw
    obtain ⟨l, flux, dry, d, h0, pd, hm, _, _, hc, _⟩ := flowCreate_inv hf
    have k1 := moveFronts_len hs hm
    have k2 := create_len (hs.moveFronts hm) hc
    simp only at k1 k2
    exact ⟨by omega, fun _ => (wants_iff hh0 hhs).mp hw⟩
  · obtain ⟨_, hm, _⟩ := flowMove_inv hf
    have k1 := moveFronts_len hs hm
    simp only at k1
    exact ⟨by omega, fun h => by omega⟩

theorem subLoop_len {c : StepCfg K} {N : Nat} : ∀ {n : Nat} {s s' : SubSt K}, Sound N s.head → subLoop c n s = .ok s' →
    s'.head.length ≤ s.head.length + 1 ∧ (s.head.length < s'.head.length → Onset c s) := by
  intro n s s' hs h
  have key : (s' = s) ∨ (Sound N s'.head ∧ ¬ Onset c s' ∧ s'.head.length ≤ s.head.length + 1 ∧
      (s.head.length < s'.head.length → Onset c s)) := by
    refine subLoop_ind (P := fun x => x = s ∨ (Sound N x.head ∧ ¬ Onset c x ∧ x.head.length ≤ s.head.length + 1 ∧
      (s.head.length < x.head.length → Onset c s))) ?_ (.inl rfl) h
    intro x y hx hxy
    have hno : ¬ Onset c y := by
      rintro ⟨a, b, hdt, _⟩
      obtain ⟨aet, vs, h0, hsoil, f, l, ve, h1, _, _, hh0, hhs, hf, hl, _, _, _, _, rfl⟩ := subStep_inv hxy
      simp only at a b
      have h1 : (0 : K) < 0.1 := by norm_num
      have : 0 < CMath.fmax x.precipMm 0 * 0.1 * c.dt := by positivity
      exact absurd a this.ne'
    right
    rcases hx with rfl | ⟨h1, h2, h3, h4⟩
    · obtain ⟨k1, k2⟩ := subStep_len hs hxy
      exact ⟨hs.subStep hxy, hno, k1, k2⟩
    · obtain ⟨k1, k2⟩ := subStep_len h1 hxy
      have k3 : ¬ x.head.length < y.head.length := fun h => h2 (k2 h)
      exact ⟨h1.subStep hxy, hno, by omega, fun h => h4 (by omega)⟩
  rcases key with rfl | ⟨_, _, k1, k2⟩
  · exact ⟨by omega, fun h => absurd h (lt_irrefl _)⟩
  · exact ⟨k1, k2⟩

end Exact
end LGAR
