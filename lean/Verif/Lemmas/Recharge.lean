import Verif.Lemmas.Count
import Verif.Lemmas.Correction
import Verif.Lemmas.ColumnRun
/-
Water leaves at the bottom only with a wetting front.
-/
set_option linter.unusedSectionVars false
namespace LGAR

section Exact
variable {K : Type} [Field K] [LinearOrder K] [IsStrictOrderedRing K] [CMath K] [LawfulNum K]

theorem moveTop_nonpos {g : Geo K} {oldMass precip aet : K} {l : List (Front K)} {r : List (Front K) × K × K}
    (h : moveTop g oldMass precip l aet = .ok r) : r.2.2 ≤ 0 := by
  obtain ⟨l1, w, s, _, _, _, ⟨_, rfl⟩ | ⟨e, _⟩ | ⟨m, _, _, e1, e2⟩⟩ := moveTop_out h
  · exact le_refl _
  · rw [e]
  · rw [e2, e1]
    have := neg_abs_le (m - (oldMass + precip - aet))
    linarith

theorem moveMain_nonpos {fuel : Nat} {g : Geo K} {dt oldMass precip : K} {nFd : Nat} {prev l : List (Front K)} {aet : K}
    {r : List (Front K) × K × K} (h : moveMain fuel g dt oldMass precip nFd prev l aet = .ok r) : r.2.2 ≤ 0 := by
  unfold moveMain at h
  split at h
  · simp only [Except.ok.injEq] at h; subst h; exact le_refl _
  · simp only [bind_ok_iff, Prod.exists] at h
    obtain ⟨l0, aet0, _, h1⟩ := h
    exact moveTop_nonpos h1

/-- A movement that lets water out at the bottom ends with fewer fronts. -/
theorem moveFronts_exit {fuel : Nat} {g : Geo K} {dt oldMass precip : K} {nFd N : Nat} {prev l : List (Front K)} {aet : K}
    {r : List (Front K) × K × K} (hs : Sound N l) (h : moveFronts fuel g dt precip nFd oldMass aet prev l = .ok r)
    (hpos : 0 < r.2.2) : r.1.length < l.length := by
  unfold moveFronts at h
  simp only [bind_ok_iff, Prod.exists] at h
  obtain ⟨l1, aet1, fl, h1, h⟩ := h
  have s1 := hs.moveMain h1
  have n1 := moveMain_nonpos h1
  have e1 : l1.length = l.length := by
    unfold moveMain at h1
    split at h1
    · simp only [Except.ok.injEq, Prod.mk.injEq] at h1; rw [← h1.1]
    · simp only [bind_ok_iff, Prod.exists] at h1
      obtain ⟨l0, aet0, h0, h1⟩ := h1
      have e0 := congrArg List.length (moveOnes_tags hs.num rfl le_rfl h0)
      obtain ⟨lx, hx, ht⟩ := moveTop_tags h1
      have e2 := congrArg List.length ht
      simp only [List.length_map] at e0 e2
      rw [e2, crossLayer_len hx, e0]
  obtain ⟨l2, mc1, l3, l4, l5, mc4, l6, column, f2, l7, l8, mc7, l9, p1, p2, p3, p4, p5, _, p6, p7, p8, p9, _, p10⟩ := movePost_inv h
  have s2 := s1.checkFix p1
  have s3 := s2.merge p2
  have s4 := s3.cross p3
  have s5 := s4.checkFix p4
  have s6 := s5.merge p5
  have s7 := s6.domain p6
  have k1 := checkFix_len s1.num p1
  have k2 := mergeFronts_len s2.num p2
  have k3 := crossLayer_len p3
  have k4 := checkFix_len s4.num p4
  have k5 := mergeFronts_len s5.num p5
  have k6 : l7.length < l6.length := by
    rcases domainLoop_inv s6.num p6 with e | ⟨a, c, n, psi, Kc, e, _, _, e'⟩
    · simp only [Prod.mk.injEq] at e
      rw [p10, e.1] at hpos
      simp only at n1
      linarith
    · simp only [Prod.mk.injEq] at e'
      rw [e'.2, e]; simp [decFronts]
  have k7 := checkFix_len s7.num p7
  have k8 := congrArg List.length (refresh_skel p8)
  have k9 := congrArg List.length (fixSingle_skel p9)
  simp only [List.length_map] at k8 k9
  simp only at k1 k2 k3 k4 k5 k6 k7
  omega

theorem subStep_exit {c : StepCfg K} {N : Nat} {s s' : SubSt K} (hs : Sound N s.head) (h : subStep c s = .ok s')
    (hpos : s.rechT < s'.rechT) : s'.head.length ≤ s.head.length ∧ (¬ Onset c s → s'.head.length < s.head.length) := by
  obtain ⟨aet, vs, h0, hsoil, f, l, ve, h1, _, _, hh0, hhs, hf, hl, _, _, _, _, rfl⟩ := subStep_inv h
  have e := congrArg List.length (dzdtCalc_frame hl)
  simp only [List.length_map] at e
  simp only at hpos ⊢
  rw [e]
  unfold LGAR.subFlow at hf
  split at hf
  · rename_i hw
    obtain ⟨l, flux, dry, d, h0, pd, hm, _, _, hc, _, _, hr, _⟩ := flowCreate_inv hf
    have hflux : 0 < flux := by
      rcases hr with ⟨_, _, e⟩ | ⟨_, _, e⟩
      · rw [e] at hpos; exact absurd hpos (lt_irrefl _)
      · rw [e] at hpos; linarith
    have k1 := moveFronts_exit hs hm hflux
    have k2 := create_len (hs.moveFronts hm) hc
    simp only at k1 k2
    exact ⟨by omega, fun hno => absurd ((wants_iff hh0 hhs).mp hw) hno⟩
  · obtain ⟨_, hm, _, _, _, hr⟩ := flowMove_inv hf
    have k1 := moveFronts_exit hs hm (by simp only; rw [hr] at hpos; linarith)
    simp only at k1
    exact ⟨by omega, fun _ => k1⟩

theorem subStep_no_onset {c : StepCfg K} {x y : SubSt K} (hxy : subStep c x = .ok y) : ¬ Onset c y := by
  rintro ⟨a, b, hdt, _⟩
  obtain ⟨aet, vs, h0, hsoil, f, l, ve, h1, _, _, hh0, hhs, hf, hl, _, _, _, _, rfl⟩ := subStep_inv hxy
  simp only at a b
  have h1 : (0 : K) < 0.1 := by norm_num
  have : 0 < CMath.fmax x.precipMm 0 * 0.1 * c.dt := by positivity
  exact absurd a this.ne'

theorem subLoop_exit {c : StepCfg K} {N n : Nat} {s s' : SubSt K} (hs : Sound N s.head) (h : subLoop c n s = .ok s')
    (hpos : s.rechT < s'.rechT) : s'.head.length ≤ s.head.length ∧ (¬ Onset c s → s'.head.length < s.head.length) := by
  have key : (s' = s) ∨ (Sound N s'.head ∧ ¬ Onset c s' ∧ (s'.head.length ≤ s.head.length + 1 ∧
      (¬ Onset c s → s'.head.length ≤ s.head.length)) ∧
      (s.rechT < s'.rechT → s'.head.length ≤ s.head.length ∧ (¬ Onset c s → s'.head.length < s.head.length))) := by
    refine subLoop_ind (P := fun x => x = s ∨ (Sound N x.head ∧ ¬ Onset c x ∧ (x.head.length ≤ s.head.length + 1 ∧
      (¬ Onset c s → x.head.length ≤ s.head.length)) ∧
      (s.rechT < x.rechT → x.head.length ≤ s.head.length ∧ (¬ Onset c s → x.head.length < s.head.length)))) ?_ (.inl rfl) h
    intro x y hx hxy
    right
    rcases hx with rfl | ⟨h1, h2, ⟨h3, h4⟩, h5⟩
    · obtain ⟨k1, k2⟩ := subStep_len hs hxy
      exact ⟨hs.subStep hxy, subStep_no_onset hxy, ⟨k1, fun hno => not_lt.mp fun h => hno (k2 h)⟩, fun hp => subStep_exit hs hxy hp⟩
    · obtain ⟨_, k2⟩ := subStep_len h1 hxy
      have k3 : y.head.length ≤ x.head.length := not_lt.mp fun h => h2 (k2 h)
      refine ⟨h1.subStep hxy, subStep_no_onset hxy, ⟨by omega, fun hno => (by have := h4 hno; omega)⟩, fun hp => ?_⟩
      by_cases hx : s.rechT < x.rechT
      · obtain ⟨a, b⟩ := h5 hx
        exact ⟨by omega, fun hno => (by have := b hno; omega)⟩
      · have k4 := (subStep_exit h1 hxy (lt_of_le_of_lt (not_lt.mp hx) hp)).2 h2
        exact ⟨by omega, fun hno => (by have := h4 hno; omega)⟩
  rcases key with rfl | ⟨_, _, _, k⟩
  · exact absurd hpos (lt_irrefl _)
  · exact k hpos

/-- A stack of layers from `a` to `N` has a front in each. -/
theorem layersFrom_len {N : Nat} : ∀ {a : Nat} {l : List (Front K)}, LayersFrom N a l → N + 1 ≤ a + l.length
  | _, [], h => h.elim
  | _, [f], h => by have := h.1; have := h.2; simp only [List.length_cons, List.length_nil]; omega
  | _, f :: g :: t, h => by
    obtain ⟨_, h2, h3⟩ := h
    have := layersFrom_len h3
    simp only [List.length_cons] at this ⊢
    omega

theorem Good.layers_le {g : Geo K} {l : List (Front K)} (h : Good g l) : g.numLayers ≤ l.length := by
  have := layersFrom_len h.col.layers
  omega

end Exact
end LGAR
