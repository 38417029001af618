import Verif.Lemmas.Balance
/-
Time, number of sub-timesteps and booked precipitation of an Update.
-/
set_option linter.unusedSectionVars false
namespace LGAR

section Exact
variable {K : Type} [Field K] [LinearOrder K] [IsStrictOrderedRing K] [CMath K] [LawfulNum K]

/-- `n` subcycles at most; fewer only if a stand-alone run has reached its end. -/
theorem subLoop_time {c : StepCfg K} : ∀ {n : Nat} {s s' : SubSt K}, subLoop c n s = .ok s' →
    ∃ k : Nat, k ≤ n ∧ (0 < n → 0 < k) ∧ s'.timesteps = s.timesteps + k ∧ s'.timeS = s.timeS + k * (c.dt * 3600) ∧
      (k = n ∨ c.standalone = true ∧ c.endtimeS ≤ s'.timeS) ∧
      (k ≤ 1 ∨ c.standalone = false ∨ s'.timeS - c.dt * 3600 < c.endtimeS) ∧
      s'.precipT = s.precipT + k * (max s.precipMm 0 * 0.1 * c.dt) ∧ (0 ≤ c.dt →
      s'.petT = s.petT + k * (max s.petMm 0 * 0.1 * c.dt))
  | 0, s, s', h => by
    simp only [subLoop, Except.ok.injEq] at h; subst h
    exact ⟨0, by simp, by simp, by simp, by simp, by simp, by simp, by simp, by simp⟩
  | n + 1, s, s', h => by
    unfold subLoop at h
    simp only [bind_ok_iff] at h
    obtain ⟨s1, h1, h⟩ := h
    obtain ⟨aet, vs, h0, hs, f, l, ve, hh, _, _, _, _, _, _, _, _, _, _, he⟩ := subStep_inv h1
    have e1 : s1.timeS = s.timeS + c.dt * 3600 := by rw [he]; simp only; norm_num
    have e2 : s1.timesteps = s.timesteps + 1 := by rw [he]
    have e3 : s1.precipT = s.precipT + max s.precipMm 0 * 0.1 * c.dt := by rw [he]; simp only [fmax_eq]
    have e4 : s1.precipMm = max s.precipMm 0 := by rw [he]; simp only [fmax_eq]
    have e5 : s1.petMm = max s.petMm 0 := by rw [he]; simp only [fmax_eq]
    have e6 : 0 ≤ c.dt → s1.petT = s.petT + max s.petMm 0 * 0.1 * c.dt := by
      intro hd
      rw [he]; simp only [fmax_eq]
      rw [max_eq_left (mul_nonneg (mul_nonneg (le_max_right _ _) (by norm_num : (0 : K) ≤ 0.1)) hd)]
    split at h
    · rename_i hend
      simp only [pure_eq_ok, Except.ok.injEq] at h; subst h
      exact ⟨1, by omega, by simp, by simpa using e2, by simp [e1], .inr ⟨hend.2, hend.1⟩, .inl (le_refl _), by simp [e3],
        fun hd => by simp [e6 hd]⟩
    · rename_i hend
      obtain ⟨k, k1, _, k2, k3, k4, k5, k6, k7⟩ := subLoop_time h
      refine ⟨k + 1, by omega, by simp, by rw [k2, e2]; push_cast; ring, by rw [k3, e1]; push_cast; ring, ?_, ?_, ?_, ?_⟩
      · rcases k4 with rfl | k4
        · exact .inl rfl
        · exact .inr k4
      · rcases k5 with k5 | k5
        · rcases k with _ | k
          · left; simp
          · obtain rfl : k = 0 := by omega
            by_cases hsa : c.standalone = true
            · right; right
              rw [k3]
              push_cast
              have : s1.timeS < c.endtimeS := by
                by_contra hc; exact hend ⟨not_lt.mp hc, hsa⟩
              linarith
            · right; left; simpa using hsa
        · exact .inr k5
      · rw [k6, e3, e4, max_eq_left (le_max_right _ _)]; push_cast; ring
      · intro hd
        rw [k7 hd, e6 hd, e5, max_eq_left (le_max_right _ _)]; push_cast; ring

/-- Time step, number of subcycles, time and booked precipitation of an Update. -/
theorem update_time {fuel : Nat} {sa : Bool} {s s' : State K} (hv : s.p.invalidSoil = false)
    (h : update fuel sa s = .ok s') :
    ∃ k n : Nat, k ≤ n ∧ (0 < n → 0 < k) ∧ n = s'.p.forcingInterval.toNat ∧
      s'.p.timestepH = chooseTimestep s.p s.precipMm s.mb.volonT ∧ s'.p.timestepH ≠ 0 ∧
      s'.p.forcingInterval = CMath.toInt (s.p.forcingResH / s'.p.timestepH + 1.0e-8) ∧
      s'.p.timesteps = s.p.timesteps + k ∧ s'.p.timeS = s.p.timeS + k * (s'.p.timestepH * 3600) ∧
      (k = n ∨ sa = true ∧ s.p.endtimeS ≤ s'.p.timeS) ∧
      (k ≤ 1 ∨ sa = false ∨ s'.p.timeS - s'.p.timestepH * 3600 < s.p.endtimeS) ∧
      s'.mb.volprecip = s.mb.volprecip + k * (s.precipMm * 0.1 * s'.p.timestepH) ∧ 0 ≤ s.precipMm ∧ 0 ≤ s.petMm ∧
      (0 ≤ s'.p.timestepH → s'.mb.volPET = s.mb.volPET + k * (s.petMm * 0.1 * s'.p.timestepH)) := by
  rcases update_inv h with ⟨hi, _⟩ | ⟨_, s1, d, v, u, h1, _, hu, h2⟩
  · rw [hv] at hi; simp at hi
  obtain ⟨giuh, queue, _, _, _, _, _, _, _, _, _, _, hpp, hmb, _⟩ := updatePost_inv h2
  obtain ⟨hpr, hpe, fs, soils, l, fc, pm, q, hq, rfl, _⟩ := updatePre_inv h1
  obtain ⟨k, k1, k1', k2, k3, k4, k5, k6, k7⟩ := subLoop_time hu
  simp only [subInit, stepCfg, zero_add, State.geo] at k1 k1' k2 k3 k4 k5 k6 k7
  rw [cdiv_ok] at hq
  rw [max_eq_left hpr] at k6
  rw [max_eq_left hpe] at k7
  rw [hpp, hmb]
  simp only
  exact ⟨k, _, k1, k1', rfl, trivial, hq.1, by rw [hq.2], k2, k3, k4, k5, by rw [k6], hpr, hpe, fun hd => by rw [k7 hd]⟩

end Exact
end LGAR
