import Verif.Props.Pond
/-
Lemmas for C79: how the split of the surface water depends on the amount of water.
-/
set_option linter.unusedSectionVars false
namespace LGAR

variable {K : Type} [Field K] [LinearOrder K] [IsStrictOrderedRing K] [CMath K] [LawfulNum K]

/-- Away from the tie the split has a closed form. -/
theorem partitionPond_closed {dt ponded volin pondMax fp r v p : K} (hmax : 0 ≤ pondMax)
    (hne : ¬ 0 < pondMax ∨ ponded ≠ pondMax + fp * dt)
    (h : partitionPond dt ponded volin pondMax fp = .ok (r, v, p)) :
    v = min ponded (fp * dt) ∧ p = min (ponded - v) pondMax ∧ r = ponded - v - p := by
  obtain ⟨_, ⟨_, h1, rfl, rfl, rfl⟩ | ⟨h0, h1, rfl, rfl, rfl⟩ | ⟨h0, h1, _⟩ | ⟨h0, rfl, rfl, rfl⟩⟩ := partitionPond_inv h
  · have a := (le_max_left (ponded - fp * dt) 0).trans_lt h1
    have b := (le_max_right (ponded - fp * dt) 0).trans_lt h1
    refine ⟨rfl, (min_eq_left ?_).symm, by ring⟩
    rcases min_choice ponded (fp * dt) with e | e <;> rw [e] <;> linarith
  · have e : max (ponded - fp * dt) 0 = ponded - fp * dt := by
      rcases max_choice (ponded - fp * dt) 0 with e | e
      · exact e
      · rw [e] at h1; exact absurd h1 (not_lt.mpr h0.le)
    rw [e] at h1 ⊢
    refine ⟨?_, ?_, by ring⟩
    · rw [min_eq_right]; linarith
    · rw [min_eq_right]; linarith
  · exfalso
    refine (hne.resolve_left (not_not.mpr h0)) ?_
    rcases max_choice (ponded - fp * dt) 0 with e | e
    · rw [e] at h1; linarith
    · rw [e] at h1; exact absurd h1 h0.ne
  · obtain rfl : pondMax = 0 := le_antisymm h0 hmax
    refine ⟨rfl, (min_eq_right ?_).symm, by ring⟩
    have := min_le_left ponded (fp * dt)
    linarith

/-- The three parts grow with the water, and so none of them grows by more than the water does. -/
theorem split_mono {a a' q M v v' p p' : K} (ha : a ≤ a') (hv : v = min a q) (hv' : v' = min a' q)
    (hp : p = min (a - v) M) (hp' : p' = min (a' - v') M) : v ≤ v' ∧ p ≤ p' ∧ a - v - p ≤ a' - v' - p' := by
  have h1 : v ≤ v' := by rw [hv, hv']; exact min_le_min ha le_rfl
  have h2 : a - v ≤ a' - v' := by
    rw [hv, hv']
    rcases min_choice a q with e | e <;> rcases min_choice a' q with e' | e' <;> rw [e, e']
    · simp
    · have := min_le_left a' q; rw [e'] at this; linarith
    · have := min_le_left a q; rw [e] at this
      have := min_le_right a' q; rw [e'] at this; linarith
    · linarith
  refine ⟨h1, by rw [hp, hp']; exact min_le_min h2 le_rfl, ?_⟩
  rw [hp, hp']
  rcases min_choice (a - v) M with e | e <;> rcases min_choice (a' - v') M with e' | e' <;> rw [e, e']
  · simp
  · have := min_le_left (a' - v') M; rw [e'] at this; linarith
  · have := min_le_left (a - v) M; rw [e] at this
    have := min_le_right (a' - v') M; rw [e'] at this; linarith
  · linarith

/-- The infiltration capacity does not depend on the rain of the step itself, only on the water that stood before it. -/
theorem fpCapacity_rain {fuel : Nat} {closed : Bool} {nint : Int} {g : Geo K} {dt aet on rate rate' : K} {nFd : Nat}
    {l : List (Front K)} : fpCapacity fuel closed nint g dt aet (rate * dt + on) rate nFd l =
      fpCapacity fuel closed nint g dt aet (rate' * dt + on) rate' nFd l := by
  unfold fpCapacity fpPotential
  have e : ∀ r : K, r * dt + on - r * dt = on := fun r => by ring
  simp only [e]

end LGAR
