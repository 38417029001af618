import Verif.Lemmas.Infil
import Verif.Num.Real
import Verif.Props.Passes
/-
Properties C03, C04, C05, C10, C30 (infiltration).
-/
set_option linter.unusedSectionVars false
namespace LGAR
attribute [-instance] Rat.instOfScientific
open Sample

variable {K : Type} [Field K] [LinearOrder K] [IsStrictOrderedRing K] [CMath K] [LawfulNum K]

/-- C03: an infiltration step splits the ponded water into infiltrated water, runoff and water left, without loss;
runoff is not negative.  (The caller passes 0 as the volume infiltrated so far, bmi_lgar.cxx 369.) -/
theorem C03_partition (fuel : Nat) (closed : Bool) (nint : Int) (g : Geo K) (dt aet ponded precip pondMax : K)
    (nFd : Nat) (l : List (Front K)) (runoff volin left : K)
    (h : insertWater fuel closed nint g dt aet ponded 0 precip nFd pondMax l = .ok (runoff, volin, left)) :
    ponded = volin + runoff + left ∧ 0 ≤ runoff := by
  obtain ⟨fp, _, h⟩ := insertWater_inv h
  exact partitionPond_bal h

/-- Column with a saturated-enough top layer for the examples: one layer of 10 cm with a front at 5 cm. -/
def geo1 : Geo ℚ :=
  { numLayers := 1, cum := [0, 10], soilType := [0, 1], frozen := [1, 1], soils := [soilA, soilA] }

def col1 : List (Front ℚ) := [fr 5 (4/10) 1 1 false, fr 10 (292/1000) 1 2 true]

/-- 3 cm ponded, at most 1 cm may stay: some infiltrates, the rest runs off, 1 cm is left. -/
example : okAnd (insertWater 100 true 120 geo1 (1/10) 0 3 0 10 1 1 col1)
    (fun r => decide (0 < r.1) && decide (0 < r.2.1) && r.2.2 == 1) = true := by decide +kernel

/-- C04: the water left on the surface is within [0, maximum], provided the water that would be left is not exactly
the maximum.  Missing: that case, in which the code assigns nothing; the bound then fails, see below. -/
theorem C04_pond_bounded_partial (fuel : Nat) (closed : Bool) (nint : Int) (g : Geo K)
    (dt aet ponded precip pondMax : K) (nFd : Nat) (l : List (Front K)) (runoff volin left fp : K)
    (hmax : 0 ≤ pondMax)
    (hfp : fpCapacity fuel closed nint g dt aet ponded precip nFd l = .ok fp)
    (hne : 0 < pondMax → ponded - fp * dt ≠ pondMax)
    (h : insertWater fuel closed nint g dt aet ponded 0 precip nFd pondMax l = .ok (runoff, volin, left)) :
    0 ≤ left ∧ left ≤ pondMax := by
  obtain ⟨fp', hfp', h⟩ := insertWater_inv h
  have hfpe : fp' = fp := by rw [hfp] at hfp'; simpa using hfp'.symm
  rw [hfpe] at h
  obtain ⟨_, ⟨_, h1, rfl, rfl, rfl⟩ | ⟨h0, _, rfl, rfl, rfl⟩ | ⟨h0, h1, _⟩ | ⟨_, rfl, rfl, rfl⟩⟩ :=
    partitionPond_inv h
  · have h2 := le_max_left (ponded - fp * dt) 0
    rcases min_choice ponded (fp * dt) with e | e
    · rw [e]; exact ⟨by simp, by linarith⟩
    · rw [e]
      have := min_le_left ponded (fp * dt)
      rw [e] at this
      exact ⟨by linarith, by linarith⟩
  · exact ⟨h0.le, le_refl _⟩
  · exfalso
    rcases max_choice (ponded - fp * dt) 0 with e | e
    · exact hne h0 (e ▸ h1)
    · rw [e] at h1; exact absurd h1 h0.ne
  · exact ⟨le_refl _, hmax⟩

example : okAnd (fpCapacity 100 true 120 geo1 (1/10) 0 3 10 1 col1) (fun fp => decide (3 - fp * (1/10) ≠ 1)) = true := by
  decide +kernel

/-- C04 fails in the tie: 3 cm ponded, 1 cm infiltrates in the step, maximum 2 cm; all 3 cm stay and nothing
infiltrates. -/
theorem C04_tie_fails : partitionPond (1 : ℚ) 3 0 2 1 = .ok (0, 0, 3) := by decide +kernel

/-- The tie on a full column: for the column above and every amount ponded above the maximum by just the capacity. -/
theorem C04_tie_fails_insert : ∃ pondMax runoff volin left : ℚ, 0 < pondMax ∧
    insertWater 100 true 120 geo1 (1/10) 0 3 0 10 1 pondMax col1 = .ok (runoff, volin, left) ∧ pondMax < left := by
  have h : ∃ fp, fpCapacity 100 true 120 geo1 (1/10) 0 3 10 1 col1 = .ok fp ∧ 0 < fp ∧ fp * (1/10) < 3 :=
    okAnd_exists (p := fun fp => 0 < fp ∧ fp * (1/10) < 3) (by decide +kernel)
  obtain ⟨fp, hfp, hpos, hlt⟩ := h
  refine ⟨3 - fp * (1/10), 0, 0, 3, by linarith, ?_, by linarith⟩
  unfold insertWater
  rw [hfp, ok_bind]
  unfold partitionPond
  have e1 : max (3 - fp * (1/10) - 0 * 0) 0 = 3 - fp * (1/10) := by
    rw [max_eq_left (by linarith)]; ring
  simp only [fmax_eq]
  rw [e1]
  have : cdiv (0 : ℚ) (1/10) = .ok 0 := by decide +kernel
  rw [this, ok_bind, if_pos (by linarith), if_neg (lt_irrefl _), if_neg (lt_irrefl _)]
  rfl

/-- Saturated moisture of layer `k` (0 if the layer has no soil). -/
def satTheta (g : Geo K) (k : Nat) : K := match g.soil k with | .ok s => s.thetaE | .error _ => 0

/-- Water the column holds when every layer is saturated. -/
def saturatedStorage (g : Geo K) : K :=
  ((List.range' 1 g.numLayers).map fun k => satTheta g k * (g.cum.getD k 0 - layerTop g.cum k)).sum

/-- C05: the water infiltrated in a step is at most the free pore space of the column. -/
theorem C05_free_space (fuel : Nat) (closed : Bool) (nint : Int) (g : Geo K) (dt aet ponded precip pondMax : K)
    (nFd : Nat) (l : List (Front K)) (runoff volin left : K) (hdt : 0 < dt)
    (hfree : water g.cum l ≤ saturatedStorage g)
    (h : insertWater fuel closed nint g dt aet ponded 0 precip nFd pondMax l = .ok (runoff, volin, left)) :
    water g.cum l + volin ≤ saturatedStorage g := by
  obtain ⟨fp, hfp, h⟩ := insertWater_inv h
  obtain ⟨mx, hmx, _, hle⟩ := fpCapacity_cap hfp
  have hmx' : mx = saturatedStorage g := by
    have := maxStorageGo_val hmx
    rw [this, zero_add]; rfl
  rw [water_eq_mass] at hfree ⊢
  have := partitionPond_vol (c := mx - mass g.cum l) hdt hle (by rw [hmx']; linarith) h
  rw [hmx'] at this
  linarith

example : water geo1.cum col1 = 346/100 ∧ saturatedStorage geo1 = 4 := by decide +kernel
/-- The cap binds: of 3 cm ponded just the free 0.54 cm infiltrate in a step of one hour. -/
example : okAnd (insertWater 100 true 120 geo1 1 0 3 0 10 1 1 col1) (fun r => r.2.1 == 54/100) = true := by
  decide +kernel

/-- C10: a new surficial front that does not reach the top front holds exactly the infiltrated volume; that volume is
taken from the ponded water, which stays non-negative. -/
theorem C10_create (g : Geo K) (ponded dry : K) (n : Front K) (t : List (Front K)) (ponded' volin : K)
    (l' : List (Front K)) (htop : g.cum[0]? = some 0) (hlay : n.layer = 1) (hdry : 0 < dry) (hdepth : dry ≤ n.depth)
    (hp : 0 ≤ ponded)
    (h : createSurficial g ponded dry n.theta (n :: t) = .ok (ponded', volin, l')) :
    water g.cum l' = water g.cum (n :: t) + volin ∧ ponded' = ponded - volin ∧ 0 ≤ ponded' := by
  obtain ⟨s, thn, psi, Kc, hs, hv, l1, hl1, hl⟩ := createSurficial_inv h
  have hl' : l' = l1 := by
    rcases hl with ⟨_, e⟩ | ⟨⟨x, hx, hlt⟩, _⟩
    · exact e
    · simp at hx; subst hx; exact absurd hlt (not_lt.mpr hdepth)
  obtain ⟨h1, h2, h3⟩ := surficial_amount hdry hp hv
  refine ⟨?_, h2, h3⟩
  rw [hl', hl1, water_eq_mass, water_eq_mass, mass_push rfl hlay]
  have : layerTop g.cum 1 = 0 := by simp [layerTop, htop]
  simp only at h1
  rw [this, sub_zero, h1]
  ring

/-- C10 when the new front reaches below the top front and is merged at once: the same, for a well-formed column
without fronts below their layer whose moisture decreases downwards within each layer. -/
theorem C10_create_merging (g : Geo K) (ponded dry bot1 : K) (n : Front K) (t : List (Front K)) (ponded' volin : K)
    (l' : List (Front K)) (htop : g.cum[0]? = some 0) (hnum : Consecutive (n :: t))
    (hcol : Column g.numLayers g.cum (n :: t)) (hw : WithinLayers g.cum (n :: t)) (hs : StrictlyDrying (n :: t))
    (hdry : 0 < dry) (hbot : g.cum[1]? = some bot1) (hdepth : dry ≤ bot1)
    (hdef : ∀ s, g.soil 1 = .ok s → n.theta < s.thetaE) (hp : 0 < ponded)
    (h : createSurficial g ponded dry n.theta (n :: t) = .ok (ponded', volin, l')) :
    water g.cum l' = water g.cum (n :: t) + volin ∧ ponded' = ponded - volin ∧ 0 ≤ ponded' ∧
      Consecutive l' ∧ Column g.numLayers g.cum l' := by
  obtain ⟨s, thn, psi, Kc, hso, hv, l1, hl1, hl⟩ := createSurficial_inv h
  obtain ⟨h1, h2, h3⟩ := surficial_amount hdry hp.le hv
  have hc := (column_iff _ _ _).mp hcol
  have hlay := hc.head
  have hn := (consecutive_iff _).mp hnum
  have hd := hdef s hso
  simp only at h1 h2 h3 hl
  have hvpos : 0 < volin := by
    rcases hv with ⟨_, _, e, _⟩ | ⟨_, e, _⟩
    · simp only at e; rw [e]; exact hp
    · simp only at e; rw [e]; exact mul_pos hdry (by linarith)
  have hth : n.theta < thn := by
    have : 0 < dry * (thn - n.theta) := by rw [h1]; exact hvpos
    have := (mul_pos_iff_of_pos_left hdry).mp this
    linarith
  have hc1 : Col g.numLayers g.cum 1 l1 := by rw [hl1]; exact col_push hc rfl rfl
  have hn1 : NumFrom 1 l1 := by rw [hl1]; exact ⟨rfl, hn.inc⟩
  have hm1 : mass g.cum l1 = mass g.cum (n :: t) + volin := by
    rw [hl1, mass_push rfl hlay]
    have : layerTop g.cum 1 = 0 := by simp [layerTop, htop]
    rw [this, sub_zero, h1]
    ring
  have hw1 : WithinLayers g.cum l1 := by
    rw [hl1]
    intro f hf b hb
    rcases List.mem_cons.mp hf with rfl | hf
    · simp only at hb ⊢
      rw [hbot] at hb; simp at hb; rw [← hb]; exact hdepth
    · simp only [incFronts, List.mem_map] at hf
      obtain ⟨f0, hf0, rfl⟩ := hf
      exact hw f0 hf0 b hb
  have hs1 : StrictlyDrying l1 := by
    rw [hl1]
    refine ⟨fun _ => hth, ?_⟩
    exact strictlyDrying_congr (by simp) hs
  have key : mass g.cum l' = mass g.cum l1 ∧ NumFrom 1 l' ∧ Col g.numLayers g.cum 1 l' := by
    rcases hl with ⟨_, rfl⟩ | ⟨_, l2, hm, hx⟩
    · exact ⟨rfl, hn1, hc1⟩
    · have e := crossLayer_id (mergeFronts_within hn1 hc1 hw1 hs1 hm).1 hx
      subst e
      exact ⟨mergeFronts_mass hn1 hc1 hm, mergeFronts_num hn1 hm, mergeFronts_col hn1 hc1 hm⟩
  refine ⟨?_, h2, h3, (consecutive_iff _).mpr key.2.1, (column_iff _ _ _).mpr key.2.2⟩
  rw [water_eq_mass, water_eq_mass, key.1, hm1]

/-- Column of two layers whose top front is at 4 cm. -/
def shallow : List (Front ℚ) := [fr 4 (25/100) 1 1 false, fr 10 (2/10) 1 2 true, fr 30 (15/100) 2 3 true]

instance decWithin (cum : List ℚ) (l : List (Front ℚ)) : Decidable (WithinLayers cum l) :=
  decidable_of_iff (∀ f ∈ l, ∀ b ∈ cum[f.layer]?, f.depth ≤ b) (by simp [WithinLayers])

instance decDrying : (l : List (Front ℚ)) → Decidable (StrictlyDrying l)
  | [] => isTrue trivial
  | [_] => isTrue trivial
  | f :: n :: t =>
    have := decDrying (n :: t)
    inferInstanceAs (Decidable ((f.layer = n.layer → n.theta < f.theta) ∧ StrictlyDrying (n :: t)))

example : Consecutive shallow ∧ Column 2 geo2.cum shallow ∧ WithinLayers geo2.cum shallow ∧ StrictlyDrying shallow := by
  decide +kernel
/-- All 0.126 cm fit into a front of 3 cm (no merging). -/
example : okAnd (createSurficial geo2 (126/1000) 3 (25/100) shallow) (fun r => r.1 == 0 && r.2.2.length == 4) = true := by
  decide +kernel
/-- Some stays ponded, and the new front of 5 cm is merged with the one at 4 cm. -/
example : okAnd (createSurficial geo2 1 5 (25/100) shallow) (fun r => r.1 == 1/4 && r.2.2.length == 3) = true := by
  decide +kernel

/-- C30, upper bound: the depth of a new front never exceeds the bottom of the layer of the top front. -/
theorem C30_within_layer (fuel : Nat) (closed : Bool) (nint : Int) (g : Geo K) (dt : K) (n : Front K)
    (t : List (Front K)) (dry delta : K) (h : calcDryDepth fuel closed nint g dt (n :: t) = .ok (dry, delta)) :
    ∃ bot, g.cum[n.layer]? = some bot ∧ dry ≤ bot := by
  unfold calcDryDepth at h
  simp only [bind_ok_iff, deref_ok_iff, idx_ok_iff, List.getElem?_cons_zero, Option.some.injEq] at h
  obtain ⟨c, rfl, s, _, ff, _, tau, _, Ge, _, r, _, bot, hbot, h⟩ := h
  simp only [pure_eq_ok, Except.ok.injEq, Prod.mk.injEq, fmin_eq] at h
  exact ⟨bot, hbot, h.1 ▸ min_le_left _ _⟩

/-- C30, positivity (real numbers): the depth of a new front is positive, for a positive time step on a column whose
layer bottoms are positive, with a top front drier than saturation and a positive conductivity. -/
theorem C30_positive (fuel : Nat) (closed : Bool) (nint : Int) (g : Geo ℝ) (dt : ℝ) (n : Front ℝ)
    (t : List (Front ℝ)) (dry delta : ℝ) (hdt : 0 < dt)
    (hbot : ∀ b, g.cum[n.layer]? = some b → 0 < b)
    (hsoil : ∀ s, g.soil n.layer = .ok s → n.theta < s.thetaE ∧ 0 < s.Ksat)
    (hfrozen : ∀ f, g.frozen[n.layer]? = some f → 0 < f)
    (h : calcDryDepth fuel closed nint g dt (n :: t) = .ok (dry, delta)) : 0 < dry ∧ 0 < delta := by
  unfold calcDryDepth at h
  simp only [bind_ok_iff, deref_ok_iff, idx_ok_iff, List.getElem?_cons_zero, Option.some.injEq, cdiv_ok,
    csqrt_ok_iff] at h
  obtain ⟨c, rfl, s, hs, ff, hff, tau, ⟨_, htau⟩, Ge, _, r, ⟨_, hr⟩, bot, hb, h⟩ := h
  simp only [pure_eq_ok, Except.ok.injEq, Prod.mk.injEq, fmin_eq] at h
  obtain ⟨rfl, rfl⟩ := h
  obtain ⟨h1, h2⟩ := hsoil s hs
  have h3 := hfrozen ff hff
  have htpos : 0 < tau := by
    rw [htau]
    exact div_pos (mul_pos hdt (mul_pos h2 h3)) (by linarith)
  have hr0 : 0 ≤ r := by rw [hr]; exact Real.sqrt_nonneg _
  refine ⟨lt_min (hbot bot hb) ?_, by linarith⟩
  rw [lit_half]
  linarith

end LGAR
