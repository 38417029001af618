import Verif.Lemmas.Frost
import Verif.Props.Runs
/-
C79: more rain never means less infiltration, less runoff or less water left on the surface.
-/
set_option linter.unusedSectionVars false
namespace LGAR
attribute [-instance] Rat.instOfScientific

section Exact
variable {K : Type} [Field K] [LinearOrder K] [IsStrictOrderedRing K] [CMath K] [LawfulNum K]

/-- C79 for one sub-timestep: take any state of the subcycle and let it rain `p` mm/h instead of a smaller positive amount.
Then infiltration, runoff and the water left on the surface are all at least what they were, and what they gain together is
just the additional rain, so that none of them gains more than that.  Missing: the coincidence of C04 (the water left would be
just the maximum), for which the claim fails, see `C79_tie_fails`. -/
theorem C79_step_partial (c : StepCfg K) (s s1 s2 : SubSt K) (p : K) (hdt : 0 < c.dt) (hmax : 0 ≤ c.pondMax)
    (hv : 0 ≤ s.volon) (h0 : 0 < s.precipMm) (hp : s.precipMm ≤ p)
    (t1 : StepNoPondTie c s) (t2 : StepNoPondTie c { s with precipMm := p })
    (h1 : subStep c s = .ok s1) (h2 : subStep c { s with precipMm := p } = .ok s2) :
    s1.volinT ≤ s2.volinT ∧ s1.runoffT ≤ s2.runoffT ∧ s1.volon ≤ s2.volon ∧
      (s2.volinT - s1.volinT) + (s2.runoffT - s1.runoffT) + (s2.volon - s1.volon) = (p - s.precipMm) / 10 * c.dt := by
  obtain ⟨aet, vs, hd, hs, f, l, ve, _, ha, _, hhd, hhs, hf, _, _, _, _, _, rfl⟩ := subStep_inv h1
  obtain ⟨aet', vs', hd', hs', f', l', ve', _, ha', _, hhd', hhs', hf', _, _, _, _, _, rfl⟩ := subStep_inv h2
  simp only at ha' hhd' hhs' hf'
  rw [ha, Except.ok.injEq] at ha'; subst ha'
  rw [hhd, Option.some.injEq] at hhd'; subst hhd'
  rw [hhs, Except.ok.injEq] at hhs'; subst hhs'
  have hp0 : 0 < p := h0.trans_le hp
  have m1 : CMath.fmax s.precipMm 0 = s.precipMm := by rw [fmax_eq, max_eq_left h0.le]
  have m2 : CMath.fmax p 0 = p := by rw [fmax_eq, max_eq_left hp0.le]
  have lit : (0.1 : K) = 1 / 10 := by norm_num
  unfold StepNoPondTie at t1 t2
  simp only [m1, m2, lit] at hf hf' t1 t2 ha ⊢
  have q1 : 0 < s.precipMm * (1 / 10) * c.dt := by positivity
  have q2 : 0 < p * (1 / 10) * c.dt := by positivity
  have q12 : s.precipMm * (1 / 10) * c.dt ≤ p * (1 / 10) * c.dt := by gcongr
  have hw : wantsFront s.precipPrev (p * (1 / 10) * c.dt) hd.theta hs.thetaE (volonClean s.volon) =
      wantsFront s.precipPrev (s.precipMm * (1 / 10) * c.dt) hd.theta hs.thetaE (volonClean s.volon) := by
    unfold wantsFront; simp only [q1, q2]
  rw [hw] at hf'
  have hpd : s.precipMm * (1 / 10) * c.dt + s.volon ≤ p * (1 / 10) * c.dt + s.volon := by linarith
  unfold subFlow at hf hf'
  split at hf
  · rename_i hc
    rw [if_pos hc] at hf'
    obtain ⟨l1, flux, dry, d, hh, pd, a1, a2, a3, a4, _, a5, _, a6, a7⟩ := flowCreate_inv hf
    obtain ⟨l1', flux', dry', d', hh', pd', b1, b2, b3, b4, _, b5, _, b6, b7⟩ := flowCreate_inv hf'
    simp only at b1 b5 b6
    rw [a1, Except.ok.injEq, Prod.mk.injEq] at b1
    obtain ⟨rfl, -⟩ := b1
    rw [a2, Except.ok.injEq, Prod.mk.injEq] at b2
    obtain ⟨rfl, -⟩ := b2
    rw [a3, Option.some.injEq] at b3; subst b3
    obtain ⟨so, _, _, _, es, ho, _⟩ := createSurficial_inv a4
    obtain ⟨so', _, _, _, es', ho', _⟩ := createSurficial_inv b4
    rw [es, Except.ok.injEq] at es'; subst es'
    simp only at ho ho'
    have key : f.volin = min (s.precipMm * (1 / 10) * c.dt + s.volon) (dry * (so.thetaE - hh.theta)) ∧
        pd = s.precipMm * (1 / 10) * c.dt + s.volon - f.volin := by
      rcases ho with ⟨o1, _, o2, o3, _⟩ | ⟨o1, o2, o3, _⟩
      · rw [o2, o3, min_eq_left o1.le]; exact ⟨rfl, by ring⟩
      · rw [o2, o3, min_eq_right o1]; exact ⟨rfl, rfl⟩
    have key' : f'.volin = min (p * (1 / 10) * c.dt + s.volon) (dry * (so.thetaE - hh.theta)) ∧
        pd' = p * (1 / 10) * c.dt + s.volon - f'.volin := by
      rcases ho' with ⟨o1, _, o2, o3, _⟩ | ⟨o1, o2, o3, _⟩
      · rw [o2, o3, min_eq_left o1.le]; exact ⟨rfl, by ring⟩
      · rw [o2, o3, min_eq_right o1]; exact ⟨rfl, rfl⟩
    have k2 : f.volon = min pd c.pondMax ∧ f.runoff = pd - f.volon := by
      rcases a7 with ⟨o1, o2, o3, _⟩ | ⟨o1, o2, o3, _⟩
      · rw [o2, o3, min_eq_left o1.le]; exact ⟨rfl, by ring⟩
      · rw [o2, o3, min_eq_right (not_lt.mp o1)]; exact ⟨rfl, rfl⟩
    have k2' : f'.volon = min pd' c.pondMax ∧ f'.runoff = pd' - f'.volon := by
      rcases b7 with ⟨o1, o2, o3, _⟩ | ⟨o1, o2, o3, _⟩
      · rw [o2, o3, min_eq_left o1.le]; exact ⟨rfl, by ring⟩
      · rw [o2, o3, min_eq_right (not_lt.mp o1)]; exact ⟨rfl, rfl⟩
    obtain ⟨r1, r2, r3⟩ := split_mono hpd key.1 key'.1 (key.2 ▸ k2.1) (key'.2 ▸ k2'.1)
    have e1 := k2.2
    have e2 := k2'.2
    rw [key.2] at e1
    rw [key'.2] at e2
    rw [a5, b5, a6, b6]
    refine ⟨by linarith, by rw [e1, e2]; linarith, r2, ?_⟩
    rw [e1, e2]; ring
  · rename_i hc
    rw [if_neg hc] at hf'
    obtain ⟨a1, _, _, a2, a3, _⟩ := flowMove_inv hf
    obtain ⟨b1, _, _, b2, b3, _⟩ := flowMove_inv hf'
    have w1 : 0 < s.precipMm * (1 / 10) * c.dt + s.volon := by linarith
    have w2 : 0 < p * (1 / 10) * c.dt + s.volon := by linarith
    rw [if_pos w1] at a2
    rw [if_pos w2] at b2
    simp only at b2 b3
    unfold surfaceFlow at a1 b1
    rw [if_pos w1] at a1
    rw [if_pos w2] at b1
    simp only [bind_ok_iff, Prod.exists] at a1 b1
    obtain ⟨r, v, pd, i1, a1⟩ := a1
    obtain ⟨r', v', pd', i2, b1⟩ := b1
    split at a1
    · simp at a1
    split at b1
    · simp at b1
    simp only [Except.ok.injEq, Prod.mk.injEq] at a1 b1
    obtain ⟨rfl, rfl, rfl, _⟩ := a1
    obtain ⟨rfl, rfl, rfl, _⟩ := b1
    obtain ⟨fp, c1, i1⟩ := insertWater_inv i1
    obtain ⟨fp', c2, i2⟩ := insertWater_inv i2
    rw [ha] at t1 t2
    simp only [Res.Holds] at t1 t2
    rw [c1] at t1
    rw [c2] at t2
    rw [fpCapacity_rain (rate' := p * (1 / 10)), c2, Except.ok.injEq] at c1
    subst c1
    obtain ⟨u1, u2, u3⟩ := partitionPond_closed hmax t1 i1
    obtain ⟨v1, v2, v3⟩ := partitionPond_closed hmax t2 i2
    obtain ⟨r1, r2, r3⟩ := split_mono hpd u1 v1 u2 v2
    rw [a2, b2, a3, b3]
    refine ⟨by linarith, by rw [u3, v3]; linarith, r2, ?_⟩
    rw [u3, v3]; ring

/-- C79 for standing water: with more water standing on the surface before the step, and the same rain, the capacity is no
smaller and no less water infiltrates.  (Runoff may be smaller, see `C79_standing_runoff_drops`.)  Missing: the coincidence of
C04. -/
theorem C79_standing_partial (fuel : Nat) (closed : Bool) (nint : Int) (g : Geo K) (dt aet a a' precip pondMax : K) (nFd : Nat)
    (l : List (Front K)) (f f' r v p r' v' p' : K) (hdt : 0 < dt) (hmax : 0 ≤ pondMax) (ha : a ≤ a')
    (hK : ∀ k s, g.soil k = .ok s → 0 ≤ s.Ksat) (hF : ∀ x ∈ g.frozen, 0 ≤ x) (hd : ∀ f ∈ l, 0 < f.depth)
    (e : fpCapacity fuel closed nint g dt aet a precip nFd l = .ok f)
    (e' : fpCapacity fuel closed nint g dt aet a' precip nFd l = .ok f')
    (t : ¬ 0 < pondMax ∨ a ≠ pondMax + f * dt) (t' : ¬ 0 < pondMax ∨ a' ≠ pondMax + f' * dt)
    (h : insertWater fuel closed nint g dt aet a 0 precip nFd pondMax l = .ok (r, v, p))
    (h' : insertWater fuel closed nint g dt aet a' 0 precip nFd pondMax l = .ok (r', v', p')) :
    f ≤ f' ∧ v ≤ v' := by
  have hf : f ≤ f' := by
    obtain ⟨b, mx, hb, hmx, _, rfl⟩ := fpCapacity_inv e
    obtain ⟨b', mx', hb', hmx', _, rfl⟩ := fpCapacity_inv e'
    rw [hmx, Except.ok.injEq] at hmx'; subst hmx'
    refine min_le_min ?_ (le_refl _)
    obtain ⟨fd, h0, s, y, G, b1, sT, hfd, hh0, hs, hy, hG, hr, hT, hm⟩ := fpPotential_inv hb
    obtain ⟨fd', h0', s', x, G', b1', sT', hfd', hh0', hs', hx, hG', hr', hT', hm'⟩ := fpPotential_inv hb'
    rw [hfd, Except.ok.injEq] at hfd'; subst hfd'
    rw [hh0, Option.some.injEq] at hh0'; subst hh0'
    rw [hs, Except.ok.injEq] at hs'; subst hs'
    rw [hT, Except.ok.injEq] at hT'; subst hT'
    rw [hy, Option.some.injEq] at hx; subst hx
    have GG : G = G' := by
      rcases hG with ⟨c1, rfl⟩ | ⟨c1, below, c2, c3⟩ <;> rcases hG' with ⟨d1, rfl⟩ | ⟨d1, below', d2, d3⟩
      · rfl
      · exact absurd c1 d1
      · exact absurd d1 c1
      · rw [c2, Except.ok.injEq] at d2; subst d2
        rw [c3, Except.ok.injEq] at d3; exact d3
    subst GG
    have hw : max (a - precip * dt) 0 ≤ max (a' - precip * dt) 0 := max_le_max (by linarith) (le_refl _)
    have hraw : b1 ≤ b1' := fpRaw_drive (mul_nonneg (hK _ _ hs) (hF _ (List.mem_of_getElem? hy))) (hd fd (derefOpt_mem hfd))
      (by linarith) hr hr'
    rcases hm with ⟨m1, m2, m3, rfl⟩ | ⟨m1, rfl⟩ <;> rcases hm' with ⟨n1, n2, n3, rfl⟩ | ⟨n1, rfl⟩
    · exact min_le_min hraw (le_refl _)
    · exact absurd ⟨m1, m2, m3⟩ n1
    · exact absurd ⟨n1, n2, n3⟩ m1
    · exact hraw
  refine ⟨hf, ?_⟩
  obtain ⟨q, hq, h⟩ := insertWater_inv h
  obtain ⟨q', hq', h'⟩ := insertWater_inv h'
  rw [e, Except.ok.injEq] at hq; subst hq
  rw [e', Except.ok.injEq] at hq'; subst hq'
  obtain ⟨u1, _⟩ := partitionPond_closed hmax t h
  obtain ⟨v1, _⟩ := partitionPond_closed hmax t' h'
  rw [u1, v1]
  exact min_le_min ha (mul_le_mul_of_nonneg_right hf hdt.le)

end Exact

/-- A front at half a millimetre. -/
def geoShallow : Geo ℚ :=
  { numLayers := 1, cum := [0, 1000], soilType := [0, 1], frozen := [1, 1], soils := [Sample.soilA, Sample.soilA] }

def colShallow : List (Front ℚ) := [Sample.fr (1/20) (4/10) 1 1 false, Sample.fr 1000 (292/1000) 1 2 true]

/-- One more centimetre of standing water on a shallow front: two more infiltrate, one less runs off. -/
theorem C79_standing_runoff_drops :
    insertWater 100 true 120 geoShallow (1/10) 0 50 0 500 1 0 colShallow = .ok (249/10, 251/10, 0) ∧
    insertWater 100 true 120 geoShallow (1/10) 0 51 0 500 1 0 colShallow = .ok (239/10, 271/10, 0) := by
  decide +kernel

/-- That column meets the hypotheses of C79_standing_partial. -/
example : (∀ x ∈ geoShallow.frozen, 0 ≤ x) ∧ (∀ f ∈ colShallow, 0 < f.depth) ∧
    fpCapacity 100 true 120 geoShallow (1/10) 0 50 500 1 colShallow = .ok 251 ∧
    fpCapacity 100 true 120 geoShallow (1/10) 0 51 500 1 colShallow = .ok 271 := by decide +kernel

example : ∀ k s, geoShallow.soil k = .ok s → 0 ≤ s.Ksat := by
  intro k s h
  have : s = Sample.soilA := by
    rcases k with _ | _ | k
    · simpa [Geo.soil, geoShallow, idx, idxI, ok_bind] using h.symm
    · simpa [Geo.soil, geoShallow, idx, idxI, ok_bind] using h.symm
    · simp [Geo.soil, geoShallow, idx, error_bind] at h
  rw [this]; decide +kernel

/-- The coincidence of C04 breaks it: a column, a maximum and two rates of rain such that the smaller rain infiltrates in
part and of the larger one nothing infiltrates. -/
theorem C79_tie_fails : ∃ (pondMax r1 v1 p1 r2 p2 : ℚ), 0 < pondMax ∧
    insertWater 100 true 120 geo1 (1/10) 0 (29/10) 0 29 1 pondMax col1 = .ok (r1, v1, p1) ∧ 0 < v1 ∧
    insertWater 100 true 120 geo1 (1/10) 0 3 0 30 1 pondMax col1 = .ok (r2, 0, p2) := by
  have h : ∃ fp, fpCapacity 100 true 120 geo1 (1/10) 0 3 30 1 col1 = .ok fp ∧
      (fpCapacity 100 true 120 geo1 (1/10) 0 (29/10) 29 1 col1 = .ok fp ∧ 0 < fp ∧ fp * (1/10) < 29/10) :=
    Sample.okAnd_exists (p := fun fp => fpCapacity 100 true 120 geo1 (1/10) 0 (29/10) 29 1 col1 = .ok fp ∧ 0 < fp ∧
      fp * (1/10) < 29/10) (by decide +kernel)
  obtain ⟨fp, hfp, hfp', hpos, hlt⟩ := h
  have z : cdiv (0 : ℚ) (1/10) = .ok 0 := by decide +kernel
  have m1 : max (29/10 - fp * (1/10) - 0 * 0) 0 = 29/10 - fp * (1/10) := by rw [max_eq_left (by linarith)]; ring
  have m2 : max (3 - fp * (1/10) - 0 * 0) 0 = 3 - fp * (1/10) := by rw [max_eq_left (by linarith)]; ring
  refine ⟨3 - fp * (1/10), 0, fp * (1/10), 29/10 - fp * (1/10), 0, 3, by linarith, ?_, by linarith, ?_⟩
  · unfold insertWater partitionPond
    rw [hfp', ok_bind]
    simp only [fmax_eq, fmin_eq]
    rw [m1, z, ok_bind, if_pos (by linarith), if_pos (by linarith)]
    rw [add_zero, min_eq_right hlt.le]; rfl
  · unfold insertWater partitionPond
    rw [hfp, ok_bind]
    simp only [fmax_eq]
    rw [m2, z, ok_bind, if_pos (by linarith), if_neg (lt_irrefl _), if_neg (lt_irrefl _)]
    rfl

/- Cases meeting the hypotheses. -/

/-- The first sub-timestep of an Update with rain of `p` and of `q` mm/h: all is compared. -/
def RainTest (p q : Grid) (s : State Grid) : Prop :=
  Sample.okAnd (massBal s.p.cum s.head) (fun v =>
    let c := stepCfg 5000 true s
    let b := subInit (Sample.feed (p, 0) s) v
    decide (0 < c.dt ∧ 0 ≤ c.pondMax ∧ 0 ≤ b.volon ∧ 0 < b.precipMm ∧ b.precipMm ≤ q ∧ StepNoPondTie c b ∧
      StepNoPondTie c { b with precipMm := q }) &&
    Sample.okAnd (subStep c b) fun s1 => Sample.okAnd (subStep c { b with precipMm := q }) fun s2 =>
      decide (s1.volinT < s2.volinT ∧ s1.runoffT ≤ s2.runoffT ∧ s1.volon ≤ s2.volon)) = true

instance (p q : Grid) : DecidablePred (RainTest p q) := fun a => by unfold RainTest; infer_instance

/-- C79_step_partial at the start of a run (a new front is made; 160 mm/h is too much for it and for the surface) ... -/
example : Sample.okAnd (bmiInitialize Sample.env Sample.cfg) (fun a => decide (RainTest 20 160 a)) = true := by
  decide +kernel

/-- ... and after an hour of rain (the water goes into the front). -/
example : Sample.okAnd (bmiInitialize Sample.env Sample.cfg)
    (fun a => Sample.okAnd (update 1000 true (Sample.feed (20, 0) a)) fun s => decide (RainTest 1 16 s)) = true := by
  decide +kernel

end LGAR
