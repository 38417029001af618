import Verif.Lemmas.Correction
import Verif.Props.Safety
/-
The mass correction of lgar_move_wetting_fronts (C59) and the reported ET (C26).
-/
set_option linter.unusedSectionVars false
namespace LGAR

section Exact
variable {K : Type} [Field K] [LinearOrder K] [IsStrictOrderedRing K] [CMath K] [LawfulNum K]

theorem good_of {g : Geo K} {l : List (Front K)} (hnum : Consecutive l) (hcol : Column g.numLayers g.cum l)
    (hlast : ∀ f, l.getLast? = some f → f.dzdt = 0) : Good g l := by
  have hc := (column_iff _ _ _).mp hcol
  obtain ⟨a, f, e, e1, e2, e3⟩ := hc.last
  have hf : l.getLast? = some f := by rw [e]; simp
  exact ⟨⟨(consecutive_iff l).mp hnum, ⟨f, hf, e1, e2, hlast f hf⟩⟩, hc⟩

/-- C59, termination: on every well-formed column the correction ends within its iteration limit (10001 rounds) and without
undefined behaviour. -/
theorem C59_terminates (g : Geo K) (oldMass precip aet : K) (l : List (Front K)) (hg : g.Valid) (hinc : g.cum.Pairwise (· < ·))
    (hnum : Consecutive l) (hcol : Column g.numLayers g.cum l) (hlast : ∀ f, l.getLast? = some f → f.dzdt = 0)
    (hstray : NoStrayAtBottom g.numLayers g.cum l) :
    moveTop g oldMass precip l aet ≠ .error .fuel ∧ ∀ why, moveTop g oldMass precip l aet ≠ .error (.ub why) := by
  have h := spec_moveTop (fb := Guard.all) (oldMass := oldMass) (precip := precip) (aet := aet) hg hinc
    (good_of hnum hcol hlast) (.inr hstray)
  exact ⟨h.no_fuel, h.no_ub⟩

/-- C59, what the correction reports.  Let `T` be the water the column should hold, `oldMass + precip - aet`.  Either the ET is
unchanged, the reported percolation is 0 and (where the correction applies) the water is `T` up to 2e-10; or the limit was hit,
the deviation is larger, the ET is raised by the deviation, and percolation closes the books exactly. -/
theorem C59_outcome (g : Geo K) (oldMass precip aet aet' flux : K) (l l' : List (Front K))
    (h : moveTop g oldMass precip l aet = .ok (l', aet', flux)) :
    (aet' = aet ∧ flux = 0 ∧ (crossLayer g l = .ok l' ∨ |water g.cum l' - (oldMass + precip - aet)| ≤ 2e-10)) ∨
    (2e-10 < |water g.cum l' - (oldMass + precip - aet)| ∧ aet' = aet + |water g.cum l' - (oldMass + precip - aet)| ∧
      water g.cum l' = oldMass + precip - aet' - flux) := by
  obtain ⟨l1, w, s, h1, _, _, ⟨_, e⟩ | ⟨e, m, hm, hb⟩ | ⟨m, hm, hb, e1, e2⟩⟩ := moveTop_out h
  · simp only [Prod.mk.injEq] at e
    obtain ⟨rfl, rfl, rfl⟩ := e
    exact .inl ⟨rfl, rfl, .inl h1⟩
  · simp only [Prod.mk.injEq] at e
    obtain ⟨rfl, rfl⟩ := e
    rw [massBal_water hm] at hb
    exact .inl ⟨rfl, rfl, .inr hb⟩
  · simp only at hm e1 e2
    have em := massBal_water hm
    rw [em] at hb e1 e2
    exact .inr ⟨hb, e1, by rw [e2]; ring⟩

/-- C59, sign: the percolation reported by the correction is never positive.  It is 0, or minus twice the excess of water. -/
theorem C59_never_positive (g : Geo K) (oldMass precip aet aet' flux : K) (l l' : List (Front K))
    (h : moveTop g oldMass precip l aet = .ok (l', aet', flux)) :
    flux = 0 ∨ (oldMass + precip - aet < water g.cum l' ∧ flux = -2 * (water g.cum l' - (oldMass + precip - aet))) := by
  rcases C59_outcome g oldMass precip aet aet' flux l l' h with ⟨_, h, _⟩ | ⟨_, h1, h2⟩
  · exact .inl h
  · rcases le_or_gt (water g.cum l') (oldMass + precip - aet) with hle | hgt
    · left
      rw [abs_of_nonpos (by linarith)] at h1
      linarith
    · right
      rw [abs_of_pos (by linarith)] at h1
      exact ⟨hgt, by linarith⟩

/-- When the limit is hit: if the front that supplies the demand is the deepest one, saturated and at the depth of the column,
it cannot be moved, and any deviation above 2e-10 ends in ET and percolation. -/
theorem C59_limit (g : Geo K) (oldMass precip aet : K) (l l1 : List (Front K)) (w : Front K) (s : SoilProps K)
    (hcross : crossLayer g l = .ok l1) (hnum : Consecutive l1) (hr : LayersInRange g.cum l1)
    (hk : wettingFrontFreeDrainage l1 = l1.length) (hw : l1.getLast? = some w) (hs : g.soil l1.length = .ok s)
    (hsat : w.theta = s.thetaE) (hb : w.toBottom = true) (hN : w.layer = g.numLayers)
    (hd : g.cum[g.numLayers]? = some w.depth) (hold : 0 < oldMass)
    (hbig : 2e-10 < |water g.cum l1 - (oldMass + precip - aet)|) :
    moveTop g oldMass precip l aet = .ok (l1, aet + |water g.cum l1 - (oldMass + precip - aet)|,
      oldMass + precip - (aet + |water g.cum l1 - (oldMass + precip - aet)|) - water g.cum l1) := by
  have hpos : 0 < l1.length := by
    cases l1 with
    | nil => simp at hw
    | cons => simp
  have hw' : l1[l1.length - 1]? = some w := by rw [← List.getLast?_eq_getElem?]; exact hw
  have hm : massBal g.cum l1 = .ok (water g.cum l1) := by rw [massBal_eq g.cum l1 hr, water_eq_mass]
  unfold moveTop
  rw [idx_ok_iff.mpr hd, ok_bind, hcross, ok_bind]
  simp only [hk]
  rw [hs, ok_bind, find_num ((consecutive_iff l1).mp hnum) hpos le_rfl]
  rw [show cassert (0 < oldMass) "old_mass > 0.0" = .ok () from cassert_ok_iff.mpr hold, ok_bind]
  rw [show derefOpt l1 (some (l1.length - 1)) = .ok w from derefOpt_ok_iff.mpr ⟨_, rfl, hw'⟩, ok_bind]
  rw [if_pos (by rw [fabs_eq, hsat, sub_self, abs_zero]; norm_num)]
  simp only [Option.getD_some]
  rw [hm, ok_bind, Nat.sub_add_cancel hpos, List.getElem?_eq_none le_rfl]
  simp only [mcFactor]
  rw [ok_bind]
  have hbig' : 2e-10 < |water g.cum l1 - (oldMass + precip - (aet + 0))| := by rw [add_zero]; exact hbig
  obtain ⟨st', h1, h2, h3⟩ := mcLoop_stuck (fuel := mcFuel)
    (st := { depth := w.depth, factor := 1, switched := false, mass := water g.cum l1,
             err := CMath.fabs (water g.cum l1 - (oldMass + precip - (aet + 0))), iter := 0, aug := false, list := l1 })
    hw' hb hN rfl hm hbig' rfl rfl (fabs_eq _) (by simp) (by simp [mcFuel])
  rw [h1, ok_bind]
  simp only [if_true]
  rw [h2, hm, ok_bind, h3]
  simp only [add_zero, zero_add]
  rfl

/-- C26, upper bound of a subcycle in which the mass correction does not hit its limit: the ET booked is at most PET.  The
other conditions are consecutive front numbers, the last front flagged and at rest (they hold in every run).  Missing for the
full statement: the bound fails when the limit is hit (C26_limit_raises), and the ET can be negative (C26_negative). -/
theorem C26_upper_partial (c : StepCfg K) (s s' : SubSt K) (hd : 0 ≤ c.dt) (hs : Sound c.geo.numLayers s.head)
    (hc : StepConverges c s) (h : subStep c s = .ok s') : s'.aetT - s.aetT ≤ max s.petMm 0 * 0.1 * c.dt :=
  (subStep_aet hd hs hc h).1

/-- C26 over whole runs: the ET an Update reports is at most the PET it reports, if its mass corrections do not hit their limit
and its sub-timestep is not negative. -/
theorem C26_run_upper_partial (env : Env K) (lines : List (List Char)) (s0 s s1 s2 : State K) (hist : List (State K)) (fuel : Nat)
    (sa : Bool) (h0 : bmiInitialize env lines = .ok s0) (hr : Run s0 hist s) (hi : Inputs s s1)
    (hd : 0 ≤ chooseTimestep s1.p s1.precipMm s1.mb.volonT) (hc : UpdateConverges fuel sa s1)
    (hu : update fuel sa s1 = .ok s2) : s2.mb.volAETT ≤ s2.mb.volPETT ∧ s2.conv.aet ≤ s2.conv.pet := by
  obtain ⟨r1, _, r3, _⟩ := run_sound h0 hr
  have hv := (run_routing h0 hr).1
  have e1 : s1.head = s.head ∧ s1.p.invalidSoil = s.p.invalidSoil := by
    obtain ⟨_, _, _, _, rfl⟩ := hi; exact ⟨rfl, rfl⟩
  rcases update_inv hu with ⟨hb, _⟩ | ⟨_, sp, d, v, u, h1, hm, hl, h2⟩
  · rw [e1.2, hv] at hb; simp at hb
  obtain ⟨giuh, queue, _, _, _, _, _, _, _, _, _, _, _, hmb, hconv⟩ := updatePost_inv h2
  have hsk := updatePre_skel h1
  have hS : Sound s.p.numLayers (subInit sp v).head := by
    refine Sound.skel (l := s1.head) ?_ hsk
    rw [e1.1]; exact r1
  have hdt : 0 ≤ (stepCfg fuel sa sp).dt := by
    obtain ⟨_, _, fs, soils, l, fc, pm, q, _, e, _⟩ := updatePre_inv h1
    show 0 ≤ sp.p.timestepH
    rw [e]; exact hd
  have := subLoop_aet hdt hS ((hc.of_ok h1).of_ok hm) hl
  have e : (subInit sp v).aetT = 0 ∧ (subInit sp v).petT = 0 := ⟨rfl, rfl⟩
  rw [e.1, e.2, sub_zero, sub_zero] at this
  rw [hmb, hconv]
  exact ⟨this, mul_le_mul_of_nonneg_right this (by norm_num)⟩

end Exact

/- Cases and counterexamples. -/

section Rational
attribute [-instance] Rat.instOfScientific
open Sample

/-- One layer of 30 cm with soil A. -/
def geoTop : Geo ℚ :=
  { numLayers := 1, cum := [0, 30], soilType := [0, 1], frozen := [1, 1], soils := [soilA, soilA] }

/-- A saturated column: 12 cm of water. -/
def full : List (Front ℚ) := [fr 30 (4/10) 1 1 true]

theorem full_limit (oldMass precip aet : ℚ) (hold : 0 < oldMass) (hbig : 2e-10 < |12 - (oldMass + precip - aet)|) :
    moveTop geoTop oldMass precip full aet = .ok (full, aet + |12 - (oldMass + precip - aet)|,
      oldMass + precip - (aet + |12 - (oldMass + precip - aet)|) - 12) := by
  have hwat : water geoTop.cum full = 12 := by decide +kernel
  have := C59_limit geoTop oldMass precip aet full full (fr 30 (4/10) 1 1 true) soilA (by decide +kernel) (by decide +kernel)
    (by unfold LayersInRange; decide +kernel) (by decide +kernel) rfl rfl rfl rfl rfl rfl hold (by rw [hwat]; exact hbig)
  rw [hwat] at this
  exact this

/-- C59 is false: the correction can report negative percolation.  The column is well formed and saturated, and holds 1 cm more
than it should: 2 cm of negative percolation and 1 cm of ET are booked. -/
theorem C59_fails : ∃ (g : Geo ℚ) (l l' : List (Front ℚ)) (oldMass precip aet aet' flux : ℚ), g.Valid ∧ Consecutive l ∧
    Column g.numLayers g.cum l ∧ moveTop g oldMass precip l aet = .ok (l', aet', flux) ∧ flux = -2 ∧ aet = 0 ∧ aet' = 1 := by
  refine ⟨geoTop, full, full, 11, 0, 0, 1, -2, ⟨rfl, by decide, by decide, ?_⟩, by decide +kernel, by decide +kernel, ?_, rfl, rfl, rfl⟩
  · intro k h1 h2
    have : k = 1 := by simp only [geoTop] at h2; omega
    subst this
    exact ⟨1, rfl, by decide, by decide⟩
  · rw [full_limit 11 0 0 (by norm_num) (by norm_num [abs_of_pos])]
    norm_num [abs_of_pos]

/-- C26, upper bound, is false for the mass correction: a well-formed saturated column whose ET demand is 1 cm but which cannot
give the water books 2 cm of ET. -/
theorem C26_limit_fails : ∃ (g : Geo ℚ) (l l' : List (Front ℚ)) (oldMass precip aet aet' flux : ℚ), Consecutive l ∧
    Column g.numLayers g.cum l ∧ oldMass = water g.cum l ∧ moveTop g oldMass precip l aet = .ok (l', aet', flux) ∧ aet = 1 ∧
      aet' = 2 := by
  refine ⟨geoTop, full, full, 12, 0, 1, 2, -2, by decide +kernel, by decide +kernel, by decide +kernel, ?_, rfl, rfl⟩
  rw [full_limit 12 0 1 (by norm_num) (by norm_num [abs_of_pos])]
  norm_num [abs_of_pos]

/-- C59_terminates: fronts in both layers. -/
example : Consecutive col3 ∧ Column geo2.numLayers geo2.cum col3 ∧ (∀ f, col3.getLast? = some f → f.dzdt = 0) ∧
    NoStrayAtBottom geo2.numLayers geo2.cum col3 ∧ geo2.cum.Pairwise (· < ·) := by
  refine ⟨by decide +kernel, by decide +kernel, ?_, by decide +kernel, by decide +kernel⟩
  rintro f hf
  simp only [col3, List.getLast?_cons_cons, List.getLast?_singleton, Option.some.injEq] at hf
  subst hf; rfl

/-- C59_outcome and C59_never_positive: a saturated front of layer 1 above a drier one is moved until the water is right
(0.004 cm too little, then 2 rounds), and nothing is booked. -/
def satTop : List (Front ℚ) := [fr 4 (4/10) 1 1 false, fr 10 (2/10) 1 2 true, fr 30 (1/10) 2 3 true]

example : ∃ l', moveTop geo2 (4804/1000) 0 satTop 0 = .ok (l', 0, 0) ∧ water geo2.cum satTop = 4800/1000 ∧
    water geo2.cum l' = 4804/1000 := by
  obtain ⟨⟨l', a, f⟩, h, h1, h2, h3⟩ := okAnd_exists (x := moveTop geo2 (4804/1000) 0 satTop 0)
    (p := fun r => r.2.1 = 0 ∧ r.2.2 = 0 ∧ water geo2.cum r.1 = 4804/1000) (by decide +kernel)
  simp only at h1 h2 h3
  subst h1 h2
  exact ⟨l', h, by decide +kernel, h3⟩

end Rational

instance (fuel : Nat) (g : Geo Grid) (dt precip : Grid) (nFd : Nat) (oldMass aet : Grid) (prev l : List (Front Grid)) :
    Decidable (MoveConverges fuel g dt precip nFd oldMass aet prev l) := by unfold MoveConverges; infer_instance
instance (c : StepCfg Grid) (s : SubSt Grid) (b : Bool) (n : Nat) (x y z : Grid) : Decidable (FlowConverges c s b n x y z) := by
  unfold FlowConverges; infer_instance
instance (c : StepCfg Grid) (s : SubSt Grid) : Decidable (StepConverges c s) := by unfold StepConverges; infer_instance
instance decLoopConverges (c : StepCfg Grid) : (n : Nat) → (s : SubSt Grid) → Decidable (LoopConverges c n s)
  | 0, _ => isTrue trivial
  | n + 1, s =>
    have := decLoopConverges c n
    inferInstanceAs (Decidable (StepConverges c s ∧ Res.Holds (subStep c s) fun s' => LoopConverges c n s'))
instance (fuel : Nat) (sa : Bool) (s : State Grid) : Decidable (UpdateConverges fuel sa s) := by
  unfold UpdateConverges; infer_instance

/-- Test for the examples: an Update with rain and ET that converges. -/
def AetTest (s0 : State Grid) : Prop :=
  0 ≤ chooseTimestep (Sample.feed (5, 1) s0).p (Sample.feed (5, 1) s0).precipMm (Sample.feed (5, 1) s0).mb.volonT ∧
    UpdateConverges 1000 true (Sample.feed (5, 1) s0) ∧
    Sample.okAnd (update 1000 true (Sample.feed (5, 1) s0)) (fun s => 0 < s.mb.volAETT ∧ s.mb.volAETT < s.mb.volPETT) = true

instance : DecidablePred AetTest := fun a => by unfold AetTest; infer_instance

theorem aet_check : Sample.okAnd (bmiInitialize Sample.env Sample.cfg) (fun a => decide (AetTest a)) = true := by
  decide +kernel

attribute [local irreducible] Sample.env Sample.cfg bmiInitialize update in
/-- C26_run_upper_partial. -/
example : ∃ (env : Env Grid) (lines : List (List Char)) (s0 s s1 s2 : State Grid) (hist : List (State Grid)),
    bmiInitialize env lines = .ok s0 ∧ Run s0 hist s ∧ Inputs s s1 ∧
      0 ≤ chooseTimestep s1.p s1.precipMm s1.mb.volonT ∧ UpdateConverges 1000 true s1 ∧ update 1000 true s1 = .ok s2 ∧
      0 < s2.mb.volAETT ∧ s2.mb.volAETT < s2.mb.volPETT := by
  obtain ⟨s0, h0, h1, h2, h3⟩ := Sample.okAnd_exists aet_check
  obtain ⟨s2, hs, h4, h5⟩ := Sample.okAnd_exists h3
  exact ⟨_, _, s0, s0, _, s2, [], h0, .nil, ⟨_, _, _, _, rfl⟩, h1, h2, hs, h4, h5⟩

/-- A drier front put over the fronts of a state: same curve as the layer, head 1000 cm. -/
def dryOver (s : State Grid) : Res (State Grid) := do
  let soil ← s.geo.soil 1
  let th ← calcThetaFromH 1000 soil.vgAlpha soil.vgM soil.vgN soil.thetaE soil.thetaR
  let l := { depth := 4, theta := th, psi := 1000, K := 0, layer := 1, front := 1, toBottom := false, dzdt := 0 } :: incFronts s.head
  .ok { s with head := l }

/-- Test for C26_negative. -/
def NegTest (s : State Grid) : Prop :=
  PhysTest s.geo ∧ Consecutive s.head ∧ Column s.p.numLayers s.p.cum s.head ∧ s.petMm = 0 ∧
    Sample.okAnd (update 1000 true s) (fun s' => s'.mb.volAETT < -(1/10)) = true

instance : DecidablePred NegTest := fun a => by unfold NegTest; infer_instance

/-- The state after Initialize, with the drier front. -/
def negState : Res (State Grid) := do
  let s ← bmiInitialize Sample.env Sample.cfg
  let s ← dryOver (Sample.feed (0, 0) s)
  .ok s

theorem neg_check : Sample.okAnd negState (fun a => decide (NegTest a)) = true := by decide +kernel

attribute [local irreducible] negState update in
/-- C26, lower bound, is false: a well-formed column with a drier front over a wetter one in layer 1, no rain and no PET.  The
Update repairs the pair and books the water it adds as negative ET. -/
theorem C26_negative : ∃ (s s' : State Grid), PhysGeo s.geo ∧ Consecutive s.head ∧ Column s.p.numLayers s.p.cum s.head ∧
    s.petMm = 0 ∧ update 1000 true s = .ok s' ∧ s'.mb.volAETT < -(1/10) := by
  obtain ⟨s, _, h1, h2, h3, h4, h5⟩ := Sample.okAnd_exists neg_check
  obtain ⟨s', hs, h6⟩ := Sample.okAnd_exists h5
  exact ⟨s, s', h1.phys, h2, h3, h4, hs, h6⟩

end LGAR
