import Verif.Lemmas.Bounded
import Verif.Props.Structure
import Verif.Lemmas.RunSoils
/-
C56: moisture stays between residual and saturated moisture, over every ordered field with the order laws of pow and sqrt
(`LawfulPow`; the real numbers are an instance).
-/
set_option linter.unusedSectionVars false
namespace LGAR

section Exact
variable {K : Type} [Field K] [LinearOrder K] [IsStrictOrderedRing K] [CMath K] [LawfulNum K] [LawfulPow K]

/-- C56 for the move itself: from any column in which every front is within the range of its layer, moving all fronts
(lgar_move_wetting_fronts, main loop) leaves every front within the range of its layer, whatever the time step, rain,
actual ET demand and previous state. -/
theorem C56_move (fuel : Nat) (g : Geo K) (dt precip aet : K) (nFd : Nat) (prev l : List (Front K)) (r : List (Front K) × K)
    (hg : PhysGeo g) (hn : NumFrom 1 l) (hb : ∀ f ∈ l, 1 ≤ f.layer ∧ Bounded g f)
    (h : moveOnes fuel g dt precip nFd l.length prev l.length l aet = .ok r) : ∀ f ∈ r.1, Bounded g f :=
  fun f m => (bounded_moveOnes hg hn rfl le_rfl hb h f m).2

theorem Fine.initialize {env : Env K} {lines : List (List Char)} {s : State K} (h : bmiInitialize env lines = .ok s)
    (hg : PhysGeo s.geo) (hpsi : 0 ≤ s.p.initialPsi) : Fine s.geo s.head := by
  refine ⟨Good.initialize h, ?_⟩
  obtain ⟨c, _, h, hne⟩ := bmiInitialize_inv h
  obtain ⟨ts, file, fl, soils, cnt, thick, psi, dt, endt, wp, fc, res, ords, inv, giuh, soilZ, q, depth, vs, cs, _, _, _, _, _,
    _, _, _, _, _, _, _, _, _, _, _, _, _, _, _, hhead, _, _, _, hs⟩ := lgarInit_inv h
  have e : s.p.initialPsi = psi := by rw [hs]
  rw [e] at hpsi
  intro f hf
  obtain ⟨i, hi⟩ := List.mem_iff_getElem?.mp hf
  obtain ⟨s1, th, c, ff, Se, K, h1, h2, hc, _, _, _, rfl⟩ := (initFronts_inv hhead).2.2 i f hi
  obtain ⟨t1, t2⟩ := calcTheta_range (hg _ _ (by omega) h1) hpsi h2
  exact ⟨s1, h1, t1, t2, hpsi⟩

/-- One Update keeps the bounds; the soils are those of the state after it. -/
theorem Fine.step {s s1 s2 : State K} {fuel : Nat} {sa : Bool} (hf : Fine s.geo s.head)
    (hp : PhysGeo s2.geo) (hnw : s.p.numWf = (s.head.length : Int)) (hinc : s.p.cum.Pairwise (· < ·))
    (hcal : s.p.calibFlag = true → DistinctTypes s.p.layerSoilType s.p.numLayers)
    (hi : Inputs s s1) (ht : s.p.numLayers = 1 ∨ UpdateTieFree fuel sa s1) (hu : LGAR.update fuel sa s1 = .ok s2) :
    Fine s2.geo s2.head := by
  obtain ⟨pr, pet, temp, cal, rfl⟩ := hi
  exact Fine.update hp (s := { s with precipMm := pr, petMm := pet, calib := cal, p := { s.p with soilTemp := temp } }) hf hnw hinc
    hcal ht hu

/-- The soils change in the first Update only, and only when calibration parameters are used. -/
theorem run_phys {s0 s : State K} {hist : List (State K)} (hr : Run s0 hist s) (h0 : PhysGeo s0.geo)
    (hcal : s0.p.calibFlag = true → ∀ a, hist.head? = some a → PhysGeo a.geo) (hv : s0.p.invalidSoil = false) :
    PhysGeo s.geo ∧ s.p.layerSoilType = s0.p.layerSoilType ∧ s.p.invalidSoil = false ∧ (hist = [] → s = s0) ∧
      (hist ≠ [] → s.p.calibFlag = false) ∧ (s.p.calibFlag = true → s0.p.calibFlag = true) :=
  run_soils hr h0 hcal hv

theorem run_fine {env : Env K} {lines : List (List Char)} {s0 s : State K} {hist : List (State K)}
    (h0 : bmiInitialize env lines = .ok s0) (hg : PhysGeo s0.geo) (hpsi : 0 ≤ s0.p.initialPsi)
    (hinc : s0.p.cum.Pairwise (· < ·))
    (hcal : s0.p.calibFlag = true →
      DistinctTypes s0.p.layerSoilType s0.p.numLayers ∧ ∀ a, hist.head? = some a → PhysGeo a.geo)
    (hr : TieFreeRun s0 hist s) : Fine s.geo s.head := by
  obtain ⟨c, _, hi0, _⟩ := bmiInitialize_inv h0
  have hv := lgarInit_valid hi0
  induction hr with
  | nil => exact Fine.initialize h0 hg hpsi
  | @step hist s s1 s2 fuel sa hr hi ht hu ih =>
    have hP := run_phys (.step hr.run hi hu) hg (fun h => (hcal h).2) hv
    have hc' : s0.p.calibFlag = true →
        DistinctTypes s0.p.layerSoilType s0.p.numLayers ∧ ∀ a, hist.head? = some a → PhysGeo a.geo :=
      fun h => ⟨(hcal h).1, fun a ha => (hcal h).2 a (head_snoc ha)⟩
    have hF := ih hc'
    obtain ⟨_, p2, _, _, _, p6⟩ := run_phys hr.run hg (fun h => (hc' h).2) hv
    obtain ⟨_, r2, r3, r4⟩ := run_sound h0 hr.run
    exact hF.step hP.1 r2 (by rw [r4]; exact hinc) (fun h => by rw [p2, r3]; exact (hcal (p6 h)).1) hi (.inr ht) hu

theorem run_fine_single {env : Env K} {lines : List (List Char)} {s0 s : State K} {hist : List (State K)}
    (h0 : bmiInitialize env lines = .ok s0) (hg : PhysGeo s0.geo) (hpsi : 0 ≤ s0.p.initialPsi)
    (hinc : s0.p.cum.Pairwise (· < ·)) (hN : s0.p.numLayers = 1)
    (hcal : s0.p.calibFlag = true → ∀ a, hist.head? = some a → PhysGeo a.geo)
    (hr : Run s0 hist s) : Fine s.geo s.head := by
  obtain ⟨c, _, hi0, _⟩ := bmiInitialize_inv h0
  have hv := lgarInit_valid hi0
  induction hr with
  | nil => exact Fine.initialize h0 hg hpsi
  | @step hist s s1 s2 fuel sa hr hi hu ih =>
    have hP := run_phys (.step hr hi hu) hg hcal hv
    have hF := ih fun h a ha => hcal h a (head_snoc ha)
    obtain ⟨_, r2, r3, r4⟩ := run_sound h0 hr
    refine hF.step hP.1 r2 (by rw [r4]; exact hinc) (fun h => ?_) hi (.inl (by rw [r3, hN])) hu
    intro i j t h1 h2 h3 h4 _ _
    omega

/-- C56 for single-layer columns, all runs. -/
theorem C56_run_single_layer (env : Env K) (lines : List (List Char)) (s0 s : State K) (hist : List (State K))
    (h0 : bmiInitialize env lines = .ok s0) (hg : PhysGeo s0.geo) (hpsi : 0 ≤ s0.p.initialPsi)
    (hinc : s0.p.cum.Pairwise (· < ·)) (hN : s0.p.numLayers = 1)
    (hcal : s0.p.calibFlag = true → ∀ a, hist.head? = some a → PhysGeo a.geo)
    (hr : Run s0 hist s) : ∀ f ∈ s.head, Bounded s.geo f := (run_fine_single h0 hg hpsi hinc hN hcal hr).bd

end Exact

/- Cases meeting the hypotheses. -/

instance (s : SoilProps Grid) : Decidable s.Physical :=
  decidable_of_iff (0 ≤ s.thetaR ∧ s.thetaR < s.thetaE ∧ 0 < s.vgAlpha ∧ 1 < s.vgN ∧ s.vgM = 1 - 1 / s.vgN ∧ 0 < s.Ksat)
    ⟨fun ⟨a, b, c, d, e, f⟩ => ⟨a, b, c, d, e, f⟩, fun ⟨a, b, c, d, e, f⟩ => ⟨a, b, c, d, e, f⟩⟩

/-- Checkable form of `PhysGeo`. -/
def PhysTest (g : Geo Grid) : Prop :=
  ∀ t ∈ g.soilType.drop 1, ∀ s, g.soils[t.toNat]? = some s → s.Physical

instance (g : Geo Grid) : Decidable (PhysTest g) := by
  unfold PhysTest
  refine @List.decidableBAll _ _ (fun t => ?_) _
  cases h : g.soils[t.toNat]? with
  | none => exact isTrue (by simp)
  | some s => exact decidable_of_iff s.Physical (by simp)

theorem PhysTest.phys {g : Geo Grid} (h : PhysTest g) : PhysGeo g := by
  intro k s hk hs
  unfold Geo.soil at hs
  simp only [bind_ok_iff, idx_ok_iff, idxI_ok_iff] at hs
  obtain ⟨t, ht, _, hs⟩ := hs
  refine h t ?_ s hs
  refine List.mem_of_getElem? (i := k - 1) ?_
  rw [List.getElem?_drop, Nat.add_comm, Nat.sub_add_cancel hk]; exact ht

/-- Test for the examples. -/
def FineTest (s0 : State Grid) : Prop := PhysTest s0.geo ∧ 0 ≤ s0.p.initialPsi ∧ s0.p.calibFlag = false

instance : DecidablePred FineTest := fun a => by unfold FineTest; infer_instance

theorem fine_check : Sample.okAnd (bmiInitialize Sample.env Sample.cfg) (fun a => decide (TieTest a ∧ FineTest a)) = true := by
  decide +kernel

/-- Test for the example with one layer. -/
def OneFine (a : State Grid × List (State Grid)) : Prop := OneTest a ∧ FineTest a.1

instance : DecidablePred OneFine := fun a => by unfold OneFine; infer_instance

theorem one_fine : Sample.okAnd (Sample.play cfg1 1000 true [(5, 0)]) (fun a => decide (OneFine a)) = true := by decide +kernel

attribute [local irreducible] Sample.env cfg1 Sample.play bmiInitialize in
example : ∃ (env : Env Grid) (lines : List (List Char)) (s0 s : State Grid) (hist : List (State Grid)),
    bmiInitialize env lines = .ok s0 ∧ PhysGeo s0.geo ∧ 0 ≤ s0.p.initialPsi ∧ s0.p.cum.Pairwise (· < ·) ∧ s0.p.numLayers = 1 ∧
      (s0.p.calibFlag = true → ∀ a, hist.head? = some a → PhysGeo a.geo) ∧ Run s0 hist s ∧ s.head.length = 2 := by
  obtain ⟨s0, hist, s, h1, h2, ⟨⟨t1, t2, t3, t4⟩, k1, k2, k3⟩, rfl⟩ := Sample.play_run one_fine
  exact ⟨_, _, s0, _, hist, h1, k1.phys, k2, t1, t2, fun h => absurd (k3.symm.trans h) (by simp), h2.run, t4 _ (Sample.last1 t3)⟩

/-- Test for the example of C56_move: the fronts move and a moisture changes. -/
def MoveTest (a : State Grid × List (State Grid)) : Prop :=
  OneFine a ∧ ∀ x ∈ a.2, Sample.okAnd (moveOnes 1000 x.geo (1/2) 0 1 x.head.length x.head x.head.length x.head 0)
    (fun r => decide (r.1.map (fun f => f.depth) ≠ x.head.map (fun f => f.depth))) = true

instance : DecidablePred MoveTest := fun a => by unfold MoveTest; infer_instance

theorem move_check : Sample.okAnd (Sample.play cfg1 1000 true [(5, 0)]) (fun a => decide (MoveTest a)) = true := by decide +kernel

attribute [local irreducible] Sample.env cfg1 Sample.play bmiInitialize in
example : ∃ (g : Geo Grid) (l : List (Front Grid)) (r : List (Front Grid) × Grid), PhysGeo g ∧ NumFrom 1 l ∧
    (∀ f ∈ l, 1 ≤ f.layer ∧ Bounded g f) ∧ moveOnes 1000 g (1/2) 0 1 l.length l l.length l 0 = .ok r ∧ l.length = 2 ∧
    r.1.map (fun f => f.depth) ≠ l.map (fun f => f.depth) := by
  obtain ⟨s0, hist, s, h1, h2, ⟨⟨⟨t1, t2, t3, t4⟩, k1, k2, k3⟩, m⟩, rfl⟩ := Sample.play_run move_check
  have hm := Sample.last1 (x := s0) t3
  have hf := run_fine_single h1 k1.phys k2 t1 t2 (fun h => absurd (k3.symm.trans h) (by simp)) h2.run
  have hp := (run_phys h2.run k1.phys (fun h => absurd (k3.symm.trans h) (by simp))
    (by obtain ⟨c, _, hi0, _⟩ := bmiInitialize_inv h1; exact lgarInit_valid hi0)).1
  obtain ⟨r, hr, hne⟩ := Sample.okAnd_exists (m _ hm)
  exact ⟨_, _, r, hp, hf.good.sound.num, hf.layer, hr, t4 _ hm, hne⟩

end LGAR
