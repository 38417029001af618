import Verif.Lemmas.ColumnRun
import Verif.Lemmas.Init
import Verif.Spec.SampleRun
/-
The column structure over whole runs.
-/
set_option linter.unusedSectionVars false
namespace LGAR

section LawFree
variable {α : Type} [Add α] [Sub α] [Mul α] [Div α] [Neg α] [Zero α] [One α] [OfScientific α]
  [LT α] [LE α] [DecidableLT α] [DecidableLE α] [BEq α] [CMath α]

/-- After Initialize: one flagged front at the bottom of every layer. -/
theorem col_init {N : Nat} {cum : List α} : ∀ {l : List (Front α)} {a : Nat}, l ≠ [] → a + l.length = N + 1 →
    (∀ i f, l[i]? = some f → f.layer = a + i ∧ f.toBottom = true ∧ cum[a + i]? = some f.depth) → Col N cum a l
  | [], _, h, _, _ => absurd rfl h
  | [f], a, _, hl, h => by
    obtain ⟨h1, h2, h3⟩ := h 0 f rfl
    simp only [List.length_cons, List.length_nil] at hl
    rw [col_single_iff]
    refine ⟨h1, by omega, h2, ?_⟩
    rw [h1]; exact h3
  | f :: g :: t, a, _, hl, h => by
    obtain ⟨h1, h2, h3⟩ := h 0 f rfl
    obtain ⟨h4, _, _⟩ := h 1 g rfl
    rw [col_cons_iff]
    simp only [Nat.add_zero] at h1 h3
    refine ⟨h1, .inr h4, ⟨fun _ => by omega, fun _ => h2⟩, fun _ => by rw [h1]; exact h3, ?_⟩
    rw [h4]
    refine col_init (by simp) (by simp only [List.length_cons] at hl ⊢; omega) ?_
    intro i f hf
    have := h (i + 1) f (by simpa using hf)
    rwa [show a + (i + 1) = a + 1 + i by omega] at this

theorem Col.initialize {env : Env α} {lines : List (List Char)} {s : State α} (h : bmiInitialize env lines = .ok s) :
    Col s.p.numLayers s.p.cum 1 s.head := by
  obtain ⟨hS, _⟩ := Sound.initialize h
  obtain ⟨c, _, h, hne⟩ := bmiInitialize_inv h
  obtain ⟨ts, file, fl, soils, cnt, thick, psi, dt, endt, wp, fc, res, ords, inv, giuh, soilZ, q, depth, vs, cs, _, _, _, _, _,
    hthick, _, _, _, _, _, _, _, _, _, _, _, _, _, hgeo, hhead, _, hlen, _, hs⟩ := lgarInit_inv h
  obtain ⟨h1, _, h2⟩ := initFronts_inv hhead
  refine col_init ?_ (by show 1 + _ = s.geo.numLayers + 1; omega) ?_
  · intro e
    obtain ⟨f, hf, _⟩ := hS.last
    rw [e] at hf; simp at hf
  · intro i f hf
    obtain ⟨s, th, c, ff, Se, K, _, _, hc, _, _, _, rfl⟩ := h2 i f hf
    rw [Nat.add_comm 1 i]
    exact ⟨rfl, rfl, hc⟩

end LawFree

section Exact
variable {K : Type} [Field K] [LinearOrder K] [IsStrictOrderedRing K] [CMath K] [LawfulNum K]

theorem Good.initialize {env : Env K} {lines : List (List Char)} {s : State K} (h : bmiInitialize env lines = .ok s) :
    Good s.geo s.head := ⟨(Sound.initialize h).1, Col.initialize h⟩

/-- One Update with any inputs. -/
theorem Good.step {s s1 s2 : State K} {fuel : Nat} {sa : Bool} (hg : Good s.geo s.head) (hinc : s.p.cum.Pairwise (· < ·))
    (hi : Inputs s s1) (ht : s.p.numLayers = 1 ∨ UpdateTieFree fuel sa s1) (hu : LGAR.update fuel sa s1 = .ok s2) :
    Good s2.geo s2.head ∧ s2.p.numLayers = s.p.numLayers ∧ s2.p.cum = s.p.cum := by
  obtain ⟨i1, _, _, _, _, i6, _, _, _, ip⟩ := hi.frame
  obtain ⟨e1, e2, _⟩ := update_fixed hu
  rw [ip] at e1 e2
  exact ⟨Good.update (by rw [i1, i6]; exact hg) (by rw [ip]; exact hinc) (ht.imp_left fun e => by rw [ip]; exact e) hu, e1, e2⟩

/-- The structure over tie-free runs. -/
theorem run_good {env : Env K} {lines : List (List Char)} {s0 s : State K} {hist : List (State K)}
    (h0 : bmiInitialize env lines = .ok s0) (hinc : s0.p.cum.Pairwise (· < ·)) (hr : TieFreeRun s0 hist s) :
    Good s.geo s.head ∧ s.p.numLayers = s0.p.numLayers ∧ s.p.cum = s0.p.cum := by
  induction hr with
  | nil => exact ⟨Good.initialize h0, rfl, rfl⟩
  | step _ hi ht hu ih =>
    obtain ⟨a, b, c⟩ := ih
    obtain ⟨g, e1, e2⟩ := a.step (by rw [c]; exact hinc) hi (.inr ht) hu
    exact ⟨g, by rw [e1, b], by rw [e2, c]⟩

/-- The structure over runs of single-layer columns. -/
theorem run_good_single {env : Env K} {lines : List (List Char)} {s0 s : State K} {hist : List (State K)}
    (h0 : bmiInitialize env lines = .ok s0) (hinc : s0.p.cum.Pairwise (· < ·)) (hN : s0.p.numLayers = 1)
    (hr : Run s0 hist s) : Good s.geo s.head ∧ s.p.numLayers = s0.p.numLayers ∧ s.p.cum = s0.p.cum := by
  induction hr with
  | nil => exact ⟨Good.initialize h0, rfl, rfl⟩
  | step _ hi hu ih =>
    obtain ⟨a, b, c⟩ := ih
    obtain ⟨g, e1, e2⟩ := a.step (by rw [c]; exact hinc) hi (.inl (by rw [b, hN])) hu
    exact ⟨g, by rw [e1, b], by rw [e2, c]⟩

theorem Good.column {g : Geo K} {l : List (Front K)} (h : Good g l) : Column g.numLayers g.cum l := (column_iff _ _ _).mpr h.col

theorem Good.bottom {g : Geo K} {l : List (Front K)} (h : Good g l) :
    ∃ f, l.getLast? = some f ∧ f.layer = g.numLayers ∧ f.toBottom = true ∧ f.dzdt = 0 ∧ g.cum[g.numLayers]? = some f.depth := by
  obtain ⟨f, h1, h2, h3, h4⟩ := h.sound.last
  obtain ⟨a, f', e, e1, e2, e3⟩ := h.col.last
  have : f' = f := by rw [e] at h1; simpa using h1
  subst this
  exact ⟨f', h1, h2, h3, h4, e3⟩

/-- C15 over whole runs: with layers of positive thickness, after Initialize and after any number of Updates with any inputs
the layers appear in order without gaps, exactly the last front of each layer is flagged, and the flagged fronts lie at the
layer bottoms.  Condition: no Update of the run tests a crossing while an unflagged front lies exactly on the bottom of an
inner layer (the structure can be lost then: C15_cross_stray_fails).  Missing for the full statement: those runs. -/
theorem C15_run_partial (env : Env K) (lines : List (List Char)) (s0 s : State K) (hist : List (State K))
    (h0 : bmiInitialize env lines = .ok s0) (hinc : s0.p.cum.Pairwise (· < ·)) (hr : TieFreeRun s0 hist s) :
    Column s0.p.numLayers s0.p.cum s.head := by
  obtain ⟨a, b, c⟩ := run_good h0 hinc hr
  rw [← b, ← c]
  exact a.column

/-- C15 for single-layer columns, all runs. -/
theorem C15_run_single_layer (env : Env K) (lines : List (List Char)) (s0 s : State K) (hist : List (State K))
    (h0 : bmiInitialize env lines = .ok s0) (hinc : s0.p.cum.Pairwise (· < ·)) (hN : s0.p.numLayers = 1)
    (hr : Run s0 hist s) : Column 1 s0.p.cum s.head := by
  obtain ⟨a, b, c⟩ := run_good_single h0 hinc hN hr
  rw [← hN, ← b, ← c]
  exact a.column

/-- C14 for single-layer columns, all runs. -/
theorem C14_bottom_depth_single_layer (env : Env K) (lines : List (List Char)) (s0 s : State K) (hist : List (State K))
    (h0 : bmiInitialize env lines = .ok s0) (hinc : s0.p.cum.Pairwise (· < ·)) (hN : s0.p.numLayers = 1)
    (hr : Run s0 hist s) :
    ∃ f, s.head.getLast? = some f ∧ f.layer = 1 ∧ f.toBottom = true ∧ f.dzdt = 0 ∧ s0.p.cum[1]? = some f.depth := by
  obtain ⟨a, b, c⟩ := run_good_single h0 hinc hN hr
  have := a.bottom
  rw [show s.geo.numLayers = 1 by rw [← hN, ← b]; rfl, show s.geo.cum = s0.p.cum from c] at this
  exact this

end Exact

/- Cases meeting the hypotheses. -/

instance (g : Geo Grid) (fuel : Nat) (dt precip : Grid) (nFd : Nat) (oldMass aet : Grid) (prev l : List (Front Grid)) :
    Decidable (MoveTieFree fuel g dt precip nFd oldMass aet prev l) := by unfold MoveTieFree; infer_instance
instance (g : Geo Grid) (ponded dry theta1 : Grid) (l : List (Front Grid)) : Decidable (CreateTieFree g ponded dry theta1 l) := by
  unfold CreateTieFree; infer_instance
instance (c : StepCfg Grid) (s : SubSt Grid) (b : Bool) (n : Nat) (x y z : Grid) : Decidable (FlowTieFree c s b n x y z) := by
  unfold FlowTieFree; infer_instance
instance (c : StepCfg Grid) (s : SubSt Grid) : Decidable (StepTieFree c s) := by unfold StepTieFree; infer_instance
instance decLoopTieFree (c : StepCfg Grid) : (n : Nat) → (s : SubSt Grid) → Decidable (LoopTieFree c n s)
  | 0, _ => isTrue trivial
  | n + 1, s =>
    have := decLoopTieFree c n
    inferInstanceAs (Decidable (StepTieFree c s ∧ Res.Holds (subStep c s) fun s' => LoopTieFree c n s'))
instance (fuel : Nat) (sa : Bool) (s : State Grid) : Decidable (UpdateTieFree fuel sa s) := by unfold UpdateTieFree; infer_instance

/-- Test for the example: the state after Initialize has rising layer bottoms, the Update is tie free and makes a new front. -/
def TieTest (s0 : State Grid) : Prop :=
  s0.p.cum.Pairwise (· < ·) ∧ s0.p.numLayers = 2 ∧ UpdateTieFree 1000 true (Sample.feed (5, 0) s0) ∧
    Sample.okAnd (update 1000 true (Sample.feed (5, 0) s0)) (fun s => s.head.length = 3) = true

instance : DecidablePred TieTest := fun a => by unfold TieTest; infer_instance

theorem tie_check : Sample.okAnd (bmiInitialize Sample.env Sample.cfg) (fun a => decide (TieTest a)) = true := by decide +kernel

attribute [local irreducible] Sample.env Sample.cfg bmiInitialize update in
example : ∃ (env : Env Grid) (lines : List (List Char)) (s0 s : State Grid) (hist : List (State Grid)),
    bmiInitialize env lines = .ok s0 ∧ s0.p.cum.Pairwise (· < ·) ∧ TieFreeRun s0 hist s ∧ s0.p.numLayers = 2 ∧
      hist.length = 1 ∧ s.head.length = 3 := by
  obtain ⟨s0, h0, h1, h2, h3, h4⟩ := Sample.okAnd_exists tie_check
  obtain ⟨s, hs, h5⟩ := Sample.okAnd_exists h4
  exact ⟨_, _, s0, s, _, h0, h1, TieFreeRun.step .nil ⟨_, _, _, _, rfl⟩ h3 hs, h2, rfl, h5⟩

/-- One layer. -/
def cfg1 : List (List Char) :=
  ["layer_thickness=30[cm]".toList, "layer_soil_type=1".toList, "soil_params_file=x".toList,
   "max_valid_soil_types=2".toList, "initial_psi=100[cm]".toList, "timestep=30[min]".toList, "endtime=5[hr]".toList,
   "forcing_resolution=60[min]".toList, "ponded_depth_max=2[cm]".toList, "use_closed_form_G=true".toList,
   "wilting_point_psi=15495.0[cm]".toList, "field_capacity_psi=340.9[cm]".toList, "giuh_ordinates=0.7,0.3".toList]

/-- Test for the example with one layer. -/
def OneTest (a : State Grid × List (State Grid)) : Prop :=
  a.1.p.cum.Pairwise (· < ·) ∧ a.1.p.numLayers = 1 ∧ a.2.length = 1 ∧ ∀ x ∈ a.2, x.head.length = 2

instance : DecidablePred OneTest := fun a => by unfold OneTest; infer_instance

theorem one_check : Sample.okAnd (Sample.play cfg1 1000 true [(5, 0)]) (fun a => decide (OneTest a)) = true := by decide +kernel

attribute [local irreducible] Sample.env cfg1 Sample.play bmiInitialize in
example : ∃ (env : Env Grid) (lines : List (List Char)) (s0 s : State Grid) (hist : List (State Grid)),
    bmiInitialize env lines = .ok s0 ∧ s0.p.cum.Pairwise (· < ·) ∧ s0.p.numLayers = 1 ∧ Run s0 hist s ∧ s.head.length = 2 := by
  obtain ⟨s0, hist, s, h1, h2, ⟨t1, t2, t3, t4⟩, rfl⟩ := Sample.play_run one_check
  exact ⟨_, _, s0, _, hist, h1, t1, t2, h2.run, t4 _ (Sample.last1 t3)⟩

end LGAR
