import Verif.Props.Count
import Verif.Props.Time
import Verif.Props.Safety
/-
C98: the integers of the model stay in the range of `int`.
-/
set_option linter.unusedSectionVars false
namespace LGAR

/-- A value of C++ type `int` (32 bits). -/
def IsInt (i : Int) : Prop := -2 ^ 31 ≤ i ∧ i < 2 ^ 31

/-- The variables of type `int` in the state: number of layers, fronts, sub-timesteps per Update, soil types, integration steps
and GIUH ordinates, the sub-timesteps made so far, the soil types of the layers and the numbers of the fronts. -/
def intsOf {α : Type} (s : State α) : List Int :=
  [(s.p.numLayers : Int), s.p.numWf, s.p.forcingInterval, s.p.numSoilTypes, s.p.nint, (s.numGiuh : Int), s.p.timesteps] ++
    s.p.layerSoilType.take (s.p.numLayers + 1) ++ s.head.map (fun f => f.front)

section Free
variable {α : Type} [Add α] [Sub α] [Mul α] [Div α] [Neg α] [Zero α] [One α] [OfScientific α]
  [LT α] [LE α] [DecidableLT α] [DecidableLE α] [BEq α] [CMath α]

theorem applyKey_numTypes {env : Env α} {c c' : Cfg α} {v u : List Char} {k : Key} (h : applyKey env c v u k = .ok c')
    (hc : ∀ n, c.numTypes = some n → n ≤ 15) : ∀ n, c'.numTypes = some n → n ≤ 15 := by
  cases k
  case numTypes =>
    simp only [applyKey, setNumTypes] at h
    split at h
    · cases h
    · simp only [Except.ok.injEq] at h
      subst h
      intro n hn
      simp only [Option.some.injEq] at hn
      omega
  case endtime =>
    simp only [applyKey, setEndtime] at h
    split at h
    · simp only [bind_ok_iff] at h
      obtain ⟨x, _, h⟩ := h
      split at h
      · cases h
      · simp only [bind_ok_iff, cassert_ok_iff, pure_eq_ok, Except.ok.injEq] at h
        obtain ⟨_, _, rfl⟩ := h; exact hc
    · split at h
      · cases h
      · simp only [bind_ok_iff, cassert_ok_iff, pure_eq_ok, Except.ok.injEq] at h
        obtain ⟨_, _, rfl⟩ := h; exact hc
  case soilFile => simp only [applyKey, Except.ok.injEq] at h; subst h; exact hc
  case timestep =>
    simp only [applyKey, bind_ok_iff, cassert_ok_iff, pure_eq_ok, Except.ok.injEq] at h
    obtain ⟨_, _, _, _, rfl⟩ := h; exact hc
  case forcingRes =>
    simp only [applyKey, bind_ok_iff, cassert_ok_iff, pure_eq_ok, Except.ok.injEq] at h
    obtain ⟨_, _, _, _, rfl⟩ := h; exact hc
  all_goals
    simp only [applyKey, bind_ok_iff, pure_eq_ok, Except.ok.injEq] at h
    obtain ⟨_, _, rfl⟩ := h
    exact hc

theorem readConfig_numTypes {env : Env α} : ∀ {lines : List (List Char)} {c c' : Cfg α}, readConfig env c lines = .ok c' →
    (∀ n, c.numTypes = some n → n ≤ 15) → ∀ n, c'.numTypes = some n → n ≤ 15
  | [], c, c', h, hc => by
    simp only [readConfig, Except.ok.injEq] at h; subst h; exact hc
  | line :: rest, c, c', h, hc => by
    unfold readConfig at h
    simp only [bind_ok_iff] at h
    obtain ⟨c1, h1, h⟩ := h
    refine readConfig_numTypes h ?_
    unfold configLine at h1
    split at h1
    · simp only [Except.ok.injEq] at h1; subst h1; exact hc
    · exact applyKey_numTypes h1 hc

/-- C98: after Initialize the number of soil types is at most 15, and the soil type of every layer lies between 0 and it. -/
theorem C98_soil_types (env : Env α) (lines : List (List Char)) (s0 : State α) (h0 : bmiInitialize env lines = .ok s0) :
    -1 ≤ s0.p.numSoilTypes ∧ s0.p.numSoilTypes ≤ 15 ∧
      ∀ k t, 1 ≤ k → k ≤ s0.p.numLayers → s0.p.layerSoilType[k]? = some t → 0 ≤ t ∧ t ≤ s0.p.numSoilTypes := by
  obtain ⟨c, hc, h, _⟩ := bmiInitialize_inv h0
  have hn := readConfig_numTypes hc (by simp)
  obtain ⟨ts, file, fl, soils, cnt, thick, psi, dt, endt, wp, fc, res, ords, inv, giuh, soilZ, q, depth, vs, cs, _, _, hlt, _, hsoil,
    _, _, _, _, _, _, _, _, _, _, _, _, _, _, hgeo, _, _, _, hcs, hs⟩ := lgarInit_inv h
  have e1 : s0.p.numSoilTypes = c.numTypes.getD 15 := by rw [hs]
  have e2 : s0.p.numLayers = thick.length := by rw [hs]
  have e3 : s0.p.layerSoilType = typeArray ts := by rw [hs]
  have h15 : c.numTypes.getD 15 ≤ 15 := by
    cases e : c.numTypes with
    | none => simp
    | some n => exact hn n e
  rw [e1, e2, e3]
  refine ⟨by omega, h15, fun k t h1 h2 ht => ?_⟩
  obtain ⟨so, hso⟩ := calibInit_soil hcs k h1 (by omega)
  rw [hgeo] at hso
  unfold Geo.soil at hso
  simp only [bind_ok_iff, idx_ok_iff] at hso
  obtain ⟨t', ht', hso⟩ := hso
  rw [ht, Option.some.injEq] at ht'
  subst ht'
  have hl := readSoilsGo_length hsoil
  simp only [List.length_replicate] at hl
  unfold idxI at hso
  split at hso
  · simp at hso
  · rw [idx_ok_iff] at hso
    have := (List.getElem?_eq_some_iff.mp hso).1
    omega

end Free

section Exact
variable {K : Type} [Field K] [LinearOrder K] [IsStrictOrderedRing K] [CMath K] [LawfulNum K] [LawfulInt K]

theorem onsets_le (a : State K) (l : List (State K)) : onsets a l ≤ l.length := by
  induction l generalizing a with
  | nil => simp [onsets]
  | cons b t ih =>
    rw [onsets, List.length_cons]
    have := ih b
    split <;> omega

/-- Conversion of at most `m` sub-timesteps (and a bit) to `int`. -/
theorem toInt_count {x : K} {m : Nat} (h0 : 0 ≤ x) (hx : x ≤ m) : 0 ≤ CMath.toInt (x + 1.0e-8) ∧ CMath.toInt (x + 1.0e-8) ≤ m := by
  obtain ⟨a, b⟩ := LawfulInt.toInt_nonneg (x + 1.0e-8) (by positivity)
  have h1 : ((-1 : Int) : K) < ((CMath.toInt (x + 1.0e-8) : Int) : K) := by push_cast; linarith
  have h2 : ((CMath.toInt (x + 1.0e-8) : Int) : K) < ((m + 1 : Int) : K) := by
    push_cast
    have : (1.0e-8 : K) < 1 := by norm_num
    linarith
  have h1 : (-1 : Int) < CMath.toInt (x + 1.0e-8) := by exact_mod_cast h1
  have h2 : CMath.toInt (x + 1.0e-8) < (m : Int) + 1 := by exact_mod_cast h2
  omega

/-- C98: if the forcing interval has at most `m` of the configured time steps, then after `n` Updates of any run: an Update makes
at most `m` sub-timesteps, `n m` have been made at most, and there are at most `n` fronts more than layers, numbered accordingly. -/
theorem C98_run (env : Env K) (lines : List (List Char)) (s0 s : State K) (hist : List (State K)) (m : Nat)
    (h0 : bmiInitialize env lines = .ok s0) (hr : Run s0 hist s) (hm : 1 ≤ m)
    (hres : s0.p.forcingResH ≤ m * s0.p.minTimestepH) :
    (0 ≤ s.p.forcingInterval ∧ s.p.forcingInterval ≤ m) ∧ (0 ≤ s.p.timesteps ∧ s.p.timesteps ≤ (hist.length * m : Nat)) ∧
      s.p.numWf = (s.head.length : Int) ∧ s.head.length ≤ s0.p.numLayers + hist.length ∧
      ∀ f ∈ s.head, 1 ≤ f.front ∧ f.front ≤ (s0.p.numLayers + hist.length : Nat) := by
  have hcount := (C69_run env lines s0 s hist h0 hr).trans (Nat.add_le_add_left (onsets_le s0 hist) _)
  obtain ⟨hsound, hnw, hrest⟩ := run_sound h0 hr
  have hfr : ∀ f ∈ s.head, 1 ≤ f.front ∧ f.front ≤ (s0.p.numLayers + hist.length : Nat) := fun f hf => by
    obtain ⟨a, b⟩ := hsound.num.mem_lt hf
    omega
  obtain ⟨_, _, _, _, _, ht0, htm⟩ := init_books h0
  have hm1 : (1 : K) ≤ m := by exact_mod_cast hm
  have key : (0 ≤ s.p.forcingInterval ∧ s.p.forcingInterval ≤ m) ∧ (0 ≤ s.p.timesteps ∧ s.p.timesteps ≤ (hist.length * m : Nat)) ∧
      s.p.forcingResH = s0.p.forcingResH ∧ s.p.minTimestepH = s0.p.minTimestepH ∧ s.p.invalidSoil = false ∧
      s.p.adaptive = s0.p.adaptive ∧ (s0.p.adaptive = false → s.p.timestepH = s0.p.minTimestepH) := by
    clear hcount hsound hnw hrest hfr
    induction hr with
    | nil =>
      obtain ⟨c, _, hc, _⟩ := bmiInitialize_inv h0
      have hv := lgarInit_valid hc
      obtain ⟨ts, file, fl, soils, cnt, thick, psi, dt, endt, wp, fc, res, ords, inv, giuh, soilZ, q, depth, vs, cs, _, _, _, _, _,
        _, _, _, _, _, _, _, _, _, _, _, _, hq, _, _, _, _, _, _, hs⟩ := lgarInit_inv hc
      have e1 : s0.p.forcingInterval = CMath.toInt (q + 1.0e-8) := by rw [hs]
      have e2 : s0.p.forcingResH = res := by rw [hs]
      have e3 : s0.p.minTimestepH = dt := by rw [hs]
      have e4 : s0.p.timestepH = dt := by rw [hs]
      rw [cdiv_ok] at hq
      have hd : 0 < dt := by rw [← e3]; exact htm.mn
      have hr0 : 0 < res := by rw [← e2]; exact htm.res
      rw [e2, e3] at hres
      refine ⟨?_, by rw [ht0]; simp, rfl, rfl, hv, rfl, fun _ => by rw [e4, e3]⟩
      rw [e1, hq.2]
      exact toInt_count (by positivity) (by rw [div_le_iff₀ hd]; exact hres)
    | @step hist s s1 s2 fuel sa _ hi hu ih =>
      obtain ⟨_, ⟨t1, t2⟩, i3, i4, i5, i6, i7⟩ := ih
      obtain ⟨_, _, _, _, _, _, _, _, _, ip⟩ := hi.frame
      have e1 : s1.p.invalidSoil = s.p.invalidSoil := by rw [ip]
      have e2 : s1.p.adaptive = s.p.adaptive := by rw [ip]
      have e3 : s1.p.forcingResH = s.p.forcingResH := by rw [ip]
      have e4 : s1.p.minTimestepH = s.p.minTimestepH := by rw [ip]
      have e5 : s1.p.timestepH = s.p.timestepH := by rw [ip]
      have e6 : s1.p.timesteps = s.p.timesteps := by rw [ip]
      obtain ⟨_, _, _, u1, u2, u3, _, _, u4, _⟩ := update_fixed hu
      have hv1 : s1.p.invalidSoil = false := by rw [e1, i5]
      obtain ⟨k, n, hkn, _, hn, hd, hd0, hfi, hts, _⟩ := update_time hv1 hu
      have hfix : s0.p.adaptive = false → s2.p.timestepH = s0.p.minTimestepH := fun had => by
        rw [hd, chooseTimestep, if_neg (by rw [e2, i6, had]; simp), e5, i7 had]
      have hmn : 0 < s0.p.minTimestepH := htm.mn
      have hre : 0 < s0.p.forcingResH := htm.res
      have hle : s0.p.forcingResH ≤ m * s2.p.timestepH ∧ 0 < s2.p.timestepH := by
        cases had : s0.p.adaptive with
        | false => rw [hfix had]; exact ⟨hres, hmn⟩
        | true =>
          obtain ⟨_, _, c3⟩ := C35_adaptive_bounds fuel sa s1 s2 hv1 (by rw [e2, i6, had]) (by rw [e4, i4]; exact hmn) hu
          rw [e3, i3, e4, i4] at c3
          rcases c3 with c | c | c <;> rw [c]
          · exact ⟨hres, hmn⟩
          · exact ⟨by nlinarith, by positivity⟩
          · exact ⟨by nlinarith, hre⟩
      have hint : 0 ≤ s2.p.forcingInterval ∧ s2.p.forcingInterval ≤ m := by
        rw [hfi, e3, i3]
        exact toInt_count (div_nonneg hre.le hle.2.le) (by rw [div_le_iff₀ hle.2]; exact hle.1)
      refine ⟨hint, ?_, by rw [u2, e3, i3], by rw [u3, e4, i4], by rw [u1, hv1], by rw [u4, e2, i6], hfix⟩
      rw [hts, e6, List.length_append, List.length_singleton]
      have hkm : (k : Int) ≤ m := by omega
      push_cast at t2 ⊢
      constructor
      · omega
      · nlinarith
  exact ⟨key.1, key.2.1, hnw, hcount, hfr⟩

/-- The integers that no Update changes. -/
theorem run_ints {s0 s : State K} {hist : List (State K)} (hr : Run s0 hist s) :
    s.p.numLayers = s0.p.numLayers ∧ s.p.layerSoilType = s0.p.layerSoilType ∧ s.p.nint = s0.p.nint ∧ s.numGiuh = s0.numGiuh ∧
      s.p.numSoilTypes = s0.p.numSoilTypes := by
  induction hr with
  | nil => exact ⟨rfl, rfl, rfl, rfl, rfl⟩
  | @step hist s s1 s2 fuel sa _ hi hu ih =>
    obtain ⟨i1, i2, i3, i4, i5⟩ := ih
    have e : s1.p.numLayers = s.p.numLayers ∧ s1.p.layerSoilType = s.p.layerSoilType ∧ s1.p.nint = s.p.nint ∧
        s1.numGiuh = s.numGiuh ∧ s1.p.numSoilTypes = s.p.numSoilTypes := by
      obtain ⟨_, _, _, _, rfl⟩ := hi; exact ⟨rfl, rfl, rfl, rfl, rfl⟩
    obtain ⟨e1, e2, e3, e4, e5⟩ := e
    obtain ⟨u1, _, u2, _, _, _, _, _, _, _, _, u4, _, _, _, u3, _⟩ := update_fixed hu
    have u5 : s2.p.numSoilTypes = s1.p.numSoilTypes := by
      rcases update_inv hu with ⟨_, rfl⟩ | ⟨_, s3, d, v, u, h1, _, _, h2⟩
      · rfl
      · obtain ⟨_, _, _, _, _, _, _, _, _, _, _, _, hp, _⟩ := updatePost_inv h2
        obtain ⟨_, _, fs, soils, l, fc, pm, q, _, rfl, _⟩ := updatePre_inv h1
        rw [hp]
    exact ⟨by rw [u1, e1, i1], by rw [u2, e2, i2], by rw [u3, e3, i3], by rw [u4, e4, i4], by rw [u5, e5, i5]⟩

/-- C98: as long as the forcing interval has at most `m` of the configured time steps, the number of Updates times `m`, and plus
the number of layers, is below 2^31, and the number of GIUH ordinates is as well, every `int` of the model holds its value.
Partial: the full claim is about every configuration (C98_interval_fails) and runs of every length; `int`s that live only within
an Update are not covered. -/
theorem C98_in_range_partial (env : Env K) (lines : List (List Char)) (s0 s : State K) (hist : List (State K)) (m : Nat)
    (h0 : bmiInitialize env lines = .ok s0) (hr : Run s0 hist s) (hm : 1 ≤ m)
    (hres : s0.p.forcingResH ≤ m * s0.p.minTimestepH) (hm2 : m < 2 ^ 31) (hsteps : hist.length * m < 2 ^ 31)
    (hfronts : s0.p.numLayers + hist.length < 2 ^ 31) (hg : s0.numGiuh < 2 ^ 31) : ∀ i ∈ intsOf s, IsInt i := by
  obtain ⟨⟨a1, a2⟩, ⟨b1, b2⟩, c1, c2, d⟩ := C98_run env lines s0 s hist m h0 hr hm hres
  obtain ⟨e1, e2, e3, e4, e5⟩ := run_ints hr
  obtain ⟨f1, f2, f3⟩ := C98_soil_types env lines s0 h0
  have hn : s0.p.nint = 120 ∧ s0.p.layerSoilType[0]? = some 0 := by
    obtain ⟨c, _, hc, _⟩ := bmiInitialize_inv h0
    obtain ⟨ts, file, fl, soils, cnt, thick, psi, dt, endt, wp, fc, res, ords, inv, giuh, soilZ, q, depth, vs, cs, _, _, _, _, _,
      _, _, _, _, _, _, _, _, _, _, _, _, _, _, _, _, _, _, _, hs⟩ := lgarInit_inv hc
    rw [hs]; exact ⟨rfl, rfl⟩
  intro i hi
  simp only [intsOf, List.mem_append, List.mem_cons, List.not_mem_nil, or_false, List.mem_map] at hi
  unfold IsInt
  rcases hi with ((rfl | rfl | rfl | rfl | rfl | rfl | rfl) | hi) | ⟨f, hf, rfl⟩
  · rw [e1]; omega
  · rw [c1]; omega
  · omega
  · rw [e5]; omega
  · rw [e3, hn.1]; omega
  · rw [e4]; omega
  · omega
  · rw [e1, e2] at hi
    obtain ⟨k, hk⟩ := List.mem_iff_getElem?.mp hi
    rw [List.getElem?_take] at hk
    split at hk
    · rcases Nat.eq_zero_or_pos k with rfl | hpos
      · rw [hn.2, Option.some.injEq] at hk; omega
      · have := f3 k i hpos (by omega) hk
        omega
    · cases hk
  · have := d f hf
    omega

end Exact

section Witness

/-- A time step of a microsecond with hourly forcing. -/
def cfgTiny : List (List Char) := Sample.cfg.set 5 "timestep=0.000001[s]".toList

/-- C98 fails: with that time step the number of sub-timesteps per Update, 3600000000, does not fit an `int`. -/
theorem C98_interval_fails : ∃ s, bmiInitialize Sample.env cfgTiny = .ok s ∧ (2 : Int) ^ 31 ≤ s.p.forcingInterval ∧
    ¬ IsInt s.p.forcingInterval := by
  obtain ⟨s, h, h1⟩ := Sample.okAnd_exists (x := bmiInitialize Sample.env cfgTiny)
    (p := fun s => (2 : Int) ^ 31 ≤ s.p.forcingInterval) (by decide +kernel)
  exact ⟨s, h, h1, fun h2 => absurd h2.2 (not_lt.mpr h1)⟩

/-- Non-vacuity: the sample run, two sub-timesteps per Update, one Update with rain. -/
def SmallInts (a : State Grid × List (State Grid)) : Prop :=
  a.1.p.forcingResH ≤ (2 : Nat) * a.1.p.minTimestepH ∧ a.1.p.numLayers = 2 ∧ a.1.numGiuh = 2 ∧ a.2.length = 1 ∧
    ∀ x ∈ a.2, x.p.timesteps = 2 ∧ x.head.length = 3

instance : DecidablePred SmallInts := fun a => by unfold SmallInts; infer_instance

theorem smallInts_check : Sample.okAnd (Sample.play Sample.cfg 1000 false [(5, 0)]) (fun a => decide (SmallInts a)) = true := by
  decide +kernel

attribute [local irreducible] Sample.env Sample.cfg Sample.play bmiInitialize in
example : ∃ s0 hist s, bmiInitialize Sample.env Sample.cfg = .ok s0 ∧ Run s0 hist s ∧ hist.length = 1 ∧
    s0.p.forcingResH ≤ (2 : Nat) * s0.p.minTimestepH ∧ hist.length * 2 < 2 ^ 31 ∧ s0.p.numLayers + hist.length < 2 ^ 31 ∧
    s0.numGiuh < 2 ^ 31 ∧ s.head.length = 3 := by
  obtain ⟨s0, hist, s, h1, h2, ⟨l1, l2, l3, l4, l5⟩, rfl⟩ := Sample.play_run smallInts_check
  have l4' : hist.length = 1 := l4
  have l2' : s0.p.numLayers = 2 := l2
  have l3' : s0.numGiuh = 2 := l3
  refine ⟨s0, hist, _, h1, h2.run, l4, l1, by omega, by omega, by omega, (l5 _ (Sample.last1 l4)).2⟩

end Witness
end LGAR
