import Verif.Props.Update
/-
BMI queries and access (C42, C43, C44, C45, C60).
-/
set_option linter.unusedSectionVars false
namespace LGAR

/-- The variables of the model: name, the object behind it, number of the grid (specification table). -/
def Ref.spec : Ref → String × Int
  | .precipRate => ("precipitation_rate", 1)
  | .precip => ("precipitation", 1)
  | .petRate => ("potential_evapotranspiration_rate", 1)
  | .pet => ("potential_evapotranspiration", 1)
  | .aet => ("actual_evapotranspiration", 1)
  | .runoff => ("surface_runoff", 1)
  | .giuh => ("giuh_runoff", 1)
  | .storage => ("soil_storage", 1)
  | .Q => ("total_discharge", 1)
  | .infil => ("infiltration", 1)
  | .rech => ("percolation", 1)
  | .Qgw => ("groundwater_to_stream_recharge", 1)
  | .massBalance => ("mass_balance", 1)
  | .cum => ("soil_depth_layers", 2)
  | .moistureWf => ("soil_moisture_wetting_fronts", 3)
  | .depthWf => ("soil_depth_wetting_fronts", 3)
  | .numWf => ("soil_num_wetting_fronts", 0)
  | .soilTemp => ("soil_temperature_profile", 4)
  | .calThetaE => ("smcmax", 2)
  | .calThetaR => ("smcmin", 2)
  | .calVgN => ("van_genuchten_n", 2)
  | .calVgAlpha => ("van_genuchten_alpha", 2)
  | .calKsat => ("hydraulic_conductivity", 2)
  | .calPondMax => ("ponded_depth_max", 1)
  | .calFcPsi => ("field_capacity", 1)

/-- All objects. -/
def Ref.all : List Ref :=
  [.precipRate, .precip, .petRate, .pet, .aet, .runoff, .giuh, .storage, .Q, .infil, .rech, .Qgw, .massBalance, .cum, .moistureWf,
   .depthWf, .numWf, .soilTemp, .calThetaE, .calThetaR, .calVgN, .calVgAlpha, .calKsat, .calPondMax, .calFcPsi]

theorem Ref.mem_all (r : Ref) : r ∈ Ref.all := by cases r <;> decide

theorem valuePtr_spec (r : Ref) : valuePtr r.spec.1 = .ok r ∧ varGrid r.spec.1 = r.spec.2 := by cases r <;> decide +kernel

theorem valuePtr_unknown {n : String} (h : ∀ r : Ref, n ≠ r.spec.1) : valuePtr n = .error (.throw "variable does not exist") := by
  have k : ∀ r ∈ Ref.all, n ≠ r.spec.1 := fun r _ => h r
  simp only [Ref.all, Ref.spec, List.mem_cons, List.not_mem_nil, or_false, forall_eq_or_imp, forall_eq] at k
  unfold valuePtr
  simp [k]

theorem valuePtr_name {n : String} {r : Ref} (h : valuePtr n = .ok r) : n = r.spec.1 := by
  by_cases hq : ∃ q : Ref, n = q.spec.1
  · obtain ⟨q, rfl⟩ := hq
    rw [(valuePtr_spec q).1, Except.ok.injEq] at h
    rw [h]
  · rw [valuePtr_unknown (fun q e => hq ⟨q, e⟩)] at h
    simp at h

/-- Number of array entries. -/
def Data.size {α : Type} : Data α → Nat
  | .ints l => l.length
  | .dbls l => l.length

/-- The first `n` entries. -/
def Data.take {α : Type} (n : Nat) : Data α → Data α
  | .ints l => .ints (l.take n)
  | .dbls l => .dbls (l.take n)

/-- Is it an array of `int`? -/
def Data.isInt {α : Type} : Data α → Bool
  | .ints _ => true
  | .dbls _ => false

section Free
variable {α : Type} [Add α] [Sub α] [Mul α] [Div α] [Neg α] [Zero α] [One α] [OfScientific α]
  [LT α] [LE α] [DecidableLT α] [DecidableLE α] [BEq α] [CMath α]

theorem memcpyCount_eq {g sz : Int} {n : Nat} (hs : 0 < sz) : memcpyCount (sz * g) sz = .ok n ↔ g = (n : Int) := by
  unfold memcpyCount
  constructor
  · intro h
    split at h
    · simp at h
    · rename_i hn
      simp only [Except.ok.injEq] at h
      rw [Int.mul_ediv_cancel_left _ (by omega)] at h
      have : 0 ≤ g := by
        by_contra hg
        exact hn (Int.mul_neg_of_pos_of_neg hs (by omega))
      omega
  · rintro rfl
    have h0 : 0 ≤ sz * (n : Int) := Int.mul_nonneg (by omega) (by omega)
    have : ¬ sz * (n : Int) < 0 := by omega
    rw [if_neg this, Int.mul_ediv_cancel_left _ (by omega)]
    simp

theorem varItemsize_spec (r : Ref) : varItemsize r.spec.1 = if r.spec.2 = 0 then 4 else 8 := by
  cases r <;> decide +kernel

theorem load_isInt (s : State α) (r : Ref) : (r.load s).isInt = decide (r.spec.2 = 0) := by cases r <;> rfl

theorem getValue_ok {s : State α} {n : String} {d : Data α} :
    getValue s n = .ok d ↔ ∃ r : Ref, n = r.spec.1 ∧ ∃ k : Nat, gridSize s r.spec.2 = (k : Int) ∧ k ≤ (r.load s).size ∧
      d = (r.load s).take k := by
  have hsz : ∀ r : Ref, 0 < varItemsize r.spec.1 := fun r => by rw [varItemsize_spec]; split <;> decide
  constructor
  · intro h
    unfold getValue at h
    simp only [bind_ok_iff] at h
    obtain ⟨r, hr, k, hk, h⟩ := h
    have hn := valuePtr_name hr
    subst hn
    unfold varNbytes at hk
    rw [memcpyCount_eq (hsz r), (valuePtr_spec r).2] at hk
    refine ⟨r, rfl, k, hk, ?_⟩
    split at h
    · rename_i l hl
      simp only [bind_ok_iff, pure_eq_ok, Except.ok.injEq] at h
      obtain ⟨v, hv, rfl⟩ := h
      unfold readN at hv
      split at hv
      · simp only [Except.ok.injEq] at hv; subst hv
        rw [hl]; exact ⟨by simpa [Data.size], rfl⟩
      · simp at hv
    · rename_i l hl
      simp only [bind_ok_iff, pure_eq_ok, Except.ok.injEq] at h
      obtain ⟨v, hv, rfl⟩ := h
      unfold readN at hv
      split at hv
      · simp only [Except.ok.injEq] at hv; subst hv
        rw [hl]; exact ⟨by simpa [Data.size], rfl⟩
      · simp at hv
  · rintro ⟨r, rfl, k, hk, hle, rfl⟩
    unfold getValue
    rw [(valuePtr_spec r).1, ok_bind]
    have : memcpyCount (varNbytes s r.spec.1) (varItemsize r.spec.1) = .ok k := by
      unfold varNbytes
      rw [memcpyCount_eq (hsz r), (valuePtr_spec r).2]; exact hk
    rw [this, ok_bind]
    cases hl : r.load s with
    | ints l => rw [hl] at hle; simp only [Data.size] at hle; simp [readN, hle, Data.take, ok_bind, pure_eq_ok]
    | dbls l => rw [hl] at hle; simp only [Data.size] at hle; simp [readN, hle, Data.take, ok_bind, pure_eq_ok]

/-- Replace the object behind a reference. -/
def Ref.store (s : State α) (r : Ref) : Data α → State α
  | .ints l => r.storeI s l
  | .dbls l => r.storeD s l

theorem store_other (s : State α) (r q : Ref) (d : Data α) (h : q ≠ r) : q.load (r.store s d) = q.load s := by
  cases d <;> cases r <;> first | (cases q <;> first | rfl | exact absurd rfl h)

theorem store_same (s : State α) (r : Ref) (d : Data α) (h1 : d.isInt = (r.load s).isInt) (h2 : d.size = (r.load s).size) :
    r.load (r.store s d) = d := by
  cases d <;> cases r <;> first | rfl | (simp [Data.isInt, Ref.load] at h1; done) |
    (simp only [Data.size, Ref.load, List.length_singleton] at h2
     obtain ⟨x, rfl⟩ := List.length_eq_one_iff.mp h2
     rfl)

theorem store_gridSize (s : State α) (r : Ref) (d : Data α) (g : Int) (h1 : d.isInt = (r.load s).isInt) (h2 : d.size = (r.load s).size)
    (h : r ≠ .numWf ∨ g ≠ 3) : gridSize (r.store s d) g = gridSize s g := by
  unfold gridSize
  cases d <;> cases r <;> first | rfl | (simp [Data.isInt, Ref.load] at h1; done) |
    (simp only [Data.size, Ref.load] at h2; simp [Ref.store, Ref.storeD, h2]; done) |
    (simp at h; simp [h, Ref.store, Ref.storeI])

theorem setValue_ok {s s' : State α} {n : String} {d : Data α} (h : setValue s n d = .ok s') :
    ∃ r : Ref, n = r.spec.1 ∧ ∃ k : Nat, gridSize s r.spec.2 = (k : Int) ∧ k ≤ (r.load s).size ∧ k ≤ d.size ∧ d.isInt = (r.load s).isInt ∧
      ∃ e, s' = r.store s e ∧ e.isInt = (r.load s).isInt ∧ e.size = (r.load s).size ∧ e.take k = d.take k := by
  have hsz : ∀ r : Ref, 0 < varItemsize r.spec.1 := fun r => by rw [varItemsize_spec]; split <;> decide
  unfold setValue at h
  simp only [bind_ok_iff] at h
  obtain ⟨r, hr, k, hk, h⟩ := h
  have hn := valuePtr_name hr
  subst hn
  unfold varNbytes at hk
  rw [memcpyCount_eq (hsz r), (valuePtr_spec r).2] at hk
  refine ⟨r, rfl, k, hk, ?_⟩
  split at h
  · rename_i l v hl
    simp only [bind_ok_iff, pure_eq_ok, Except.ok.injEq] at h
    obtain ⟨w, hw, rfl⟩ := h
    unfold writeN at hw
    split at hw
    · rename_i hle
      simp only [Except.ok.injEq] at hw; subst hw
      rw [hl]
      refine ⟨hle.1, hle.2, rfl, .ints _, rfl, rfl, ?_, ?_⟩
      · simp only [Data.size, List.length_append, List.length_take, List.length_drop]; omega
      · simp only [Data.take, Data.ints.injEq]
        rw [List.take_append_of_le_length (by simp; omega), List.take_take, Nat.min_self]
    · simp at hw
  · rename_i l v hl
    simp only [bind_ok_iff, pure_eq_ok, Except.ok.injEq] at h
    obtain ⟨w, hw, rfl⟩ := h
    unfold writeN at hw
    split at hw
    · rename_i hle
      simp only [Except.ok.injEq] at hw; subst hw
      rw [hl]
      refine ⟨hle.1, hle.2, rfl, .dbls _, rfl, rfl, ?_, ?_⟩
      · simp only [Data.size, List.length_append, List.length_take, List.length_drop]; omega
      · simp only [Data.take, Data.dbls.injEq]
        rw [List.take_append_of_le_length (by simp; omega), List.take_take, Nat.min_self]
    · simp at hw
  · simp at h

/-- C42: whatever SetValue accepted, GetValue gives back: as many entries of the source as the variable's grid has. -/
theorem C42_round_trip (s s' : State α) (n : String) (d : Data α) (h : setValue s n d = .ok s') :
    getValue s' n = .ok (d.take (gridSize s (varGrid n)).toNat) := by
  obtain ⟨r, rfl, k, hk, hle, hle2, hi, e, rfl, e1, e2, e3⟩ := setValue_ok h
  rw [(valuePtr_spec r).2, hk, Int.toNat_natCast, getValue_ok]
  refine ⟨r, rfl, k, ?_, ?_, ?_⟩
  · rw [store_gridSize _ _ _ _ e1 e2 ?_, hk]
    by_cases hn : r = .numWf
    · right; subst hn; decide
    · exact .inl hn
  · rw [store_same _ _ _ e1 e2, e2]; exact hle
  · rw [store_same _ _ _ e1 e2, e3]

/-- C42, non-interference: SetValue changes no other variable; only the number of wetting fronts is also the size of the two
wetting-front arrays. -/
theorem C42_others (s s' : State α) (n m : String) (d : Data α) (h : setValue s n d = .ok s') (hm : m ≠ n)
    (hw : n = "soil_num_wetting_fronts" → varGrid m ≠ 3) (d' : Data α) : getValue s m = .ok d' ↔ getValue s' m = .ok d' := by
  obtain ⟨r, rfl, k, hk, hle, hle2, hi, e, rfl, e1, e2, e3⟩ := setValue_ok h
  rw [getValue_ok, getValue_ok]
  have key : ∀ q : Ref, m = q.spec.1 → q.load (r.store s e) = q.load s ∧ gridSize (r.store s e) q.spec.2 = gridSize s q.spec.2 := by
    rintro q rfl
    have hq : q ≠ r := by rintro rfl; exact hm rfl
    refine ⟨store_other _ _ _ _ hq, store_gridSize _ _ _ _ e1 e2 ?_⟩
    by_cases hn : r = .numWf
    · right; subst hn; rw [(valuePtr_spec q).2] at hw; exact hw rfl
    · exact .inl hn
  constructor
  · rintro ⟨q, hq, k', h1, h2, h3⟩
    obtain ⟨a, b⟩ := key q hq
    exact ⟨q, hq, k', by rw [b, h1], by rw [a]; exact h2, by rw [a, h3]⟩
  · rintro ⟨q, hq, k', h1, h2, h3⟩
    obtain ⟨a, b⟩ := key q hq
    exact ⟨q, hq, k', by rw [← b, h1], by rw [← a]; exact h2, by rw [← a, h3]⟩

/-- C42: SetValue of an input or calibration variable is one of the input changes of the run-level theorems. -/
theorem C42_inputs (s s' : State α) (n : String) (d : Data α) (hn : n ∈ inputVarNames ++ calibVarNames)
    (h : setValue s n d = .ok s') : Inputs s s' := by
  obtain ⟨r, rfl, k, hk, hle, hle2, hi, e, rfl, e1, e2, e3⟩ := setValue_ok h
  have hr : r ∈ [Ref.precipRate, .petRate, .soilTemp, .calThetaE, .calThetaR, .calVgN, .calVgAlpha, .calKsat, .calFcPsi, .calPondMax] := by
    revert hn; clear hle hle2 hi e1 e2 e3 h hk
    cases r <;> decide
  simp only [List.mem_cons, List.not_mem_nil, or_false] at hr
  cases e with
  | ints l => rcases hr with rfl | rfl | rfl | rfl | rfl | rfl | rfl | rfl | rfl | rfl <;> simp [Data.isInt, Ref.load] at e1
  | dbls l =>
    rcases hr with rfl | rfl | rfl | rfl | rfl | rfl | rfl | rfl | rfl | rfl
    · exact ⟨l.headD s.precipMm, s.petMm, s.p.soilTemp, s.calib, rfl⟩
    · exact ⟨s.precipMm, l.headD s.petMm, s.p.soilTemp, s.calib, rfl⟩
    · exact ⟨s.precipMm, s.petMm, l, s.calib, rfl⟩
    · exact ⟨s.precipMm, s.petMm, s.p.soilTemp, _, rfl⟩
    · exact ⟨s.precipMm, s.petMm, s.p.soilTemp, _, rfl⟩
    · exact ⟨s.precipMm, s.petMm, s.p.soilTemp, _, rfl⟩
    · exact ⟨s.precipMm, s.petMm, s.p.soilTemp, _, rfl⟩
    · exact ⟨s.precipMm, s.petMm, s.p.soilTemp, _, rfl⟩
    · exact ⟨s.precipMm, s.petMm, s.p.soilTemp, _, rfl⟩
    · exact ⟨s.precipMm, s.petMm, s.p.soilTemp, _, rfl⟩

/-- A history of BMI calls of any length: Updates, and SetValue of input and calibration variables. -/
inductive Calls (s0 : State α) : State α → Prop
  | nil : Calls s0 s0
  | update {s s' : State α} {fuel : Nat} {sa : Bool} : Calls s0 s → update fuel sa s = .ok s' → Calls s0 s'
  | set {s s' : State α} {n : String} {d : Data α} : Calls s0 s → n ∈ inputVarNames ++ calibVarNames →
      setValue s n d = .ok s' → Calls s0 s'

theorem Inputs.refl (s : State α) : Inputs s s := ⟨s.precipMm, s.petMm, s.p.soilTemp, s.calib, rfl⟩

theorem Inputs.trans {a b c : State α} (h1 : Inputs a b) (h2 : Inputs b c) : Inputs a c := by
  obtain ⟨_, _, _, _, rfl⟩ := h1
  obtain ⟨pr, pet, temp, cal, rfl⟩ := h2
  exact ⟨pr, pet, temp, cal, rfl⟩

/-- Every history of calls is a run of Updates followed by a last choice of inputs: the run-level theorems apply to it. -/
theorem Calls.run {s0 s : State α} (h : Calls s0 s) : ∃ hist s1, Run s0 hist s1 ∧ Inputs s1 s := by
  induction h with
  | nil => exact ⟨[], s0, .nil, Inputs.refl _⟩
  | update _ hu ih =>
    obtain ⟨hist, s1, hr, hi⟩ := ih
    exact ⟨_, _, .step hr hi hu, Inputs.refl _⟩
  | set _ hn hs ih =>
    obtain ⟨hist, s1, hr, hi⟩ := ih
    exact ⟨hist, s1, hr, hi.trans (C42_inputs _ _ _ _ hn hs)⟩

theorem load_sizes {env : Env α} {lines : List (List Char)} {s0 s : State α} (h0 : bmiInitialize env lines = .ok s0)
    (h : Calls s0 s) (r : Ref) : gridSize s r.spec.2 ≤ ((r.load s).size : Int) ∧ 0 ≤ gridSize s r.spec.2 := by
  obtain ⟨c, _, hc, _⟩ := bmiInitialize_inv h0
  have key : s.p.cum.length = s.p.numLayers + 1 ∧ s.calib.thetaE.length = s.p.numLayers ∧ s.calib.thetaR.length = s.p.numLayers ∧
      s.calib.vgN.length = s.p.numLayers ∧ s.calib.vgAlpha.length = s.p.numLayers ∧ s.calib.Ksat.length = s.p.numLayers := by
    induction h with
    | nil =>
      obtain ⟨ts, file, fl, soils, cnt, thick, psi, dt, endt, wp, fc, res, ords, inv, giuh, soilZ, q, depth, vs, cs, _, _, _, _, _,
        _, _, _, _, _, _, _, _, _, _, _, _, _, _, _, _, _, _, hcs, hs⟩ := lgarInit_inv hc
      rw [hs]
      have hl := calibInit_length hcs
      simp [hl, cumThickness_length]
    | update _ hu ih =>
      obtain ⟨e1, e2, _, _, _, _, _, _, _, _, e3, _⟩ := update_fixed hu
      rw [e1, e2, e3]; exact ih
    | @set s s' n d _ hn hs ih =>
      obtain ⟨r, rfl, k, hk, hle, hle2, hi, e, rfl, e1, e2, e3⟩ := setValue_ok hs
      have hr : r ∈ [Ref.precipRate, .petRate, .soilTemp, .calThetaE, .calThetaR, .calVgN, .calVgAlpha, .calKsat, .calFcPsi, .calPondMax] := by
        revert hn; clear hle hle2 hi e1 e2 e3 hs hk
        cases r <;> decide
      simp only [List.mem_cons, List.not_mem_nil, or_false] at hr
      cases e with
      | ints l => rcases hr with rfl | rfl | rfl | rfl | rfl | rfl | rfl | rfl | rfl | rfl <;> simp [Data.isInt, Ref.load] at e1
      | dbls l =>
        obtain ⟨i1, i2, i3, i4, i5, i6⟩ := ih
        rcases hr with rfl | rfl | rfl | rfl | rfl | rfl | rfl | rfl | rfl | rfl <;>
          simp only [Data.size, Ref.load] at e2 <;> simp only [Ref.store, Ref.storeD] <;>
          refine ⟨?_, ?_, ?_, ?_, ?_, ?_⟩ <;> first | assumption | (rw [e2]; assumption)
  obtain ⟨hist, s1, hr, hi⟩ := h.run
  obtain ⟨m1, m2, m3⟩ := C46_mirror_run env lines s0 s1 hist h0 hr
  obtain ⟨f1, _, _, _, _, _, _, _, _, ip⟩ := hi.frame
  have mw : (s.p.moistureWf.length : Int) = s.p.numWf ∧ (s.p.depthWf.length : Int) = s.p.numWf := by
    rw [ip]; simp [m1, m2, m3]
  obtain ⟨k1, k2, k3, k4, k5, k6⟩ := key
  obtain ⟨w1, w2⟩ := mw
  cases r <;> simp only [Ref.spec, gridSize, Ref.load, Data.size] <;> simp [k1, k2, k3, k4, k5, k6, ← w1] <;> omega

/-- C43, types: item size, type string and grid agree for every string, and every grid that occurs has rank 1. -/
theorem C43_types (n : String) : (varType n = "int" ∧ varItemsize n = 4 ∧ gridRank (varGrid n) = 1) ∨
    (varType n = "double" ∧ varItemsize n = 8 ∧ gridRank (varGrid n) = 1) ∨
    (varType n = "none" ∧ varItemsize n = 0 ∧ gridRank (varGrid n) = -1 ∧ varGrid n = -1) := by
  have hg : varGrid n = 0 ∨ varGrid n = 1 ∨ varGrid n = 2 ∨ varGrid n = 3 ∨ varGrid n = 4 ∨ varGrid n = -1 := by
    unfold varGrid
    repeat' split
    all_goals decide
  unfold varType varItemsize gridRank
  rcases hg with h | h | h | h | h | h <;> rw [h] <;> simp

/-- C43, storage: in every history of BMI calls after Initialize, every advertised name (input, output, calibration) can be read,
gives exactly as many entries as its grid has, of the advertised type, and the reported byte count is their size. -/
theorem C43_resolves (env : Env α) (lines : List (List Char)) (s0 s : State α) (h0 : bmiInitialize env lines = .ok s0)
    (h : Calls s0 s) (n : String) (hn : n ∈ inputVarNames ++ outputVarNames ++ calibVarNames) :
    ∃ d, getValue s n = .ok d ∧ (d.size : Int) = gridSize s (varGrid n) ∧ varNbytes s n = (d.size : Int) * (if d.isInt then 4 else 8) ∧
      varType n = (if d.isInt then "int" else "double") := by
  have hr : ∃ r : Ref, n = r.spec.1 := by
    have : ∀ m ∈ inputVarNames ++ outputVarNames ++ calibVarNames, ∃ r ∈ Ref.all, m = r.spec.1 := by decide
    obtain ⟨r, _, e⟩ := this n hn
    exact ⟨r, e⟩
  obtain ⟨r, rfl⟩ := hr
  obtain ⟨h1, h2⟩ := load_sizes h0 h r
  obtain ⟨k, hk⟩ := Int.eq_ofNat_of_zero_le h2
  refine ⟨(r.load s).take k, getValue_ok.mpr ⟨r, rfl, k, hk, by omega, rfl⟩, ?_, ?_, ?_⟩
  · rw [(valuePtr_spec r).2]
    cases hl : r.load s with
    | ints l => rw [hl] at h1; simp only [Data.size] at h1; simp only [Data.take, Data.size, List.length_take]; omega
    | dbls l => rw [hl] at h1; simp only [Data.size] at h1; simp only [Data.take, Data.size, List.length_take]; omega
  · unfold varNbytes
    rw [varItemsize_spec, (valuePtr_spec r).2, hk]
    have hi := load_isInt s r
    cases hl : r.load s with
    | ints l =>
      rw [hl] at h1 hi
      simp only [Data.isInt] at hi
      have hi := of_decide_eq_true hi.symm
      simp only [Data.size] at h1
      simp only [Data.take, Data.size, Data.isInt, List.length_take, hi, if_true]
      have : min k l.length = k := by omega
      rw [this]; omega
    | dbls l =>
      rw [hl] at h1 hi
      simp only [Data.isInt] at hi
      have hi := of_decide_eq_false hi.symm
      simp only [Data.size] at h1
      simp only [Data.take, Data.size, Data.isInt, List.length_take, hi, if_false]
      have : min k l.length = k := by omega
      rw [this]; simp; omega
  · have hi := load_isInt s r
    have e : ∀ r : Ref, varType r.spec.1 = if decide (r.spec.2 = 0) then "int" else "double" := by
      intro r; cases r <;> decide +kernel
    rw [e r, ← hi]
    cases r.load s <;> rfl

/-- C43 fails for the shape query: grid 3 has rank 1, but the size is written to entry 1 of the caller's array instead of entry
0; for grids 0, 1 and 4 nothing is written. -/
theorem C43_shape_fails (s : State α) : gridRank 3 = 1 ∧ gridShape s 3 = [(1, gridSize s 3)] ∧ gridShape s 0 = [] ∧
    gridShape s 1 = [] ∧ gridShape s 4 = [] ∧ gridShape s 2 = [(0, gridSize s 2)] := by
  refine ⟨by decide, ?_, ?_, ?_, ?_, ?_⟩ <;> simp [gridShape, gridSize]

/-- C44: for a name that is not one of the 25 variables, all four access functions throw (and so return no new state). -/
theorem C44_rejected (s : State α) (n : String) (h : ∀ r : Ref, n ≠ r.spec.1) (d : Data α) (inds : List Int) :
    ∃ why, getValue s n = .error (.throw why) ∧ setValue s n d = .error (.throw why) ∧
      getValueAtIndices s n inds = .error (.throw why) ∧ setValueAtIndices s n inds d = .error (.throw why) := by
  have hv := valuePtr_unknown h
  refine ⟨"variable does not exist", ?_, ?_, ?_, ?_⟩
  · unfold getValue; rw [hv]; rfl
  · unfold setValue; rw [hv]; rfl
  · unfold getValueAtIndices; rw [hv]; rfl
  · unfold setValueAtIndices; rw [hv]; rfl

/-- C44: its grid is -1 and its byte size 0.  Missing: the two names `soil_storage_model` and `van_genuchten_m`, which are no
variables but have a grid (C44_phantoms). -/
theorem C44_metadata_partial (s : State α) (n : String) (h : ∀ r : Ref, n ≠ r.spec.1) (h1 : n ≠ "soil_storage_model")
    (h2 : n ≠ "van_genuchten_m") : varGrid n = -1 ∧ varNbytes s n = 0 ∧ varItemsize n = 0 ∧ varType n = "none" := by
  have hg : varGrid n = -1 := by
    have k : ∀ r ∈ Ref.all, n ≠ r.spec.1 := fun r _ => h r
    simp only [Ref.all, Ref.spec, List.mem_cons, List.not_mem_nil, or_false, forall_eq_or_imp, forall_eq] at k
    unfold varGrid
    simp [k, h1, h2]
  refine ⟨hg, ?_, ?_, ?_⟩ <;> simp [varNbytes, varItemsize, varType, hg]

/-- C44 fails for two names that GetVarGrid knows but GetValuePtr does not: metadata says there are values, access throws. -/
theorem C44_phantoms (s : State α) : varNbytes s "soil_storage_model" = 4 ∧ varNbytes s "van_genuchten_m" = 8 * (s.p.numLayers : Int) ∧
    ∀ n ∈ ["soil_storage_model", "van_genuchten_m"], ∀ r : Ref, n ≠ r.spec.1 := by
  refine ⟨?_, ?_, ?_⟩
  · have : varGrid "soil_storage_model" = 0 ∧ varItemsize "soil_storage_model" = 4 := by decide +kernel
    simp [varNbytes, gridSize, this]
  · have : varGrid "van_genuchten_m" = 2 ∧ varItemsize "van_genuchten_m" = 8 := by decide +kernel
    simp [varNbytes, gridSize, this]
  · have : ∀ n ∈ ["soil_storage_model", "van_genuchten_m"], ∀ r ∈ Ref.all, n ≠ r.spec.1 := by decide
    exact fun n hn r => this n hn r r.mem_all

/-- C42, the exception: after setting the number of wetting fronts to more than there are, GetValue of the front moistures reads
outside the array. -/
theorem C42_size_fails (s s' : State α) (k : Int) (hk : (s.p.moistureWf.length : Int) < k)
    (h : setValue s "soil_num_wetting_fronts" (.ints [k]) = .ok s') :
    ∃ why, getValue s' "soil_moisture_wetting_fronts" = .error (.ub why) := by
  obtain ⟨r, hr, n, hn, hle, hle2, hi, e, rfl, e1, e2, e3⟩ := setValue_ok h
  have hr' : r = .numWf := by
    have := (valuePtr_spec r).1
    rw [← hr] at this
    have h2 : valuePtr "soil_num_wetting_fronts" = .ok .numWf := (valuePtr_spec .numWf).1
    rw [h2, Except.ok.injEq] at this
    exact this.symm
  subst hr'
  have hn1 : n = 1 := by simp [Ref.spec, gridSize] at hn; omega
  subst hn1
  cases e with
  | dbls l => simp [Data.isInt, Ref.load] at e1
  | ints l =>
    simp only [Data.size, Ref.load, List.length_singleton] at e2
    obtain ⟨x, rfl⟩ := List.length_eq_one_iff.mp e2
    simp [Data.take] at e3
    subst e3
    refine ⟨"memcpy out of range", ?_⟩
    have hg : varGrid "soil_moisture_wetting_fronts" = 3 := (valuePtr_spec .moistureWf).2
    have hi : varItemsize "soil_moisture_wetting_fronts" = 8 := varItemsize_spec .moistureWf
    have hv : valuePtr "soil_moisture_wetting_fronts" = .ok .moistureWf := (valuePtr_spec .moistureWf).1
    unfold getValue varNbytes
    rw [hv, hg, hi, ok_bind]
    have hm : memcpyCount (8 * gridSize (Ref.numWf.store s (Data.ints [x])) 3) 8 = .ok x.toNat := by
      rw [memcpyCount_eq (by decide)]
      simp [gridSize, Ref.store, Ref.storeI]; omega
    rw [hm, ok_bind]
    simp only [Ref.load, Ref.store, Ref.storeI]
    have : ¬ x.toNat ≤ s.p.moistureWf.length := by omega
    simp [readN, this, error_bind]

/-- C45: what soil_depth_layers really returns in every history: N numbers, the k-th being the sum of the first k thicknesses
*above* layer k + 1, so it starts with 0 and omits the depth of the column. -/
theorem C45_returned (env : Env α) (lines : List (List Char)) (s0 s : State α) (h0 : bmiInitialize env lines = .ok s0)
    (h : Calls s0 s) : ∃ (thick l : List α) (c : Cfg α), readConfig env {} lines = .ok c ∧ c.thick = some thick ∧
      getValue s "soil_depth_layers" = .ok (.dbls l) ∧ l.length = thick.length ∧
      ∀ k, k < thick.length → l[k]? = some ((thick.take k).foldl (· + ·) 0) := by
  obtain ⟨c, hcfg, hc, _⟩ := bmiInitialize_inv h0
  obtain ⟨ts, file, fl, soils, cnt, thick, psi, dt, endt, wp, fc, res, ords, inv, giuh, soilZ, q, depth, vs, cs, _, _, _, _, _,
    hthick, _, _, _, _, _, _, _, _, _, _, _, _, _, _, _, _, _, hcs, hs⟩ := lgarInit_inv hc
  obtain ⟨hist, s1, hr, hi⟩ := h.run
  obtain ⟨_, _, k3, k4⟩ := run_sound h0 hr
  obtain ⟨_, _, _, _, _, _, _, _, _, ip⟩ := hi.frame
  have e1 : s.p.cum = cumThickness thick ∧ s.p.numLayers = thick.length := by
    rw [ip]; simp only; rw [k3, k4, hs]; exact ⟨rfl, rfl⟩
  refine ⟨thick, (cumThickness thick).take thick.length, c, hcfg, hthick, ?_, ?_, ?_⟩
  · have : ("soil_depth_layers" : String) = Ref.cum.spec.1 := rfl
    rw [this, getValue_ok]
    refine ⟨.cum, rfl, thick.length, ?_, ?_, ?_⟩
    · simp [Ref.spec, gridSize, e1.2]
    · simp [Ref.load, Data.size, e1.1, cumThickness_length]
    · simp [Ref.load, Data.take, e1.1]
  · simp [cumThickness_length]
  · intro k hk
    rw [List.getElem?_take_of_lt hk]
    exact cumThickness_get thick k hk.le

/-- C45 fails: the unit is said to be m while the values are those of the configuration file (cm); and for the sample column of
layers 10 and 20 cm the bottoms 10 and 30 are not returned but 0 and 10. -/
theorem C45_fails : varUnits "soil_depth_layers" = "m" ∧
    ∃ s, bmiInitialize Sample.env Sample.cfg = .ok s ∧ getValue s "soil_depth_layers" = .ok (.dbls [0, 10]) := by
  refine ⟨by decide +kernel, ?_⟩
  exact Sample.okAnd_exists (by decide +kernel)

theorem readInds_ok {β : Type} {l : List β} : ∀ {inds : List Int} {v : List β}, readInds l inds = .ok v →
    v.length = inds.length ∧ ∀ (k : Nat) (i : Int), inds[k]? = some i → 0 ≤ i ∧ v[k]? = l[i.toNat]?
  | [], v, h => by simp only [readInds, Except.ok.injEq] at h; subst h; simp
  | i :: is, v, h => by
    unfold readInds at h
    simp only [bind_ok_iff, pure_eq_ok, Except.ok.injEq] at h
    obtain ⟨x, hx, r, hr, rfl⟩ := h
    obtain ⟨h1, h2⟩ := readInds_ok hr
    refine ⟨by simp [h1], fun k j hk => ?_⟩
    cases k with
    | zero =>
      simp only [List.getElem?_cons_zero, Option.some.injEq] at hk
      subst hk
      rw [idxI_ok_iff] at hx
      exact ⟨hx.1, by simp [hx.2]⟩
    | succ k => exact h2 k j hk

theorem readInds_total {β : Type} {l : List β} : ∀ {inds : List Int}, (∀ i ∈ inds, 0 ≤ i ∧ i < (l.length : Int)) →
    ∃ v, readInds l inds = .ok v
  | [], _ => ⟨[], rfl⟩
  | i :: is, h => by
    obtain ⟨v, hv⟩ := readInds_total fun j hj => h j (List.mem_cons_of_mem _ hj)
    obtain ⟨h1, h2⟩ := h i (by simp)
    have hx : idxI l i = .ok (l[i.toNat]'(by omega)) := by
      rw [idxI_ok_iff]; exact ⟨h1, by rw [List.getElem?_eq_getElem]⟩
    exact ⟨_, by unfold readInds; rw [hx, ok_bind, hv, ok_bind]; rfl⟩

theorem writeInds_ok {β : Type} : ∀ {inds : List Int} {l v l' : List β}, writeInds l inds v = .ok l' →
    l'.length = l.length ∧ inds.length ≤ v.length ∧
      (∀ j : Nat, (j : Int) ∉ inds → l'[j]? = l[j]?) ∧
      ∀ (k : Nat) (i : Int), inds[k]? = some i → i ∉ inds.drop (k + 1) → 0 ≤ i ∧ l'[i.toNat]? = v[k]?
  | [], l, v, l', h => by simp only [writeInds, Except.ok.injEq] at h; subst h; simp
  | i :: is, l, [], l', h => by simp [writeInds] at h
  | i :: is, l, x :: v, l', h => by
    unfold writeInds at h
    split at h
    · rename_i hb
      obtain ⟨h1, h2, h3, h4⟩ := writeInds_ok h
      refine ⟨by simpa using h1, by simpa using h2, ?_, ?_⟩
      · intro j hj
        simp only [List.mem_cons, not_or] at hj
        rw [h3 j hj.2, List.getElem?_set_ne]
        intro e; exact hj.1 (by omega)
      · intro k m hk hlast
        cases k with
        | zero =>
          simp only [List.getElem?_cons_zero, Option.some.injEq] at hk
          subst hk
          simp only [Nat.zero_add, List.drop_succ_cons, List.drop_zero] at hlast
          refine ⟨hb.1, ?_⟩
          rw [h3 i.toNat (by rw [Int.toNat_of_nonneg hb.1]; exact hlast), List.getElem?_set_self hb.2]
          simp
        | succ k => exact h4 k m hk hlast
    · simp at h

/-- C60, reading: for indices inside the array the call returns, and gives exactly the listed entries in order. -/
theorem C60_get (s : State α) (r : Ref) (l : List α) (hl : r.load s = .dbls l) (inds : List Int)
    (hi : ∀ i ∈ inds, 0 ≤ i ∧ i < (l.length : Int)) :
    ∃ v, getValueAtIndices s r.spec.1 inds = .ok (.dbls v) ∧ v.length = inds.length ∧
      ∀ (k : Nat) (i : Int), inds[k]? = some i → v[k]? = l[i.toNat]? := by
  obtain ⟨v, hv⟩ := readInds_total hi
  obtain ⟨h1, h2⟩ := readInds_ok hv
  refine ⟨v, ?_, h1, fun k i hk => (h2 k i hk).2⟩
  unfold getValueAtIndices
  rw [(valuePtr_spec r).1, ok_bind, hl]
  simp only
  rw [hv]; rfl

/-- C60, writing: a returning call writes the last value given for each listed index, leaves all other entries and the length of
the array as they were, and changes no other object. -/
theorem C60_set (s s' : State α) (r : Ref) (l v : List α) (hl : r.load s = .dbls l) (inds : List Int)
    (h : setValueAtIndices s r.spec.1 inds (.dbls v) = .ok s') :
    ∃ l', r.load s' = .dbls l' ∧ l'.length = l.length ∧ (∀ j : Nat, (j : Int) ∉ inds → l'[j]? = l[j]?) ∧
      (∀ (k : Nat) (i : Int), inds[k]? = some i → i ∉ inds.drop (k + 1) → l'[i.toNat]? = v[k]?) ∧
      ∀ q : Ref, q ≠ r → q.load s' = q.load s := by
  unfold setValueAtIndices at h
  rw [(valuePtr_spec r).1, ok_bind, hl] at h
  simp only [bind_ok_iff, pure_eq_ok, Except.ok.injEq] at h
  obtain ⟨l', hw, rfl⟩ := h
  obtain ⟨h1, h2, h3, h4⟩ := writeInds_ok hw
  refine ⟨l', ?_, h1, h3, fun k i hk hn => (h4 k i hk hn).2, fun q hq => store_other s r q (.dbls l') hq⟩
  exact store_same s r (.dbls l') (by rw [hl]; rfl) (by rw [hl]; exact h1)

/-- C60: the index is only limited by the array, not by the grid: entry N of soil_depth_layers, outside its grid of size N, is the
depth of the column. -/
theorem C60_beyond_grid : ∃ s, bmiInitialize Sample.env Sample.cfg = .ok s ∧ gridSize s (varGrid "soil_depth_layers") = 2 ∧
    getValueAtIndices s "soil_depth_layers" [2, 1] = .ok (.dbls [30, 10]) :=
  Sample.okAnd_exists (by decide +kernel)

/-- Case for C42 and C60: the sample configuration; smcmax is set for both layers and read back, then the second value is changed
by index. -/
example : ∃ s, bmiInitialize Sample.env Sample.cfg = .ok s ∧ ∃ s', setValue s "smcmax" (.dbls [1/2, 3/5]) = .ok s' ∧
    getValue s' "smcmax" = .ok (.dbls [1/2, 3/5]) ∧
    ∃ s'', setValueAtIndices s' "smcmax" [1] (.dbls [2/5]) = .ok s'' ∧ getValue s'' "smcmax" = .ok (.dbls [1/2, 2/5]) := by
  have h : Sample.okAnd (bmiInitialize Sample.env Sample.cfg) (fun s => Sample.okAnd (setValue s "smcmax" (.dbls [1/2, 3/5]))
      fun s' => decide (getValue s' "smcmax" = .ok (.dbls [1/2, 3/5])) &&
        Sample.okAnd (setValueAtIndices s' "smcmax" [1] (.dbls [2/5])) fun s'' => decide (getValue s'' "smcmax" = .ok (.dbls [1/2, 2/5]))) = true := by
    decide +kernel
  have ex : ∀ {β : Type} {x : Res β} {p : β → Bool}, Sample.okAnd x p = true → ∃ a, x = .ok a ∧ p a = true := by
    intro β x p h
    cases x with
    | ok a => exact ⟨a, rfl, h⟩
    | error e => simp [Sample.okAnd] at h
  obtain ⟨s, h1, h⟩ := ex h
  obtain ⟨s', h2, h⟩ := ex h
  rw [Bool.and_eq_true, decide_eq_true_eq] at h
  obtain ⟨s'', h3, h4⟩ := ex h.2
  exact ⟨s, h1, s', h2, h.1, s'', h3, by simpa using h4⟩

end Free
end LGAR
