import Verif.Lemmas.Init
/-
Water balance: sub-timestep, Update and run.
-/
set_option linter.unusedSectionVars false
namespace LGAR

section Free
variable {α : Type} [Add α] [Sub α] [Mul α] [Div α] [Neg α] [Zero α] [One α] [OfScientific α]
  [LT α] [LE α] [DecidableLT α] [DecidableLE α] [BEq α] [CMath α]

theorem toHours_pos_inv {env : Env α} {c c' : Cfg α} {line : List Char} (h : configLine env c line = .ok c')
    (h1 : ∀ x, c.timestep = some x → 0 < x) (h2 : ∀ x, c.forcingRes = some x → 0 < x) :
    (∀ x, c'.timestep = some x → 0 < x) ∧ ∀ x, c'.forcingRes = some x → 0 < x := by
  unfold configLine at h
  split at h
  · simp only [Except.ok.injEq] at h; subst h; exact ⟨h1, h2⟩
  · rename_i k _
    cases k <;> simp only [applyKey, bind_ok_iff, pure_eq_ok, Except.ok.injEq, cassert_ok_iff] at h
    case numTypes =>
      unfold setNumTypes at h
      split at h
      · simp at h
      · simp only [Except.ok.injEq] at h; subst h; exact ⟨h1, h2⟩
    case endtime =>
      unfold setEndtime at h
      by_cases hu : (isSec (paramUnit line) || isMin (paramUnit line) || isHour (paramUnit line) || isDay (paramUnit line)) = true
      · rw [if_pos hu] at h
        simp only [bind_ok_iff] at h
        obtain ⟨x, _, h⟩ := h
        split at h
        · simp at h
        · simp only [bind_ok_iff, pure_eq_ok, Except.ok.injEq] at h
          obtain ⟨_, _, rfl⟩ := h; exact ⟨h1, h2⟩
      · rw [if_neg hu] at h
        split at h
        · simp at h
        · simp only [bind_ok_iff, pure_eq_ok, Except.ok.injEq] at h
          obtain ⟨_, _, rfl⟩ := h; exact ⟨h1, h2⟩
    case timestep =>
      obtain ⟨x, hx, _, hp, rfl⟩ := h
      exact ⟨fun y hy => by simp only [Option.some.injEq] at hy; subst hy; exact hp, h2⟩
    case forcingRes =>
      obtain ⟨x, hx, _, hp, rfl⟩ := h
      exact ⟨h1, fun y hy => by simp only [Option.some.injEq] at hy; subst hy; exact hp⟩
    case soilFile => subst h; exact ⟨h1, h2⟩
    all_goals (obtain ⟨x, hx, rfl⟩ := h; exact ⟨h1, h2⟩)

theorem readConfig_pos {env : Env α} : ∀ {lines : List (List Char)} {c c' : Cfg α}, readConfig env c lines = .ok c' →
    (∀ x, c.timestep = some x → 0 < x) → (∀ x, c.forcingRes = some x → 0 < x) →
    (∀ x, c'.timestep = some x → 0 < x) ∧ ∀ x, c'.forcingRes = some x → 0 < x
  | [], c, c', h, h1, h2 => by
    simp only [readConfig, Except.ok.injEq] at h; subst h; exact ⟨h1, h2⟩
  | line :: rest, c, c', h, h1, h2 => by
    unfold readConfig at h
    simp only [bind_ok_iff] at h
    obtain ⟨c1, hc, h⟩ := h
    obtain ⟨h1, h2⟩ := toHours_pos_inv hc h1 h2
    exact readConfig_pos h h1 h2

end Free

section Exact
variable {K : Type} [Field K] [LinearOrder K] [IsStrictOrderedRing K] [CMath K] [LawfulNum K]

theorem massBalGo_val {cum : List K} {l : List (Front K)} {s m : K} (h : massBalGo cum s l = .ok m) :
    m = s + mass cum l := by
  induction l generalizing s with
  | nil => simp [massBalGo] at h; simp [mass, h]
  | cons f t ih =>
    unfold massBalGo at h
    simp only [bind_ok_iff, idxPred_ok_iff] at h
    obtain ⟨b, ⟨_, hb⟩, h⟩ := h
    have hb' : layerTop cum f.layer = b := by
      rw [layerTop, List.getD_eq_getElem?_getD, hb]; rfl
    cases t with
    | nil =>
      simp only at h
      rw [ih h]; simp only [mass, slab, hb']; ring
    | cons n t =>
      rw [show mass cum (f :: n :: t) = slab cum f (n :: t) + mass cum (n :: t) from rfl]
      simp only [slab, hb']
      simp only at h
      split at h
      · rename_i e; rw [ih h, if_pos e]; ring
      · rename_i e; rw [ih h, if_neg e]; ring

/-- If the storage computation returns, its value is the water content. -/
theorem massBal_water {cum : List K} {l : List (Front K)} {m : K} (h : massBal cum l = .ok m) : m = water cum l := by
  rw [water_eq_mass, massBalGo_val h, zero_add]

theorem volonClean_diff {v : K} (hv : 0 ≤ v) : 0 ≤ v - volonClean v ∧ v - volonClean v ≤ 1e-12 ∧ 0 ≤ volonClean v := by
  unfold volonClean
  rw [fmax_eq, max_eq_left hv]
  split
  · simp only [sub_self, le_refl, hv, true_and, and_true]; positivity
  · rename_i h
    rw [sub_zero]
    exact ⟨hv, by rw [not_lt] at h; exact h.trans (by norm_num), le_refl _⟩

/-- Surface part of the water movement. -/
theorem subFlow_surface {c : StepCfg K} {s : SubSt K} {b : Bool} {prev : List (Front K)} {nFd : Nat} {rate ponded aet : K}
    {f : SubFlow K} (hmax : 0 ≤ c.pondMax) (hp : 0 ≤ ponded) (h : subFlow c s b prev nFd rate ponded aet = .ok f) :
    ponded = f.volin + f.runoff + f.volon ∧ 0 ≤ f.volon ∧ 0 ≤ f.runoff ∧ f.volinT = s.volinT + f.volin ∧
      f.runoffT = s.runoffT + f.runoff ∧ f.rechT = s.rechT + f.rech ∧
      (f.volon ≤ c.pondMax ∨ f.volin = 0 ∧ f.runoff = 0) := by
  unfold subFlow at h
  split at h
  · obtain ⟨l, flux, dry, d, h0, pd, _, _, _, hc, _, hvT, hre, hrT, ho⟩ := flowCreate_inv h
    obtain ⟨so, thn, psi, Kc, _, hv, _⟩ := createSurficial_inv hc
    simp only at hv
    have hpd : ponded = f.volin + pd ∧ 0 ≤ pd := by
      rcases hv with ⟨_, _, h1, h2, _⟩ | ⟨h0, h1, h2, _⟩
      · rw [h1, h2]; simp
      · rw [h1, h2]; exact ⟨by ring, by linarith⟩
    have hre' : f.rechT = s.rechT + f.rech := by
      rcases hre with ⟨_, h1, h2⟩ | ⟨_, h1, h2⟩
      · rw [h1, h2, add_zero]
      · rw [h1, h2]
    rcases ho with ⟨h1, h2, h3, _⟩ | ⟨h1, h2, h3, _⟩
    · rw [h2, h3]
      exact ⟨by rw [hpd.1]; ring, hpd.2, le_refl _, hvT, by rw [hrT, h2], hre', .inl h1.le⟩
    · rw [h2, h3]
      rw [not_lt] at h1
      exact ⟨by rw [hpd.1]; ring, hmax, by linarith, hvT, by rw [hrT, h2], hre', .inl (le_refl _)⟩
  · obtain ⟨hs, _, _, hvT, hrT, hre⟩ := flowMove_inv h
    unfold surfaceFlow at hs
    split at hs
    · rename_i hpos
      simp only [bind_ok_iff, Prod.exists] at hs
      obtain ⟨r, v, pd, hi, hs⟩ := hs
      split at hs
      · simp at hs
      · simp only [Except.ok.injEq, Prod.mk.injEq] at hs
        obtain ⟨h1, h2, h3, _⟩ := hs
        subst h1; subst h2; subst h3
        obtain ⟨fp, _, hi⟩ := insertWater_inv hi
        obtain ⟨hb, hr⟩ := partitionPond_bal hi
        rw [if_pos hpos] at hvT
        have hpart := partitionPond_inv hi
        refine ⟨hb, ?_, hr, hvT, hrT, hre, ?_⟩
        · obtain ⟨_, ⟨_, _, hv, hr, hp⟩ | ⟨_, _, hv, hr, hp⟩ | ⟨_, _, hv, hr, hp⟩ | ⟨_, hv, hr, hp⟩⟩ := hpart
          · rw [hp, hv]; linarith [min_le_left ponded (fp * c.dt)]
          · rw [hp]; exact hmax
          · rw [hp]; exact hpos.le
          · rw [hp]
        · obtain ⟨_, ⟨_, h1, hv, hr, hp⟩ | ⟨_, _, hv, hr, hp⟩ | ⟨_, _, hv, hr, hp⟩ | ⟨h0, hv, hr, hp⟩⟩ := hpart
          · left
            rw [hp, hv]
            have h2 := (le_max_left (ponded - fp * c.dt) 0).trans_lt h1
            have h3 := (le_max_right (ponded - fp * c.dt) 0).trans_lt h1
            rcases min_choice ponded (fp * c.dt) with e | e <;> rw [e] <;> linarith
          · left; rw [hp]
          · right; exact ⟨hv, hr⟩
          · left; rw [hp]; exact hmax
    · rename_i hpos
      rw [if_neg hpos] at hvT
      split at hs
      · rename_i hlt
        simp only [Except.ok.injEq, Prod.mk.injEq] at hs
        obtain ⟨h1, h2, h3, _⟩ := hs
        rw [← h1, ← h2, ← h3]
        exact ⟨by ring, hp, le_refl _, by rw [hvT]; ring, by rw [hrT, ← h1], hre, .inl hlt.le⟩
      · rename_i hlt
        simp only [Except.ok.injEq, Prod.mk.injEq] at hs
        obtain ⟨h1, h2, h3, _⟩ := hs
        rw [← h1, ← h2, ← h3]
        rw [not_lt] at hlt
        exact ⟨by ring, hmax, by linarith, by rw [hvT]; ring, by rw [hrT, ← h1], hre, .inl (le_refl _)⟩

/-- Tolerance of the balance of one sub-timestep. -/
def tol : K := 1e-4 + 1e-12

theorem tol_pos : (0 : K) < tol := by unfold tol; positivity

/-- Balance of a sub-timestep. -/
theorem subStep_balance {c : StepCfg K} {s s' : SubSt K} (hdt : 0 ≤ c.dt) (hmax : 0 ≤ c.pondMax) (hv : 0 ≤ s.volon)
    (h : subStep c s = .ok s') :
    0 ≤ s'.volon ∧ s'.volend = water c.geo.cum s'.head ∧ massBal c.geo.cum s'.head = .ok s'.volend ∧
      s'.timesteps = s.timesteps + 1 ∧ s'.timeS = s.timeS + c.dt * 3600 ∧
      |water c.geo.cum s.head + s.volon + (s'.precipT - s.precipT) - (s'.runoffT - s.runoffT) - (s'.aetT - s.aetT) -
        (s'.rechT - s.rechT) - s'.volon - s'.volend| ≤ tol ∧
      s.volon + (s'.precipT - s.precipT) = (s'.volinT - s.volinT) + (s'.runoffT - s.runoffT) + s'.volon ∧
      s.runoffT ≤ s'.runoffT ∧ s.precipT ≤ s'.precipT ∧
      (s'.volon ≤ c.pondMax ∨ s'.volinT = s.volinT ∧ s'.runoffT = s.runoffT) := by
  obtain ⟨aet, vs, h0, hs, f, l, ve, h1, _, hvs, _, _, hf, _, hve, hmb, _, _, rfl⟩ := subStep_inv h
  have hpr : 0 ≤ CMath.fmax s.precipMm 0 * 0.1 * c.dt := by
    rw [fmax_eq]
    exact mul_nonneg (mul_nonneg (le_max_right _ _) (by norm_num)) hdt
  obtain ⟨hb, ho, hr, hvT, hrT, hre, hpm⟩ := subFlow_surface hmax (by linarith) hf
  simp only at hb ho hr hvT hrT hre hpm ⊢
  obtain ⟨hc1, hc2, _⟩ := volonClean_diff hv
  rw [not_lt, fabs_eq] at hmb
  refine ⟨ho, massBal_water hve, hve, trivial, by norm_num, ?_, ?_, by rw [hrT]; linarith, by linarith, ?_⟩
  · rw [← massBal_water hvs, hrT, hre]
    have e : vs + s.volon + (s.precipT + CMath.fmax s.precipMm 0 * 0.1 * c.dt - s.precipT) -
        (s.runoffT + f.runoff - s.runoffT) - (s.aetT + f.aet - s.aetT) - (s.rechT + f.rech - s.rechT) - f.volon - ve =
        (vs + CMath.fmax s.precipMm 0 * 0.1 * c.dt + volonClean s.volon - f.runoff - f.aet - f.volon - f.rech - ve) +
          (s.volon - volonClean s.volon) := by ring
    rw [e]
    refine (abs_add_le _ _).trans ?_
    rw [abs_of_nonneg hc1]
    unfold tol
    norm_num at hmb hc2 ⊢
    linarith
  · rw [hvT, hrT]; linarith
  · rcases hpm with h | ⟨h1, h2⟩
    · exact .inl h
    · right; rw [hvT, hrT, h1, h2]; simp

/-- Balance over the subcycles of an Update. -/
theorem subLoop_balance {c : StepCfg K} {n : Nat} {s s' : SubSt K} (hdt : 0 ≤ c.dt) (hmax : 0 ≤ c.pondMax)
    (hv : 0 ≤ s.volon) (he : s.volend = water c.geo.cum s.head) (hm : massBal c.geo.cum s.head = .ok s.volend)
    (h : subLoop c n s = .ok s') :
    0 ≤ s'.volon ∧ s'.volend = water c.geo.cum s'.head ∧ massBal c.geo.cum s'.head = .ok s'.volend ∧
      s.timesteps ≤ s'.timesteps ∧
      |s.volend + s.volon + (s'.precipT - s.precipT) - (s'.runoffT - s.runoffT) - (s'.aetT - s.aetT) -
        (s'.rechT - s.rechT) - s'.volon - s'.volend| ≤ ((s'.timesteps - s.timesteps : Int) : K) * tol ∧
      s.volon + (s'.precipT - s.precipT) = (s'.volinT - s.volinT) + (s'.runoffT - s.runoffT) + s'.volon ∧
      s.runoffT ≤ s'.runoffT ∧ s.precipT ≤ s'.precipT := by
  refine subLoop_ind (c := c) (P := fun s' => 0 ≤ s'.volon ∧ s'.volend = water c.geo.cum s'.head ∧
      massBal c.geo.cum s'.head = .ok s'.volend ∧
      s.timesteps ≤ s'.timesteps ∧
      |s.volend + s.volon + (s'.precipT - s.precipT) - (s'.runoffT - s.runoffT) - (s'.aetT - s.aetT) -
        (s'.rechT - s.rechT) - s'.volon - s'.volend| ≤ ((s'.timesteps - s.timesteps : Int) : K) * tol ∧
      s.volon + (s'.precipT - s.precipT) = (s'.volinT - s.volinT) + (s'.runoffT - s.runoffT) + s'.volon ∧
      s.runoffT ≤ s'.runoffT ∧ s.precipT ≤ s'.precipT) ?_ ?_ h
  · rintro a b ⟨i1, i2, i3, i4, i5, i6, i7, i8⟩ hab
    obtain ⟨j1, j2, j3, j4, _, j5, j6, j7, j8, _⟩ := subStep_balance hdt hmax i1 hab
    refine ⟨j1, j2, j3, by omega, ?_, by linarith, by linarith, by linarith⟩
    rw [← i2] at j5
    have e : s.volend + s.volon + (b.precipT - s.precipT) - (b.runoffT - s.runoffT) - (b.aetT - s.aetT) -
        (b.rechT - s.rechT) - b.volon - b.volend =
        (s.volend + s.volon + (a.precipT - s.precipT) - (a.runoffT - s.runoffT) - (a.aetT - s.aetT) -
        (a.rechT - s.rechT) - a.volon - a.volend) +
        (a.volend + a.volon + (b.precipT - a.precipT) - (b.runoffT - a.runoffT) - (b.aetT - a.aetT) -
        (b.rechT - a.rechT) - b.volon - b.volend) := by ring
    rw [e]
    refine (abs_add_le _ _).trans ((add_le_add i5 j5).trans ?_)
    rw [j4]; push_cast
    exact le_of_eq (by ring)
  · refine ⟨hv, he, hm, le_refl _, ?_, by ring, le_refl _, le_refl _⟩
    simp

/-- Time steps and resolution are positive. -/
structure PosTimes (p : Params K) : Prop where
  dt : 0 < p.timestepH
  mn : 0 < p.minTimestepH
  res : 0 < p.forcingResH

theorem PosTimes.choose {p : Params K} (h : PosTimes p) (pr v : K) : 0 < chooseTimestep p pr v := by
  unfold chooseTimestep
  split
  · simp only [fmin_eq]
    refine lt_min ?_ h.res
    split
    · exact h.mn
    · split
      · exact mul_pos h.mn (by norm_num)
      · exact h.res
  · exact h.dt

/-- State of the water balance between Updates (supported soil types). -/
structure Bal (s : State K) : Prop where
  valid : s.p.invalidSoil = false
  times : PosTimes s.p
  pond : 0 ≤ s.mb.volonT
  stored : massBal s.p.cum s.head = .ok (water s.p.cum s.head)
  steps : 0 ≤ s.p.timesteps
  bal : |s.mb.volstart + s.mb.volprecip + s.mb.volcalib - s.mb.volrunoff - s.mb.volAET - s.mb.volonT - s.mb.volrech -
    water s.p.cum s.head| ≤ (s.p.timesteps : K) * tol
  surface : s.mb.volprecip = s.mb.volin + s.mb.volrunoff + s.mb.volonT

theorem Bal.update {fuel : Nat} {sa : Bool} {s s' : State K} (hb : Bal s) (hp : 0 ≤ s'.p.pondMax)
    (h : update fuel sa s = .ok s') :
    Bal s' ∧ s'.mb.volon = s'.mb.volonT ∧ s'.mb.volend = water s'.p.cum s'.head ∧ s'.mb.volstart = s.mb.volstart ∧
      s.p.timesteps ≤ s'.p.timesteps ∧ s'.p.cum = s.p.cum := by
  rcases update_inv h with ⟨hi, _⟩ | ⟨_, s1, d, v, u, h1, hv, hu, h2⟩
  · rw [hb.valid] at hi; simp at hi
  obtain ⟨giuh, queue, _, hh, _, _, _, _, _, _, _, _, hpp, hmb, _⟩ := updatePost_inv h2
  obtain ⟨hpr, _, fs, soils, l, fc, pm, q, _, rfl, _, hcal⟩ := updatePre_inv h1
  simp only at hv hu h2 hpp hmb
  have hdt : 0 < chooseTimestep s.p s.precipMm s.mb.volonT := hb.times.choose _ _
  have hpm : s'.p.pondMax = pm := by rw [hpp]
  have hvw := massBal_water hv
  have hbal := subLoop_balance (by exact hdt.le) (by rw [hpm] at hp; exact hp) hb.pond (by exact hvw) (by exact hv) hu
  simp only [subInit, stepCfg, State.geo, sub_zero] at hbal
  obtain ⟨i1, i2, i3, i4, i5, i6, i7, i8⟩ := hbal
  have hd : d = water s.p.cum l - water s.p.cum s.head := by
    rcases hcal with ⟨_, _, _, _, m0, m1, h0, h1, hd⟩ | ⟨_, _, _, hl, _, hd⟩
    · rw [hd, massBal_water h0, massBal_water h1]
    · rw [hd, hl, sub_self]
  have hcum : s'.p.cum = s.p.cum := by rw [hpp]
  have e1 : s'.p.timestepH = chooseTimestep s.p s.precipMm s.mb.volonT := by rw [hpp]
  refine ⟨⟨by rw [hpp]; exact hb.valid, ⟨by rw [e1]; exact hdt, by rw [hpp]; exact hb.times.mn,
      by rw [hpp]; exact hb.times.res⟩, by rw [hmb]; exact i1, ?_, ?_, ?_, ?_⟩, by rw [hmb], ?_, by rw [hmb], by rw [hpp]; exact i4,
    hcum⟩
  · rw [hcum, hh, ← i2]; exact i3
  · rw [hpp]; exact hb.steps.trans i4
  · rw [hcum, hh, hmb, hpp, ← i2]
    simp only
    have e : s.mb.volstart + (s.mb.volprecip + u.precipT) + (s.mb.volcalib + d) - (s.mb.volrunoff + u.runoffT) -
        (s.mb.volAET + u.aetT) - u.volon - (s.mb.volrech + u.rechT) - u.volend =
        (s.mb.volstart + s.mb.volprecip + s.mb.volcalib - s.mb.volrunoff - s.mb.volAET - s.mb.volonT - s.mb.volrech -
          water s.p.cum s.head) +
        (v + s.mb.volonT + u.precipT - u.runoffT - u.aetT - u.rechT - u.volon - u.volend) := by
      rw [hd, hvw]; ring
    rw [e]
    refine (abs_add_le _ _).trans ((add_le_add hb.bal i5).trans ?_)
    push_cast
    exact le_of_eq (by ring)
  · rw [hmb]
    simp only
    have := hb.surface
    linarith
  · rw [hmb, hcum, hh, ← i2]

theorem Bal.inputs {s s' : State K} (hb : Bal s) (h : Inputs s s') : Bal s' := by
  obtain ⟨pr, pet, temp, cal, rfl⟩ := h
  exact ⟨hb.valid, ⟨hb.times.dt, hb.times.mn, hb.times.res⟩, hb.pond, hb.stored, hb.steps, hb.bal, hb.surface⟩

/-- Books of an unsupported soil type. -/
structure Bad (s : State K) : Prop where
  invalid : s.p.invalidSoil = true
  same : s.mb.volprecip = s.mb.volrunoff

theorem Bad.inputs {s s' : State K} (hb : Bad s) (h : Inputs s s') : Bad s' := by
  obtain ⟨pr, pet, temp, cal, rfl⟩ := h
  exact ⟨hb.invalid, hb.same⟩

theorem Bad.update {fuel : Nat} {sa : Bool} {s s' : State K} (hb : Bad s) (h : update fuel sa s = .ok s') :
    Bad s' ∧ s' = updateInvalid s := by
  rcases update_inv h with ⟨_, rfl⟩ | ⟨hi, _⟩
  · exact ⟨⟨hb.invalid, by simp only [updateInvalid]; rw [hb.same]⟩, rfl⟩
  · rw [hb.invalid] at hi; simp at hi

/-- Books after Initialize. -/
theorem init_books {env : Env K} {lines : List (List Char)} {s : State K} (h : bmiInitialize env lines = .ok s) :
    s.mb.volstart = water s.p.cum s.head ∧ s.mb.volprecip = 0 ∧ s.mb.volrunoff = 0 ∧
      (s.p.invalidSoil = false → Bal s) ∧ (s.p.invalidSoil = true → Bad s) ∧ s.p.timesteps = 0 ∧ PosTimes s.p := by
  obtain ⟨c, hc, h, _⟩ := bmiInitialize_inv h
  obtain ⟨p1, p2⟩ := readConfig_pos hc (by simp) (by simp)
  obtain ⟨ts, file, fl, soils, cnt, thick, psi, dt, endt, wp, fc, res, ords, inv, giuh, soilZ, q, depth, vs, cs, _, _, _, _, _,
    hthick, _, _, hdt, _, _, _, hres, _, _, _, _, _, _, hgeo, hhead, hm, hlen, _, hs⟩ := lgarInit_inv h
  have hcum : s.p.cum = cumThickness thick := by rw [hs]
  rw [← hcum] at hm
  have hw := massBal_water hm
  rw [hw] at hm
  have e1 : s.mb.volstart = water s.p.cum s.head := by rw [← hw, hs]
  have e2 : s.mb.volprecip = 0 := by rw [hs]
  have e3 : s.mb.volrunoff = 0 := by rw [hs]
  have ht : PosTimes s.p := by rw [hs]; exact ⟨p1 _ hdt, p1 _ hdt, p2 _ hres⟩
  refine ⟨e1, e2, e3, ?_, fun hi => ⟨hi, by rw [e2, e3]⟩, by rw [hs], ht⟩
  intro hv
  have e4 : s.mb.volonT = 0 := by rw [hs]
  have e5 : s.mb.volAET = 0 := by rw [hs]
  have e6 : s.mb.volrech = 0 := by rw [hs]
  have e7 : s.mb.volcalib = 0 := by rw [hs]
  have e8 : s.mb.volin = 0 := by rw [hs]
  have e9 : s.p.timesteps = 0 := by rw [hs]
  refine ⟨hv, ht, by rw [e4], hm, by rw [e9], ?_, ?_⟩
  · rw [e1, e2, e3, e4, e5, e6, e7, e9]; simp
  · rw [e2, e3, e4, e8]; simp

end Exact
end LGAR
