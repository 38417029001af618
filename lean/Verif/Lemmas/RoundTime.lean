import Verif.Lemmas.Rounding
import Verif.Lemmas.Config
/-
Rounding errors of the time step arithmetic.
-/
set_option linter.unusedSectionVars false
namespace LGAR
open Rounded

variable {α : Type} [Add α] [Sub α] [Mul α] [Div α] [Neg α] [Zero α] [One α] [OfScientific α]
  [LT α] [LE α] [DecidableLT α] [DecidableLE α] [BEq α] [CMath α] [Rounded α]

/-- `y` is `x` up to a relative error `k / 2^51`. -/
def Within (k : ℝ) (y x : ℝ) : Prop := |y - x| ≤ k / 2 ^ 51 * x

theorem Within.mono {k k' y x : ℝ} (h : Within k y x) (hk : k ≤ k') (hx : 0 ≤ x) : Within k' y x := by
  refine h.trans (mul_le_mul_of_nonneg_right ?_ hx)
  exact div_le_div_of_nonneg_right hk (by positivity)

theorem Within.bounds {k y x : ℝ} (h : Within k y x) : x - k / 2 ^ 51 * x ≤ y ∧ y ≤ x + k / 2 ^ 51 * x := by
  have := abs_le.mp h
  constructor <;> linarith [this.1, this.2]

/-- A rounded result of at least 2^-40. -/
theorem within_of_err {y x : ℝ} (hx : 1 / 2 ^ 40 ≤ x) (h : |y - x| ≤ eps α * |y| + tiny α) : Within 1 y x := by
  have e1 := eps_le (α := α)
  have t1 := tiny_le (α := α)
  have hx0 : 0 < x := lt_of_lt_of_le (by norm_num) hx
  have h1 : |y| ≤ x + |y - x| := by
    have := abs_add_le x (y - x); rw [add_sub_cancel, abs_of_pos hx0] at this; exact this
  have h2 : eps α * |y| ≤ 1 / 2 ^ 52 * |y| := mul_le_mul_of_nonneg_right e1 (abs_nonneg _)
  unfold Within
  norm_num at h2 t1 hx ⊢
  linarith

/-- Relative errors of a quotient. -/
theorem within_div {a b A B k : ℝ} (hA : 0 < A) (hB : 0 < B) (hk : 0 ≤ k) (hk1 : k ≤ 1000) (ha : Within k a A)
    (hb : Within k b B) : Within (2.01 * k) (a / b) (A / B) := by
  obtain ⟨a1, a2⟩ := ha.bounds
  obtain ⟨b1, b2⟩ := hb.bounds
  have hd : k / 2 ^ 51 ≤ 1 / 2 ^ 40 := by norm_num; linarith
  have hd0 : 0 ≤ k / 2 ^ 51 := by positivity
  set d := k / 2 ^ 51 with hdd
  have hb0 : 0 < b := by
    have : d * B ≤ 1 / 2 ^ 40 * B := mul_le_mul_of_nonneg_right hd hB.le
    norm_num at this; linarith
  unfold Within
  have e : 2.01 * k / 2 ^ 51 = 2.01 * d := by rw [hdd]; ring
  rw [e, abs_le]
  have hd2 : d * d ≤ 1 / 2 ^ 40 * d := mul_le_mul_of_nonneg_right hd hd0
  constructor
  · have : A / B - 2.01 * d * (A / B) ≤ a / b := by
      rw [le_div_iff₀ hb0]
      have h1 : (A / B - 2.01 * d * (A / B)) * b ≤ (A / B - 2.01 * d * (A / B)) * (B + d * B) := by
        apply mul_le_mul_of_nonneg_left b2
        have : A / B - 2.01 * d * (A / B) = (1 - 2.01 * d) * (A / B) := by ring
        rw [this]
        apply _root_.mul_nonneg _ (by positivity)
        norm_num at hd; linarith
      have h2 : (A / B - 2.01 * d * (A / B)) * (B + d * B) = A * ((1 - 2.01 * d) * (1 + d)) := by field_simp
      have h3 : A * ((1 - 2.01 * d) * (1 + d)) ≤ A * (1 - d) := by
        apply mul_le_mul_of_nonneg_left _ hA.le
        nlinarith
      linarith
    linarith
  · have : a / b ≤ A / B + 2.01 * d * (A / B) := by
      rw [div_le_iff₀ hb0]
      have h1 : (A / B + 2.01 * d * (A / B)) * (B - d * B) ≤ (A / B + 2.01 * d * (A / B)) * b := by
        apply mul_le_mul_of_nonneg_left b1
        positivity
      have h2 : (A / B + 2.01 * d * (A / B)) * (B - d * B) = A * ((1 + 2.01 * d) * (1 - d)) := by field_simp
      have h3 : A * (1 + d) ≤ A * ((1 + 2.01 * d) * (1 - d)) := by
        apply mul_le_mul_of_nonneg_left _ hA.le
        norm_num at hd2
        nlinarith
      linarith
    linarith

/-- Errors add up. -/
theorem Within.trans {k k' z y x : ℝ} (hx : 0 < x) (hk : 0 ≤ k) (hk' : 0 ≤ k') (hk1 : k ≤ 1000) (hk1' : k' ≤ 1000) (h : Within k y x)
    (h' : Within k' z y) : Within (k + 1.01 * k') z x := by
  have b := h.bounds
  have hd : k / 2 ^ 51 ≤ 1 / 2 ^ 40 := by norm_num; linarith
  have hy : y ≤ 1.01 * x := by
    have : k / 2 ^ 51 * x ≤ 1 / 2 ^ 40 * x := mul_le_mul_of_nonneg_right hd hx.le
    norm_num at this; linarith [b.2]
  unfold Within at *
  have e : z - x = (z - y) + (y - x) := by ring
  rw [e]
  refine (abs_add_le _ _).trans ?_
  have : k' / 2 ^ 51 * y ≤ k' / 2 ^ 51 * (1.01 * x) := mul_le_mul_of_nonneg_left hy (by positivity)
  have e2 : (k + 1.01 * k') / 2 ^ 51 * x = k / 2 ^ 51 * x + k' / 2 ^ 51 * (1.01 * x) := by ring
  linarith

/-- A rounded quotient of two nearly correct numbers. -/
theorem within_fdiv {a b : α} {A B k : ℝ} (hA : 0 < A) (hB : 0 < B) (hk : 0 ≤ k) (hk1 : k ≤ 400) (ha : Within k (val a) A)
    (hb : Within k (val b) B) (hq : 1 / 2 ^ 39 ≤ A / B) : Within (2.01 * k + 1.01) (val (a / b)) (A / B) := by
  have hw := within_div hA hB hk (by linarith) ha hb
  have hpos : 0 < A / B := by positivity
  have hbn : val b ≠ 0 := by
    intro h0
    have := hb.bounds.1
    rw [h0] at this
    have hd : k / 2 ^ 51 ≤ 1 / 2 := by norm_num; linarith
    have : k / 2 ^ 51 * B ≤ 1 / 2 * B := mul_le_mul_of_nonneg_right hd hB.le
    linarith
  have hlow : 1 / 2 ^ 40 ≤ val a / val b := by
    have := hw.bounds.1
    have hd : 2.01 * k / 2 ^ 51 ≤ 1 / 2 := by norm_num; linarith
    have h2 : 2.01 * k / 2 ^ 51 * (A / B) ≤ 1 / 2 * (A / B) := mul_le_mul_of_nonneg_right hd hpos.le
    norm_num at hq ⊢
    linarith
  have := Within.trans hpos (by positivity) (by norm_num) (by linarith) (by norm_num) hw (within_of_err hlow (div_err a b hbn))
  rwa [mul_one] at this

theorem within_lit (m : Nat) (s : Bool) (e : Nat) {x : ℝ} (hx : (OfScientific.ofScientific m s e : ℝ) = x) (h0 : 1 / 2 ^ 40 ≤ x) :
    Within 1 (val (OfScientific.ofScientific m s e : α)) x := by
  have := lit_err (α := α) m s e
  rw [hx] at this
  exact within_of_err h0 this

theorem within_self {x : ℝ} (h : 0 ≤ x) : Within 1 x x := by
  unfold Within; rw [sub_self, abs_zero]; positivity

/-- The number of sub-timesteps computed from nearly correct times. -/
theorem interval_val {r d q : α} {R D : ℝ} {m : Nat} (hR : 0 < R) (hD : 0 < D) (hr : Within 7 (val r) R) (hd : Within 7 (val d) D)
    (h1 : (m : ℝ) ≤ R / D) (h2 : R / D ≤ m + 1 / 2) (hm1 : 1 ≤ m) (hm : m ≤ 100000) (hq : cdiv r d = .ok q) :
    CMath.toInt (q + 1.0e-8) = (m : Int) := by
  have hq' : q = r / d := by
    unfold cdiv at hq
    split at hq
    · simpa using hq.symm
    · simp at hq
  have hm1r : (1 : ℝ) ≤ m := by exact_mod_cast hm1
  have hmr : (m : ℝ) ≤ 100000 := by exact_mod_cast hm
  have hw := within_fdiv hR hD (by norm_num) (by norm_num) hr hd (by norm_num; linarith)
  rw [← hq'] at hw
  obtain ⟨w1, w2⟩ := hw.bounds
  have hc : Within 1 (val (1.0e-8 : α)) 1e-8 := within_lit 10 true 9 (by norm_num) (by norm_num)
  obtain ⟨c1, c2⟩ := hc.bounds
  have ha := add_err q (1.0e-8 : α)
  obtain ⟨t1, t2⟩ := toInt_nonneg (q + (1.0e-8 : α))
    (near_nonneg ha (by generalize val (1.0e-8 : α) = c at *; norm_num at w1 c1; linarith))
  generalize val (q + (1.0e-8 : α)) = y at *
  generalize val (1.0e-8 : α) = c at *
  generalize val q = x at *
  generalize R / D = z at *
  have hx1 : (m : ℝ) + 5e-9 ≤ x + c := by norm_num at w1 c1 ⊢; linarith
  have hx2 : x + c ≤ m + 0.6 := by norm_num at w2 c2 ⊢; linarith
  have hs := within_of_err (α := α) (y := y) (x := x + c) (by norm_num at hx1 ⊢; linarith)
    (ha.trans (by linarith [tiny_nonneg (α := α)]))
  obtain ⟨s1, s2⟩ := hs.bounds
  have hy1 : (m : ℝ) ≤ y := by norm_num at s1 hx1 hx2; linarith
  have hy2 : y < m + 1 := by norm_num at s2 hx2; linarith
  have k1 : (m : Int) < CMath.toInt (q + (1.0e-8 : α)) + 1 := by
    have : (m : ℝ) < ((CMath.toInt (q + (1.0e-8 : α)) + 1 : Int) : ℝ) := by push_cast; linarith
    exact_mod_cast this
  have k2 : CMath.toInt (q + (1.0e-8 : α)) < (m : Int) + 1 := by
    have : ((CMath.toInt (q + (1.0e-8 : α)) : Int) : ℝ) < ((m + 1 : Int) : ℝ) := by push_cast; linarith
    exact_mod_cast this
  omega

/-- Conversion to hours in rounded arithmetic. -/
theorem toHours_within {u : List Char} {x : α} (hx : 1 / 2 ^ 39 ≤ hoursOf u (val x)) :
    Within 4 (val (toHours u x)) (hoursOf u (val x)) := by
  unfold hoursOf at hx ⊢
  unfold toHours
  have e1 : isSec u = true ↔ u ∈ ["[s]".toList, "[sec]".toList, []] := by simp [isSec, or_assoc]
  have e2 : isMin u = true ↔ u ∈ ["[min]".toList, "[minute]".toList] := by simp [isMin]
  by_cases h1 : isSec u = true
  · rw [if_pos h1, if_pos (e1.mp h1)]
    rw [if_pos (e1.mp h1)] at hx
    have hp : 0 < val x := by norm_num at hx; linarith
    have := within_fdiv hp (by norm_num) (by norm_num) (by norm_num) (within_self hp.le)
      (within_lit (α := α) 36000 true 1 (x := 3600) (by norm_num) (by norm_num)) hx
    exact this.mono (by norm_num) (by positivity)
  · rw [if_neg h1, if_neg (fun h => h1 (e1.mpr h))]
    rw [if_neg (fun h => h1 (e1.mpr h))] at hx
    by_cases h2 : isMin u = true
    · rw [if_pos h2, if_pos (e2.mp h2)]
      rw [if_pos (e2.mp h2)] at hx
      have hp : 0 < val x := by norm_num at hx; linarith
      have := within_fdiv hp (by norm_num) (by norm_num) (by norm_num) (within_self hp.le)
        (within_lit (α := α) 600 true 1 (x := 60) (by norm_num) (by norm_num)) hx
      exact this.mono (by norm_num) (by positivity)
    · rw [if_neg h2, if_neg (fun h => h2 (e2.mpr h))]
      rw [if_neg (fun h => h2 (e2.mpr h))] at hx
      have hp : 0 < val x := lt_of_lt_of_le (by norm_num) hx
      split
      · have h := within_fdiv (a := x) (b := (1 : α)) hp one_pos (by norm_num) (by norm_num) (within_self hp.le)
          (by rw [val_one]; exact within_self zero_le_one) (by rw [div_one]; exact hx)
        rw [div_one] at h
        exact h.mono (by norm_num) hp.le
      · exact (within_self hp.le).mono (by norm_num) hp.le

/-- Product with a constant. -/
theorem within_fmul {a b : α} {A B : ℝ} (hA : 0 < A) (hB : 0 < B) (ha : Within 4 (val a) A) (hb : Within 1 (val b) B)
    (hq : 1 / 2 ^ 39 ≤ A * B) : Within 7 (val (a * b)) (A * B) := by
  have hpos : 0 < A * B := by positivity
  have hw : Within 5.01 (val a * val b) (A * B) := by
    obtain ⟨b1, b2⟩ := hb.bounds
    have hb' : |val b| ≤ 1.001 * B := by
      rw [abs_le]; norm_num at b1 b2 ⊢; constructor <;> linarith
    unfold Within at *
    have e : val a * val b - A * B = (val a - A) * val b + A * (val b - B) := by ring
    rw [e]
    refine (abs_add_le _ _).trans ?_
    rw [abs_mul, abs_mul, abs_of_pos hA]
    have x1 : |val a - A| * |val b| ≤ (4 / 2 ^ 51 * A) * (1.001 * B) := mul_le_mul ha hb' (abs_nonneg _) (by positivity)
    have x2 : A * |val b - B| ≤ A * (1 / 2 ^ 51 * B) := mul_le_mul_of_nonneg_left hb hA.le
    refine (add_le_add x1 x2).trans ?_
    have : 4 / 2 ^ 51 * A * (1.001 * B) + A * (1 / 2 ^ 51 * B) = 5.004 / 2 ^ 51 * (A * B) := by ring
    rw [this]
    apply mul_le_mul_of_nonneg_right _ hpos.le
    norm_num
  have hlow : 1 / 2 ^ 40 ≤ val a * val b := by
    have := hw.bounds.1
    norm_num at hq this ⊢
    linarith
  have := Within.trans hpos (by norm_num) (by norm_num) (by norm_num) (by norm_num) hw (within_of_err hlow (mul_err a b))
  exact this.mono (by norm_num) hpos.le

/-- What holds for every time the configuration can give holds for the one it gives. -/
theorem configLine_times {P : α → Prop} (hP : ∀ u x, P (toHours u x)) {env : Env α} {c c' : Cfg α} {line : List Char}
    (h : configLine env c line = .ok c') (h1 : ∀ x, c.timestep = some x → P x) (h2 : ∀ x, c.forcingRes = some x → P x) :
    (∀ x, c'.timestep = some x → P x) ∧ ∀ x, c'.forcingRes = some x → P x := by
  unfold configLine at h
  split at h
  · simp only [Except.ok.injEq] at h; subst h; exact ⟨h1, h2⟩
  · rename_i k _
    cases k <;> simp only [applyKey, bind_ok_iff, pure_eq_ok, Except.ok.injEq, cassert_ok_iff] at h
    case numTypes =>
      unfold setNumTypes at h
      split at h
      · simp at h
      · simp only [Except.ok.injEq] at h; subst h; exact ⟨h1, h2⟩
    case endtime =>
      unfold setEndtime at h
      by_cases hu : (isSec (paramUnit line) || isMin (paramUnit line) || isHour (paramUnit line) || isDay (paramUnit line)) = true
      · rw [if_pos hu] at h
        simp only [bind_ok_iff] at h
        obtain ⟨x, _, h⟩ := h
        split at h
        · simp at h
        · simp only [bind_ok_iff, pure_eq_ok, Except.ok.injEq] at h
          obtain ⟨_, _, rfl⟩ := h; exact ⟨h1, h2⟩
      · rw [if_neg hu] at h
        split at h
        · simp at h
        · simp only [bind_ok_iff, pure_eq_ok, Except.ok.injEq] at h
          obtain ⟨_, _, rfl⟩ := h; exact ⟨h1, h2⟩
    case timestep =>
      obtain ⟨x, hx, _, hp, rfl⟩ := h
      exact ⟨fun y hy => by simp only [Option.some.injEq] at hy; subst hy; exact hP _ _, h2⟩
    case forcingRes =>
      obtain ⟨x, hx, _, hp, rfl⟩ := h
      exact ⟨h1, fun y hy => by simp only [Option.some.injEq] at hy; subst hy; exact hP _ _⟩
    case soilFile => subst h; exact ⟨h1, h2⟩
    all_goals (obtain ⟨x, hx, rfl⟩ := h; exact ⟨h1, h2⟩)

theorem readConfig_times {P : α → Prop} (hP : ∀ u x, P (toHours u x)) {env : Env α} :
    ∀ {lines : List (List Char)} {c c' : Cfg α}, readConfig env c lines = .ok c' →
    (∀ x, c.timestep = some x → P x) → (∀ x, c.forcingRes = some x → P x) →
    (∀ x, c'.timestep = some x → P x) ∧ ∀ x, c'.forcingRes = some x → P x
  | [], c, c', h, h1, h2 => by
    simp only [readConfig, Except.ok.injEq] at h; subst h; exact ⟨h1, h2⟩
  | line :: rest, c, c', h, h1, h2 => by
    unfold readConfig at h
    simp only [bind_ok_iff] at h
    obtain ⟨c1, hc, h⟩ := h
    obtain ⟨h1, h2⟩ := configLine_times hP hc h1 h2
    exact readConfig_times hP h h1 h2

/-- The times after Initialize are given as a number and a unit. -/
theorem init_times {env : Env α} {lines : List (List Char)} {s : State α} (h : bmiInitialize env lines = .ok s) :
    ∃ u1 x1 u2 x2, s.p.timestepH = toHours u1 x1 ∧ s.p.forcingResH = toHours u2 x2 ∧ s.p.minTimestepH = s.p.timestepH ∧
      s.p.timeS = 0 ∧ s.p.timesteps = 0 ∧
      ∃ q, cdiv s.p.forcingResH s.p.timestepH = .ok q ∧ s.p.forcingInterval = CMath.toInt (q + 1.0e-8) := by
  obtain ⟨c, hc, h, _⟩ := bmiInitialize_inv h
  obtain ⟨p1, p2⟩ := readConfig_times (P := fun v => ∃ u x, v = toHours u x) (fun u x => ⟨u, x, rfl⟩) hc (by simp) (by simp)
  obtain ⟨ts, file, fl, soils, cnt, thick, psi, dt, endt, wp, fc, res, ords, inv, giuh, soilZ, q, depth, vs, cs, _, _, _, _, _,
    hthick, _, _, hdt, _, _, _, hres, _, _, _, _, hq, _, hgeo, hhead, hm, hlen, _, hs⟩ := lgarInit_inv h
  obtain ⟨u1, x1, e1⟩ := p1 _ hdt
  obtain ⟨u2, x2, e2⟩ := p2 _ hres
  refine ⟨u1, x1, u2, x2, by rw [hs]; exact e1, by rw [hs]; exact e2, by rw [hs], by rw [hs], by rw [hs], q, by rw [hs]; exact hq,
    by rw [hs]⟩

/-- The sub-timesteps advance the clock one by one. -/
theorem subLoop_clock {c : StepCfg α} {P : Int → α → Prop} (hstep : ∀ k t, P k t → P (k + 1) (t + c.dt * 3600.0)) :
    ∀ {n : Nat} {s s' : SubSt α}, P s.timesteps s.timeS → subLoop c n s = .ok s' →
    P s'.timesteps s'.timeS ∧ s.timesteps ≤ s'.timesteps ∧ (c.standalone = false → s'.timesteps = s.timesteps + n)
  | 0, s, s', hp, h => by
    simp only [subLoop, Except.ok.injEq] at h; subst h; exact ⟨hp, le_refl _, fun _ => by simp⟩
  | n + 1, s, s', hp, h => by
    unfold subLoop at h
    simp only [bind_ok_iff] at h
    obtain ⟨s1, h1, h⟩ := h
    obtain ⟨aet, vs, h0, hs, f, l, ve, hh, _, _, _, _, _, _, _, _, _, _, he⟩ := subStep_inv h1
    have e1 : s1.timeS = s.timeS + c.dt * 3600.0 := by rw [he]
    have e2 : s1.timesteps = s.timesteps + 1 := by rw [he]
    have hp1 : P s1.timesteps s1.timeS := by rw [e1, e2]; exact hstep _ _ hp
    split at h
    · rename_i hc
      simp only [pure_eq_ok, Except.ok.injEq] at h
      subst h
      exact ⟨hp1, by omega, fun hsa => by rw [hsa] at hc; simp at hc⟩
    · obtain ⟨i1, i2, i3⟩ := subLoop_clock hstep hp1 h
      exact ⟨i1, by omega, fun hsa => by rw [i3 hsa, e2]; push_cast; ring⟩

/-- What an Update does to the clock. -/
theorem update_clock {fuel : Nat} {sa : Bool} {s s' : State α} (hv : s.p.invalidSoil = false) (h : update fuel sa s = .ok s') :
    s'.p.timestepH = chooseTimestep s.p s.precipMm s.mb.volonT ∧
    (∃ q, cdiv s.p.forcingResH s'.p.timestepH = .ok q ∧ s'.p.forcingInterval = CMath.toInt (q + 1.0e-8)) ∧
    s.p.timesteps ≤ s'.p.timesteps ∧ (sa = false → s'.p.timesteps = s.p.timesteps + s'.p.forcingInterval.toNat) ∧
    ∀ P : Int → α → Prop, (∀ k t, P k t → P (k + 1) (t + s'.p.timestepH * 3600.0)) → P s.p.timesteps s.p.timeS →
      P s'.p.timesteps s'.p.timeS := by
  rcases update_inv h with ⟨hi, _⟩ | ⟨_, s1, d, v, u, h1, _, hu, h2⟩
  · rw [hv] at hi; simp at hi
  obtain ⟨giuh, queue, _, _, _, _, _, _, _, _, _, _, hpp, hmb, _⟩ := updatePost_inv h2
  obtain ⟨hpr, hpe, fs, soils, l, fc, pm, q, hq, rfl, _⟩ := updatePre_inv h1
  rw [hpp]
  simp only
  obtain ⟨_, i2, i3⟩ := subLoop_clock (P := fun _ _ => True) (fun _ _ _ => trivial) trivial hu
  refine ⟨trivial, ⟨q, hq, rfl⟩, i2, i3, fun P hP hp => ?_⟩
  exact (subLoop_clock (c := stepCfg _ _ _) hP hp hu).1

/-- The sub-timestep chosen for an Update, and the number of sub-timesteps that follows. -/
theorem interval_of_choice {p : Params α} {pr v q : α} {R D : ℝ} {n : Nat} (hr : Within 4 (val p.forcingResH) R)
    (hmn : Within 4 (val p.minTimestepH) D) (hdt : p.adaptive = false → p.timestepH = p.minTimestepH)
    (hD : 1 / 2 ^ 39 ≤ D) (hn : R = n * D) (hn1 : 1 ≤ n) (hn2 : n ≤ 100000)
    (hq : cdiv p.forcingResH (chooseTimestep p pr v) = .ok q) :
    CMath.toInt (q + 1.0e-8) =
      if p.adaptive = false ∨ 10.0 < pr ∨ 0 < v then (n : Int) else if 0 < pr then max 1 ((n / 2 : Nat) : Int) else 1 := by
  have hD0 : 0 < D := lt_of_lt_of_le (by norm_num) hD
  have hn1r : (1 : ℝ) ≤ n := by exact_mod_cast hn1
  have hR0 : 0 < R := by rw [hn]; positivity
  have hRD : R / D = n := by rw [hn]; field_simp
  have hRR : R / R = ((1 : Nat) : ℝ) := by rw [div_self hR0.ne']; simp
  have hr7 := hr.mono (k' := 7) (by norm_num) hR0.le
  have hm7 := hmn.mono (k' := 7) (by norm_num) hD0.le
  have res : ∀ d : α, val d = val p.forcingResH → cdiv p.forcingResH d = .ok q → CMath.toInt (q + 1.0e-8) = ((1 : Nat) : Int) := by
    intro d hd h
    exact interval_val (m := 1) hR0 hR0 hr7 (by rw [hd]; exact hr7) hRR.ge (by rw [hRR]; norm_num) (by norm_num) (by norm_num) h
  have dmin : ∀ d : α, val d = val p.minTimestepH → cdiv p.forcingResH d = .ok q → CMath.toInt (q + 1.0e-8) = (n : Int) := by
    intro d hd h
    exact interval_val (m := n) hR0 hD0 hr7 (by rw [hd]; exact hm7) hRD.ge (by rw [hRD]; norm_num) hn1 hn2 h
  unfold chooseTimestep at hq
  by_cases had : p.adaptive = true
  · rw [if_pos had] at hq
    simp only at hq
    have hcond : (p.adaptive = false ∨ 10.0 < pr ∨ 0 < v) ↔ (10.0 < pr ∨ 0 < v) := by simp [had]
    simp only [hcond]
    by_cases hh : 10.0 < pr ∨ 0 < v
    · rw [if_pos hh] at hq ⊢
      rcases min_choice (val p.minTimestepH) (val p.forcingResH) with hm | hm
      · exact dmin _ (by rw [fmin_val, hm]) hq
      · have h1 := res _ (by rw [fmin_val, hm]) hq
        rw [h1]
        have hle : val p.forcingResH ≤ val p.minTimestepH := by rw [← hm]; exact min_le_left _ _
        obtain ⟨a1, _⟩ := hr.bounds
        obtain ⟨_, a2⟩ := hmn.bounds
        have : n < 2 := by
          by_contra hc
          have hc' : (2 : ℝ) ≤ n := by exact_mod_cast not_lt.mp hc
          have : 2 * D ≤ R := by rw [hn]; exact mul_le_mul_of_nonneg_right hc' hD0.le
          norm_num at a1 a2
          linarith
        have : n = 1 := by omega
        rw [this]
    · rw [if_neg hh] at hq ⊢
      by_cases hp : 0 < pr
      · rw [if_pos hp] at hq ⊢
        have hd2 : Within 7 (val (p.minTimestepH * (2.0 : α))) (D * 2) :=
          within_fmul hD0 (by norm_num) hmn (within_lit (α := α) 20 true 1 (x := 2) (by norm_num) (by norm_num))
            (by norm_num at hD ⊢; linarith)
        rcases min_choice (val (p.minTimestepH * (2.0 : α))) (val p.forcingResH) with hm | hm
        · by_cases hn3 : n = 1
          · -- then the doubled step is longer than the interval and is not chosen
            exfalso
            obtain ⟨a1, _⟩ := hd2.bounds
            obtain ⟨_, a2⟩ := hr.bounds
            have hle : val (p.minTimestepH * (2.0 : α)) ≤ val p.forcingResH := by rw [← hm]; exact min_le_right _ _
            rw [hn, hn3] at a2
            norm_num at a1 a2
            linarith
          · have hR2 : R / (D * 2) = (n : ℝ) / 2 := by rw [hn]; field_simp
            have hdm : n = 2 * (n / 2) + n % 2 := (Nat.div_add_mod n 2).symm
            have hdm' : (n : ℝ) = 2 * ((n / 2 : Nat) : ℝ) + ((n % 2 : Nat) : ℝ) := by exact_mod_cast hdm
            have hmod : ((n % 2 : Nat) : ℝ) ≤ 1 := by
              have : n % 2 ≤ 1 := by omega
              exact_mod_cast this
            have h1 := interval_val (m := n / 2) hR0 (by positivity : 0 < D * 2) hr7 (by rw [fmin_val, hm]; exact hd2)
              (by rw [hR2]; linarith [(Nat.cast_nonneg (n % 2) : (0 : ℝ) ≤ _)]) (by rw [hR2]; linarith) (by omega) (by omega) hq
            rw [h1]
            omega
        · have h1 := res _ (by rw [fmin_val, hm]) hq
          rw [h1]
          have hle : val p.forcingResH ≤ val (p.minTimestepH * (2.0 : α)) := by rw [← hm]; exact min_le_left _ _
          obtain ⟨a1, _⟩ := hr.bounds
          obtain ⟨_, a2⟩ := hd2.bounds
          have : n < 4 := by
            by_contra hc
            have hc' : (4 : ℝ) ≤ n := by exact_mod_cast not_lt.mp hc
            have : 4 * D ≤ R := by rw [hn]; exact mul_le_mul_of_nonneg_right hc' hD0.le
            norm_num at a1 a2
            linarith
          omega
      · rw [if_neg hp] at hq ⊢
        exact res _ (by rw [fmin_val, min_self]) hq
  · rw [if_neg had] at hq
    have had' : p.adaptive = false := by simpa using had
    rw [if_pos (.inl had')]
    exact dmin _ (by rw [hdt had']) hq

/-- One more sub-timestep on the clock. -/
theorem clock_step {t dt : α} {D : ℝ} {k : Int} (hk : 0 ≤ k) (hk2 : k ≤ 2 ^ 40) (hD : 1 / 2 ^ 39 ≤ D) (hdt : Within 4 (val dt) D)
    (h : |val t - k * (D * 3600)| ≤ k * (k + 40) / 2 ^ 52 * (D * 3600)) :
    |val (t + dt * 3600.0) - ((k + 1 : Int) : ℝ) * (D * 3600)| ≤
      ((k + 1 : Int) : ℝ) * (((k + 1 : Int) : ℝ) + 40) / 2 ^ 52 * (D * 3600) := by
  have hD0 : 0 < D := lt_of_lt_of_le (by norm_num) hD
  have hw : Within 7 (val (dt * (3600.0 : α))) (D * 3600) :=
    within_fmul hD0 (by norm_num) hdt (within_lit (α := α) 36000 true 1 (x := 3600) (by norm_num) (by norm_num))
      (by norm_num at hD ⊢; linarith)
  have hW0 : 0 < D * 3600 := by positivity
  generalize D * 3600 = W at *
  unfold Within at hw
  have ha := add_err t (dt * (3600.0 : α))
  generalize val (t + dt * (3600.0 : α)) = y at *
  generalize val (dt * (3600.0 : α)) = w at *
  generalize val t = x at *
  have hk0 : (0 : ℝ) ≤ (k : ℝ) := by exact_mod_cast hk
  have hk2r : (k : ℝ) ≤ 2 ^ 40 := by exact_mod_cast hk2
  push_cast
  generalize (k : ℝ) = m at *
  have hS : |x + w - (m + 1) * W| ≤ (m * (m + 40) + 14) / 2 ^ 52 * W := by
    have e : x + w - (m + 1) * W = (x - m * W) + (w - W) := by ring
    rw [e]
    refine (abs_add_le _ _).trans ((add_le_add h hw).trans (le_of_eq ?_))
    ring
  have hsmall : (m * (m + 40) + 14) / 2 ^ 52 ≤ (m + 1) / 1000 := by
    have : m * m ≤ 2 ^ 40 * m := mul_le_mul_of_nonneg_right hk2r hk0
    norm_num at this ⊢
    linarith
  have hS2 : |x + w - (m + 1) * W| ≤ (m + 1) / 1000 * W := hS.trans (mul_le_mul_of_nonneg_right hsmall hW0.le)
  have hxw : |x + w| ≤ 1.001 * ((m + 1) * W) := by
    have hp : 0 ≤ (m + 1) * W := by positivity
    have b := abs_le.mp hS2
    rw [abs_le]; constructor <;> linarith [b.1, b.2]
  have hy : |y| ≤ 1.02 * ((m + 1) * W) := by
    have := near_abs ha
    have hp : 0 ≤ (m + 1) * W := by positivity
    linarith
  have hr : |y - (x + w)| ≤ 1.02 * (m + 1) / 2 ^ 52 * W := by
    have h1 : eps α * |y| ≤ 1 / 2 ^ 52 * |y| := mul_le_mul_of_nonneg_right eps_le (abs_nonneg _)
    have h2 : 1 / 2 ^ 52 * |y| ≤ 1 / 2 ^ 52 * (1.02 * ((m + 1) * W)) := mul_le_mul_of_nonneg_left hy (by norm_num)
    refine ha.trans (h1.trans (h2.trans (le_of_eq ?_)))
    ring
  have e : y - (m + 1) * W = (y - (x + w)) + (x + w - (m + 1) * W) := by ring
  rw [e]
  refine (abs_add_le _ _).trans ((add_le_add hr hS).trans ?_)
  rw [← add_mul]
  apply mul_le_mul_of_nonneg_right _ hW0.le
  rw [← add_div]
  apply div_le_div_of_nonneg_right _ (by positivity)
  nlinarith

/-- The times along a run. -/
theorem run_times {s0 s : State α} {hist : List (State α)} (hd : s0.p.timestepH = s0.p.minTimestepH) (hr : Run s0 hist s) :
    s.p.invalidSoil = s0.p.invalidSoil ∧ s.p.adaptive = s0.p.adaptive ∧ s.p.forcingResH = s0.p.forcingResH ∧
      s.p.minTimestepH = s0.p.minTimestepH ∧ (s0.p.adaptive = false → s.p.timestepH = s0.p.minTimestepH) := by
  induction hr with
  | nil => exact ⟨rfl, rfl, rfl, rfl, fun _ => hd⟩
  | @step hist s s1 s2 fuel sa _ hi hu ih =>
    obtain ⟨i1, i2, i3, i4, i5⟩ := ih
    obtain ⟨_, _, _, _, _, _, _, _, _, ip⟩ := hi.frame
    have e1 : s1.p.invalidSoil = s.p.invalidSoil := by rw [ip]
    have e2 : s1.p.adaptive = s.p.adaptive := by rw [ip]
    have e3 : s1.p.forcingResH = s.p.forcingResH := by rw [ip]
    have e4 : s1.p.minTimestepH = s.p.minTimestepH := by rw [ip]
    have e5 : s1.p.timestepH = s.p.timestepH := by rw [ip]
    obtain ⟨_, _, _, u1, u2, u3, _, _, u4, _⟩ := update_fixed hu
    refine ⟨by rw [u1, e1, i1], by rw [u4, e2, i2], by rw [u2, e3, i3], by rw [u3, e4, i4], fun had => ?_⟩
    rcases update_inv hu with ⟨_, rfl⟩ | ⟨hv, _⟩
    · show s1.p.timestepH = _; rw [e5, i5 had]
    · rw [(update_clock hv hu).1, chooseTimestep, if_neg (by rw [e2, i2, had]; simp), e5, i5 had]

theorem init_valid {env : Env α} {lines : List (List Char)} {s : State α} (h : bmiInitialize env lines = .ok s) :
    s.p.invalidSoil = false := by
  obtain ⟨c, _, h, _⟩ := bmiInitialize_inv h
  exact lgarInit_valid h

end LGAR
