import Verif.Props.Routing
import Verif.Spec.SampleRun
import Verif.Lemmas.Update
import Verif.Props.Recharge
import Verif.Props.Pond
/-
C103: when the rain has stopped and the surface is dry, nothing enters or runs off, and discharge ends with the unit hydrograph.
-/
set_option linter.unusedSectionVars false
namespace LGAR

section Free
variable {α : Type} [Add α] [Sub α] [Mul α] [Div α] [Neg α] [Zero α] [One α] [OfScientific α]
  [LT α] [LE α] [DecidableLT α] [DecidableLE α] [BEq α] [CMath α]

/-- The Update with index `t` of a run leads from state `t` (0 is the initial one) to state `t + 1`. -/
theorem run_at {s0 s : State α} {hist : List (State α)} (hr : Run s0 hist s) :
    (s0 :: hist).getLast? = some s ∧ ∀ (t : Nat) (a b : State α), (s0 :: hist)[t]? = some a → hist[t]? = some b →
      ∃ (s1 : State α) (fuel : Nat) (sa : Bool), Inputs a s1 ∧ update fuel sa s1 = .ok b := by
  induction hr with
  | nil => exact ⟨rfl, fun t a b _ h => by simp at h⟩
  | @step hist s s1 s2 fuel sa hr hi hu ih =>
    refine ⟨by rw [← List.cons_append, List.getLast?_append]; rfl, fun t a b ha hb => ?_⟩
    rcases Nat.lt_or_ge t hist.length with hlt | hge
    · rw [List.getElem?_append_left hlt] at hb
      rw [← List.cons_append, List.getElem?_append_left (by simp; omega)] at ha
      exact ih.2 t a b ha hb
    · have ht : t = hist.length := by
        have := (List.getElem?_eq_some_iff.mp hb).1
        simp at this; omega
      subst ht
      rw [List.getElem?_append_right hge] at hb
      simp only [Nat.sub_self, List.getElem?_cons_zero, Option.some.injEq] at hb
      subst hb
      rw [← List.cons_append, List.getElem?_append_left (by simp)] at ha
      have hl := ih.1
      rw [List.getLast?_eq_getElem?] at hl
      simp only [List.length_cons, Nat.add_sub_cancel] at hl
      rw [hl, Option.some.injEq] at ha
      subst ha
      exact ⟨s1, fuel, sa, hi, hu⟩

/-- Dropping the Updates after the first `n` leaves a run. -/
theorem run_prefix {s0 s : State α} {hist : List (State α)} (hr : Run s0 hist s) (t : Nat) (a : State α)
    (ha : (s0 :: hist)[t]? = some a) : Run s0 (hist.take t) a := by
  induction hr with
  | nil =>
    cases t with
    | zero => simp at ha; subst ha; exact .nil
    | succ t => simp at ha
  | @step hist s s1 s2 fuel sa hr hi hu ih =>
    rcases Nat.lt_or_ge t (hist.length + 1) with hlt | hge
    · rw [← List.cons_append, List.getElem?_append_left (by simpa using hlt)] at ha
      rw [List.take_append_of_le_length (by omega)]
      exact ih ha
    · have ht : t = hist.length + 1 := by
        have := (List.getElem?_eq_some_iff.mp ha).1
        simp at this; omega
      subst ht
      rw [← List.cons_append, List.getElem?_append_right (by simp)] at ha
      simp at ha
      subst ha
      rw [List.take_of_length_le (by simp)]
      exact .step hr hi hu

end Free

section Exact
variable {K : Type} [Field K] [LinearOrder K] [IsStrictOrderedRing K] [CMath K] [LawfulNum K]

theorem subStep_dry {c : StepCfg K} {s s' : SubSt K} (h : subStep c s = .ok s') (hp : s.precipMm ≤ 0) (hv : s.volon = 0)
    (hm : 0 ≤ c.pondMax) : s'.precipMm ≤ 0 ∧ s'.volon = 0 ∧ s'.volinT = s.volinT ∧ s'.runoffT = s.runoffT ∧ s'.precipT = s.precipT := by
  obtain ⟨aet, vs, h0, hs, f, l, ve, h1, _, _, _, _, hf, _, _, _, _, _, rfl⟩ := subStep_inv h
  have hx : CMath.fmax s.precipMm 0 = 0 := by rw [fmax_eq, max_eq_right hp]
  simp only [hx, zero_mul, hv, add_zero] at hf ⊢
  have hw : ∀ a b c d : K, wantsFront a 0 b c d = false := fun a b c d => by simp [wantsFront]
  rw [hw] at hf
  unfold subFlow at hf
  simp only [Bool.false_eq_true, if_false] at hf
  obtain ⟨hsf, _, _, h4, h5, _⟩ := flowMove_inv hf
  unfold surfaceFlow at hsf
  rw [if_neg (lt_irrefl _)] at hsf
  rw [if_neg (lt_irrefl _)] at h4
  have : f.runoff = 0 ∧ f.volon = 0 := by
    split at hsf
    · simp only [Except.ok.injEq, Prod.mk.injEq] at hsf
      exact ⟨hsf.1.symm, hsf.2.2.1.symm⟩
    · next hlt =>
      have e : c.pondMax = 0 := le_antisymm (not_lt.mp hlt) hm
      simp only [Except.ok.injEq, Prod.mk.injEq, e, sub_zero] at hsf
      exact ⟨hsf.1.symm, hsf.2.2.1.symm⟩
  exact ⟨le_refl _, this.2, h4, by rw [h5, this.1, add_zero], trivial⟩

/-- C103, one Update: without rain and without water on the surface, nothing infiltrates, nothing runs off, and the surface stays dry. -/
theorem C103_dry (fuel : Nat) (sa : Bool) (s s' : State K) (h : update fuel sa s = .ok s') (hi : s.p.invalidSoil = false)
    (hp : s.precipMm ≤ 0) (hv : s.mb.volonT = 0) (hm : 0 ≤ s'.p.pondMax) :
    s'.conv.precip = 0 ∧ s'.conv.infil = 0 ∧ s'.conv.runoff = 0 ∧ s'.mb.volonT = 0 ∧ s'.mb.volprecip = s.mb.volprecip ∧
      s'.mb.volin = s.mb.volin ∧ s'.mb.volrunoff = s.mb.volrunoff := by
  rcases update_inv h with ⟨hb, _⟩ | ⟨_, sp, d, v, u, h1, _, hl, h2⟩
  · rw [hi] at hb; simp at hb
  obtain ⟨giuh, queue, _, _, _, _, _, _, _, _, _, _, hpp, hmb, hconv⟩ := updatePost_inv h2
  obtain ⟨_, _, fs, soils, l, fc, pm, q, _, rfl, _, _⟩ := updatePre_inv h1
  have hpm : 0 ≤ pm := by rw [hpp] at hm; exact hm
  have key : u.precipMm ≤ 0 ∧ u.volon = 0 ∧ u.volinT = 0 ∧ u.runoffT = 0 ∧ u.precipT = 0 := by
    refine subLoop_ind (P := fun u => u.precipMm ≤ 0 ∧ u.volon = 0 ∧ u.volinT = 0 ∧ u.runoffT = 0 ∧ u.precipT = 0)
      (fun a b ha hb => ?_) ⟨hp, hv, rfl, rfl, rfl⟩ hl
    obtain ⟨k1, k2, k3, k4, k5⟩ := subStep_dry hb ha.1 ha.2.1 hpm
    exact ⟨k1, k2, by rw [k3]; exact ha.2.2.1, by rw [k4]; exact ha.2.2.2.1, by rw [k5]; exact ha.2.2.2.2⟩
  obtain ⟨_, k2, k3, k4, k5⟩ := key
  rw [hconv, hmb]
  simp only [k2, k3, k4, k5, zero_mul, add_zero, and_self]

/-- The rain an Update leaves in the input (clamped at zero) is not positive only if the rain given was not. -/
theorem update_norain {fuel : Nat} {sa : Bool} {s s' : State K} (h : update fuel sa s = .ok s') (hi : s.p.invalidSoil = false)
    (hp : s'.precipMm ≤ 0) : s.precipMm ≤ 0 := by
  rcases update_inv h with ⟨hb, _⟩ | ⟨_, sp, d, v, u, h1, _, hl, h2⟩
  · rw [hi] at hb; simp at hb
  obtain ⟨giuh, queue, _, _, _, _, hpr, _⟩ := updatePost_inv h2
  obtain ⟨_, _, fs, soils, l, fc, pm, q, _, rfl, _, _⟩ := updatePre_inv h1
  rw [hpr] at hp
  refine subLoop_ind (P := fun u => u.precipMm ≤ 0 → s.precipMm ≤ 0) (fun a b ha hb hb0 => ?_) (fun h => h) hl hp
  obtain ⟨aet, vs, h0, hs, f, l, ve, h1, _, _, _, _, hf, _, _, _, _, _, rfl⟩ := subStep_inv hb
  exact ha (le_trans (by rw [fmax_eq]; exact le_max_left _ _) hb0)

theorem update_giuhQ {fuel : Nat} {sa : Bool} {s s' : State K} (h : update fuel sa s = .ok s') (hi : s.p.invalidSoil = false) :
    s'.conv.Q = s'.conv.giuh := by
  rcases update_inv h with ⟨hb, _⟩ | ⟨_, sp, d, v, u, h1, _, hl, h2⟩
  · rw [hi] at hb; simp at hb
  obtain ⟨giuh, queue, _, _, _, _, _, _, _, _, _, _, _, _, hconv⟩ := updatePost_inv h2
  rw [hconv]

/-- C103 over runs: from state `t0` on (0: after initialisation) no rain is given, the surface of state `t0` is dry and the ponding maxima
are not negative.  Then no later Update infiltrates or sheds water, the surface stays dry, and from Update `t0 + number of ordinates` on
the routed runoff and the discharge are zero. -/
theorem C103_recession (env : Env K) (lines : List (List Char)) (s0 s : State K) (hist : List (State K))
    (h0 : bmiInitialize env lines = .ok s0) (hr : Run s0 hist s) (t0 : Nat) (a : State K) (ha : (s0 :: hist)[t0]? = some a)
    (hv : a.mb.volonT = 0) (hm : ∀ x ∈ hist, 0 ≤ x.p.pondMax)
    (hdry : ∀ (t : Nat) (x : State K), t0 ≤ t → hist[t]? = some x → x.precipMm ≤ 0) :
    ∀ (t : Nat) (x : State K), t0 ≤ t → hist[t]? = some x → x.conv.infil = 0 ∧ x.conv.runoff = 0 ∧ x.mb.volonT = 0 ∧
      (t0 + s0.giuhOrd.length ≤ t → x.conv.giuh = 0 ∧ x.conv.Q = 0) := by
  obtain ⟨_, hstep⟩ := run_at hr
  have hone : ∀ (t : Nat) (y x : State K), t0 ≤ t → (s0 :: hist)[t]? = some y → y.mb.volonT = 0 → hist[t]? = some x →
      x.conv.infil = 0 ∧ x.conv.runoff = 0 ∧ x.mb.volonT = 0 ∧ x.conv.Q = x.conv.giuh := by
    intro t y x ht hy hyv hx
    obtain ⟨s1, fuel, sa, hin, hu⟩ := hstep t y x hy hx
    have hval := run_validSoil h0 (run_prefix hr t y hy)
    obtain ⟨_, _, hmb, _, _, _, _, _, _, ip⟩ := hin.frame
    have hval1 : s1.p.invalidSoil = false := by rw [ip]; exact hval
    have hd := C103_dry fuel sa s1 x hu hval1 (update_norain hu hval1 (hdry t x ht hx)) (by rw [hmb]; exact hyv)
      (hm x (List.mem_of_getElem? hx))
    exact ⟨hd.2.1, hd.2.2.1, hd.2.2.2.1, update_giuhQ hu hval1⟩
  have key : ∀ (n : Nat) (x : State K), hist[t0 + n]? = some x →
      x.conv.infil = 0 ∧ x.conv.runoff = 0 ∧ x.mb.volonT = 0 ∧ x.conv.Q = x.conv.giuh := by
    intro n
    induction n with
    | zero => intro x hx; exact hone t0 a x le_rfl ha hv hx
    | succ n ih =>
      intro x hx
      have hlt := (List.getElem?_eq_some_iff.mp hx).1
      have hy : hist[t0 + n]? = some (hist[t0 + n]'(by omega)) := List.getElem?_eq_getElem _
      exact hone (t0 + (n + 1)) _ x (by omega) (by rw [← Nat.add_assoc, List.getElem?_cons_succ]; exact hy) (ih _ hy).2.2.1 hx
  intro t x ht hx
  obtain ⟨n, rfl⟩ := Nat.exists_eq_add_of_le ht
  obtain ⟨k1, k2, k3, k4⟩ := key n x hx
  refine ⟨k1, k2, k3, fun hlen => ?_⟩
  have hg : x.conv.giuh = 0 := by
    rw [C31_run env lines s0 s hist h0 hr (t0 + n) x hx]
    refine Finset.sum_eq_zero fun k hk => ?_
    rcases Nat.lt_or_ge k s0.giuhOrd.length with hlt | hge
    · have hz : (hist.map fun y => y.conv.runoff).getD (t0 + n - k) 0 = 0 := by
        rw [List.getD_eq_getElem?_getD, List.getElem?_map]
        cases hc : hist[t0 + n - k]? with
        | none => rfl
        | some y =>
          have e : t0 + n - k = t0 + (n - k) := by omega
          rw [e] at hc
          exact (key (n - k) y hc).2.1
      rw [hz, mul_zero]
    · rw [List.getD_eq_getElem?_getD, List.getElem?_eq_none hge]
      simp
  exact ⟨hg, by rw [k4, hg]⟩

end Exact

/-! ### Non-vacuity

An hour with 120 mm of rain on the two-layer column without ponding, then three dry hours: the rain gives runoff, the second Update
still routes some of it, the fourth does not. -/

def RecessionTest (a : State Grid × List (State Grid)) : Prop :=
  a.1.giuhOrd.length = 2 ∧ a.2.length = 4 ∧ (∀ x ∈ a.2, x.p.pondMax = 0) ∧ (∀ x ∈ a.2.drop 1, x.precipMm = 0) ∧
    (∀ x ∈ a.2.take 1, x.mb.volonT = 0 ∧ 0 < x.conv.runoff ∧ 0 < x.conv.infil) ∧ ∀ x ∈ (a.2.drop 1).take 1, 0 < x.conv.giuh

instance : DecidablePred RecessionTest := fun a => by unfold RecessionTest; infer_instance

theorem recession_check : Sample.okAnd (Sample.play cfgNoPond 1000 true [(120, 0), (0, 0), (0, 0), (0, 0)])
    (fun a => decide (RecessionTest a)) = true := by
  decide +kernel

theorem list4 {β : Type} {l : List β} (h : l.length = 4) : ∃ a b c d, l = [a, b, c, d] := by
  match l, h with
  | [a, b, c, d], _ => exact ⟨a, b, c, d, rfl⟩

attribute [local irreducible] Sample.env cfgNoPond Sample.play bmiInitialize in
/-- C103_recession with `t0 = 1`. -/
example : ∃ (env : Env Grid) (lines : List (List Char)) (s0 s a b : State Grid) (hist : List (State Grid)),
    bmiInitialize env lines = .ok s0 ∧ Run s0 hist s ∧ hist.length = 4 ∧ s0.giuhOrd.length = 2 ∧ (s0 :: hist)[1]? = some a ∧
      a.mb.volonT = 0 ∧ 0 < a.conv.runoff ∧ 0 < a.conv.infil ∧ (∀ x ∈ hist, 0 ≤ x.p.pondMax) ∧
      (∀ (t : Nat) (x : State Grid), 1 ≤ t → hist[t]? = some x → x.precipMm ≤ 0) ∧ hist[1]? = some b ∧ 0 < b.conv.giuh := by
  obtain ⟨s0, hist, s, h1, h2, ⟨t1, t2, t3, t4, t5, t6⟩, _⟩ := Sample.play_run recession_check
  obtain ⟨a, b, c, d, rfl⟩ := list4 t2
  obtain ⟨k1, k2, k3⟩ := t5 a List.mem_cons_self
  have k4 : 0 < b.conv.giuh := t6 b List.mem_cons_self
  have k5 : ∀ x ∈ [a, b, c, d], 0 ≤ x.p.pondMax := fun x hx => le_of_eq (t3 x hx).symm
  have k6 : ∀ (t : Nat) (x : State Grid), 1 ≤ t → [a, b, c, d][t]? = some x → x.precipMm ≤ 0 := by
    intro t x ht hx
    obtain ⟨n, rfl⟩ := Nat.exists_eq_add_of_le ht
    rw [Nat.add_comm] at hx
    exact le_of_eq (t4 x (List.mem_of_getElem? (l := [b, c, d]) (i := n) hx))
  exact ⟨Sample.env, cfgNoPond, s0, s, a, b, [a, b, c, d], h1, h2.run, rfl, t1, rfl, k1, k2, k3, k5, k6, rfl, k4⟩

end LGAR
