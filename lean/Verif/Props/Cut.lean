import Verif.Lemmas.Cut
import Verif.Lemmas.Init
import Verif.Num.Lawful
import Verif.Spec.SampleRun
import Mathlib.Tactic.Linarith
import Mathlib.Tactic.FieldSimp
import Mathlib.Tactic.Positivity
/-
C75: with a fixed sub-timestep it does not matter into how many Updates a period of constant forcing is cut.
-/
set_option linter.unusedSectionVars false
namespace LGAR

section Free
variable {α : Type} [Add α] [Sub α] [Mul α] [Div α] [Neg α] [Zero α] [One α] [OfScientific α]
  [LT α] [LE α] [DecidableLT α] [DecidableLE α] [BEq α] [CMath α]

/-- C75, one way, for every arithmetic with `fmax(fmax(y,0),0) = fmax(y,0)`: if the run with the long interval gets through, so
does the run with intervals `k` times shorter, each input given `k` times, and it ends with the same fronts, snapshot, soils,
ponded water, clock and parameters, bit for bit. -/
theorem C75_split (hmax : ∀ y : α, CMath.fmax (CMath.fmax y 0) 0 = CMath.fmax y 0) {fuel : Nat} {sa : Bool} {k na nb : Nat}
    (hk : 0 < k) {xs : List (Drive α)} : ∀ {a b a' : State α}, Comparable a b k na nb → Driven fuel sa a xs a' →
    ∃ b', Driven fuel sa b (repeated k xs) b' ∧ SamePhysics a' b' := by
  induction xs with
  | nil =>
    intro a b a' hc h
    cases h
    exact ⟨b, .nil, hc.same⟩
  | cons x xs ih =>
    intro a b a' hc h
    cases h with
    | cons hu hp h =>
      obtain ⟨b1, hb1, hs, _⟩ := one_to_many (T := fun _ _ _ _ _ => True) hmax (fun _ _ _ _ _ _ => trivial)
        (fun _ _ _ _ _ _ _ _ _ => trivial) hk hc hu hp
      obtain ⟨b', hb', hs'⟩ := ih (hc.next (.cons hu hp .nil) hb1 hs) h
      exact ⟨b', hb1.append hb', hs'⟩

/-- C75, the other way: if the run with the short intervals gets through, so does the one with the long interval. -/
theorem C75_join (hmax : ∀ y : α, CMath.fmax (CMath.fmax y 0) 0 = CMath.fmax y 0) {fuel : Nat} {sa : Bool} {k na nb : Nat}
    (hk : 0 < k) {xs : List (Drive α)} : ∀ {a b b' : State α}, Comparable a b k na nb → Driven fuel sa b (repeated k xs) b' →
    ∃ a', Driven fuel sa a xs a' ∧ SamePhysics a' b' := by
  induction xs with
  | nil =>
    intro a b b' hc h
    simp only [repeated] at h
    cases h
    exact ⟨a, .nil, hc.same⟩
  | cons x xs ih =>
    intro a b b' hc h
    obtain ⟨b1, hb1, hb'⟩ := Driven.split h
    obtain ⟨a1, hu, hp, hs⟩ := many_to_one hmax hk hc hb1
    obtain ⟨a', ha', hs'⟩ := ih (hc.next (.cons hu hp .nil) hb1 hs) hb'
    exact ⟨a', .cons hu hp ha', hs'⟩

/-- C75: two configurations that differ only in the forcing resolution are initialised to states with the same column and
parameters. -/
theorem C75_initialize {env : Env α} {f1 f2 : List (List Char)} {c : Cfg α} {r : Option α} {a b : State α}
    (h1 : readConfig env {} f1 = .ok c) (h2 : readConfig env {} f2 = .ok { c with forcingRes := r })
    (ha : bmiInitialize env f1 = .ok a) (hb : bmiInitialize env f2 = .ok b) :
    SamePhysics a b ∧ SameTotals a b ∧ a.p.invalidSoil = false ∧ a.p.frozen ≠ [] ∧ (a.giuhOrd ≠ [] → Routes a) ∧
      (b.giuhOrd ≠ [] → Routes b) := by
  have hi : a.p.invalidSoil = false := by
    obtain ⟨c', _, h, _⟩ := bmiInitialize_inv ha
    exact lgarInit_valid h
  have hi' : b.p.invalidSoil = false := by
    obtain ⟨c', _, h, _⟩ := bmiInitialize_inv hb
    exact lgarInit_valid h
  obtain ⟨c1, g1, ha, _⟩ := bmiInitialize_inv ha
  obtain ⟨c2, g2, hb, _⟩ := bmiInitialize_inv hb
  rw [h1] at g1; rw [h2] at g2
  simp only [Except.ok.injEq] at g1 g2
  subst g1; subst g2
  obtain ⟨ts, file, fl, soils, cnt, thick, psi, dt, endt, wp, fc, res, ords, inv, giuh, soilZ, q, depth, vs, cs, a1, a2, a3, a4, a5,
    a6, a7, a8, a9, a10, a11, a12, a13, a14, a15, a16, a17, a18, a19, a20, a21, a22, a23, a24, ea⟩ := lgarInit_inv ha
  obtain ⟨ts', file', fl', soils', cnt', thick', psi', dt', endt', wp', fc', res', ords', inv', giuh', soilZ', q', depth', vs', cs',
    b1, b2, b3, b4, b5, b6, b7, b8, b9, b10, b11, b12, b13, b14, b15, b16, b17, b18, b19, b20, b21, b22, b23, b24, eb⟩ :=
    lgarInit_inv hb
  simp only at b1 b2 b5 b6 b8 b9 b10 b11 b12 b17
  rw [a1] at b1; rw [a2] at b2; rw [a6] at b6; rw [a8] at b8; rw [a9] at b9; rw [a10] at b10; rw [a11] at b11; rw [a12] at b12
  rw [a17] at b17
  simp only [Option.some.injEq] at b1 b2 b6 b8 b9 b10 b11 b12 b17
  subst b1; subst b2; subst b6; subst b8; subst b9; subst b10; subst b11; subst b12; subst b17
  rw [a4] at b4
  simp only [Option.some.injEq] at b4
  subst b4
  rw [a5] at b5
  simp only [Except.ok.injEq, Prod.mk.injEq] at b5
  obtain ⟨rfl, rfl⟩ := b5
  rw [a19] at b19
  simp only [Option.some.injEq] at b19
  subst b19
  have hg : a.geo = b.geo := a20.trans b20.symm
  have hh : a.head = b.head := by
    have := b21
    rw [← hg, a21] at this
    simpa using this
  have hv : vs = vs' := by
    rw [← hh, a22] at b22
    simpa using b22
  subst hv
  rw [hi] at ea; rw [hi'] at eb
  refine ⟨⟨hh, ?_, ?_, ?_, ?_⟩, ⟨?_, ?_, ?_, ?_, ?_, ?_, ?_, ?_⟩, hi, ?_, ?_, ?_⟩
  · rw [ea, eb]
  · rw [ea, eb]
  · rw [ea, eb]
  · rw [ea, eb, hh]
  all_goals try (rw [ea, eb])
  · rw [ea]; simp
  · intro h
    rw [ea] at h ⊢
    exact ⟨rfl, h, by simp⟩
  · intro h
    rw [eb] at h ⊢
    exact ⟨rfl, h, by simp⟩

end Free

section Exact
variable {K : Type} [Field K] [LinearOrder K] [IsStrictOrderedRing K] [CMath K] [LawfulNum K]

theorem grow_sub {x y x' y' : K} (h : Grow x y x' y') : x' - x = y' - y := by
  induction h with
  | refl => ring
  | add d _ ih => linarith

theorem fmax_twice (y : K) : CMath.fmax (CMath.fmax y 0) 0 = CMath.fmax y 0 := by
  rw [fmax_eq, fmax_eq]; simp

/-- What the Updates add to the totals, in exact arithmetic. -/
def AddedK (d : K) (u w : SubSt K) (b b' : State K) : Prop :=
  b'.mb.volstart = b.mb.volstart ∧ b'.mb.volprecip = b.mb.volprecip + (w.precipT - u.precipT) ∧
    b'.mb.volin = b.mb.volin + (w.volinT - u.volinT) ∧ b'.mb.volrunoff = b.mb.volrunoff + (w.runoffT - u.runoffT) ∧
    b'.mb.volAET = b.mb.volAET + (w.aetT - u.aetT) ∧ b'.mb.volPET = b.mb.volPET + (w.petT - u.petT) ∧
    b'.mb.volrech = b.mb.volrech + (w.rechT - u.rechT) ∧ b'.mb.volcalib = b.mb.volcalib + d

theorem booked_added {d : K} {u w : SubSt K} {b b' : State K} (h : Booked d u w b b') : AddedK d u w b b' := by
  obtain ⟨b2, v, w', hm, hp, g1, g2, g3, g4, g5, g6⟩ := h
  obtain ⟨_, _, _, _, _, _, _, _, _, _, _, _, _, e, _⟩ := updatePost_inv hp
  have s1 := grow_sub g1
  have s2 := grow_sub g2
  have s3 := grow_sub g3
  have s4 := grow_sub g4
  have s5 := grow_sub g5
  have s6 := grow_sub g6
  simp only [subInit, sub_zero] at s1 s2 s3 s4 s5 s6
  refine ⟨?_, ?_, ?_, ?_, ?_, ?_, ?_, ?_⟩
  all_goals (rw [e, hm])
  all_goals simp only
  · rw [s1]
  · rw [s4]
  · rw [s5]
  · rw [s3]
  · rw [s2]
  · rw [s6]

theorem added_trans {d : K} {u w w2 : SubSt K} {b b' b'' : State K} (h : AddedK d u w b b') (h' : AddedK 0 w w2 b' b'') :
    AddedK d u w2 b b'' := by
  obtain ⟨a1, a2, a3, a4, a5, a6, a7, a8⟩ := h
  obtain ⟨b1, b2, b3, b4, b5, b6, b7, b8⟩ := h'
  exact ⟨by rw [b1, a1], by rw [b2, a2]; ring, by rw [b3, a3]; ring, by rw [b4, a4]; ring, by rw [b5, a5]; ring,
    by rw [b6, a6]; ring, by rw [b7, a7]; ring, by rw [b8, a8]; ring⟩

theorem driven_unique {fuel : Nat} {sa : Bool} {s s1 s2 : State K} {xs : List (Drive K)} (h1 : Driven fuel sa s xs s1)
    (h2 : Driven fuel sa s xs s2) : s1 = s2 := by
  induction h1 with
  | nil => cases h2; rfl
  | cons hu _ _ ih =>
    cases h2 with
    | cons hu' _ h =>
      rw [hu] at hu'
      simp only [Except.ok.injEq] at hu'
      subst hu'
      exact ih h

/-- C75, totals, in exact arithmetic: both runs book the same rain, infiltration, runoff, actual and potential ET, percolation
and storage change of calibration. -/
theorem C75_totals {fuel : Nat} {sa : Bool} {k na nb : Nat} (hk : 0 < k) {xs : List (Drive K)} : ∀ {a b a' b' : State K},
    Comparable a b k na nb → SameTotals a b → Driven fuel sa a xs a' → Driven fuel sa b (repeated k xs) b' →
    SameTotals a' b' := by
  induction xs with
  | nil =>
    intro a b a' b' hc ht h h'
    simp only [repeated] at h'
    cases h; cases h'
    exact ht
  | cons x xs ih =>
    intro a b a' b' hc ht h h'
    obtain ⟨b1, hb1, hb'⟩ := Driven.split h'
    cases h with
    | cons hu hp h =>
      obtain ⟨b1', hb1', hs, d, u, w, hA, hB⟩ := one_to_many (T := AddedK) fmax_twice (fun _ _ _ _ _ h => booked_added h)
        (fun _ _ _ _ _ _ _ h h' => added_trans h h') hk hc hu hp
      have := driven_unique hb1 hb1'
      subst this
      refine ih (hc.next (.cons hu hp .nil) hb1 hs) ?_ h hb'
      obtain ⟨a1, a2, a3, a4, a5, a6, a7, a8⟩ := booked_added hA
      obtain ⟨b1, b2, b3, b4, b5, b6, b7, b8⟩ := hB
      obtain ⟨t1, t2, t3, t4, t5, t6, t7, t8⟩ := ht
      exact ⟨by rw [a1, b1, t1], by rw [a2, b2, t2], by rw [a3, b3, t3], by rw [a4, b4, t4], by rw [a5, b5, t5],
        by rw [a6, b6, t6], by rw [a7, b7, t7], by rw [a8, b8, t8]⟩

/-- C75, the hypothesis on the numbers of sub-timesteps, in exact arithmetic: it holds when the shorter interval is a whole number
of sub-timesteps and the longer one `k` of them. -/
theorem C75_count [LawfulInt K] {a b : State K} {k m : Nat} (hdt : 0 < b.p.timestepH) (hab : a.p.timestepH = b.p.timestepH)
    (hb : b.p.forcingResH = m * b.p.timestepH) (ha : a.p.forcingResH = k * b.p.forcingResH) :
    SubSteps a (k * m) ∧ SubSteps b m := by
  have key : ∀ j : Nat, (CMath.toInt ((j : K) + 1.0e-8)).toNat = j := by
    intro j
    have hj : (0 : K) ≤ (j : K) := Nat.cast_nonneg j
    have he : (1.0e-8 : K) = 1 / 100000000 := by norm_num
    have h0 : (0 : K) ≤ (j : K) + 1.0e-8 := by rw [he]; positivity
    obtain ⟨h1, h2⟩ := LawfulInt.toInt_nonneg _ h0
    rw [he] at h1 h2
    generalize hz : CMath.toInt ((j : K) + 1 / 100000000) = z at h1 h2
    have e1 : z < (j : Int) + 1 := by
      have : (z : K) < ((j : Int) + 1 : Int) := by
        push_cast
        linarith [show (1 : K) / 100000000 < 1 by norm_num]
      exact_mod_cast this
    have e2 : (j : Int) < z + 1 := by
      have : (((j : Int) : Int) : K) < ((z + 1 : Int) : K) := by
        push_cast
        linarith [show (0 : K) < 1 / 100000000 by norm_num]
      exact_mod_cast this
    rw [he, hz]
    omega
  have hne : b.p.timestepH ≠ 0 := ne_of_gt hdt
  have hd : ∀ x : K, cdiv x b.p.timestepH = .ok (x / b.p.timestepH) := by
    intro x
    unfold cdiv
    rw [if_pos (by rw [divOk_iff]; exact hne)]
  refine ⟨⟨((k * m : Nat) : K), ?_, key _⟩, ⟨(m : K), ?_, key _⟩⟩
  · rw [hab, hd, ha, hb]
    congr 1
    push_cast
    field_simp
  · rw [hd, hb]
    congr 1
    field_simp

end Exact
/-! ### Examples -/
namespace CutSample
open Sample

deriving instance DecidableEq for Params
deriving instance DecidableEq for Cfg

/-- The sample configuration with a given forcing resolution and another line. -/
def file (res extra : String) : List (List Char) :=
  ["layer_thickness=10,20[cm]".toList, "layer_soil_type=1,2".toList, "soil_params_file=x".toList,
   "max_valid_soil_types=2".toList, "initial_psi=100[cm]".toList, "timestep=30[min]".toList, "endtime=5[hr]".toList,
   res.toList, "ponded_depth_max=2[cm]".toList, "use_closed_form_G=true".toList,
   "wilting_point_psi=15495.0[cm]".toList, "field_capacity_psi=340.9[cm]".toList, "giuh_ordinates=0.7,0.3".toList,
   extra.toList]

/-- Forcing without soil temperatures and calibration. -/
def rate (pr pet : Grid) : Drive Grid := ⟨pr, pet, [0], ⟨[], [], [], [], [], 0, 0⟩⟩

/-- Updates one after the other, none of which reaches the end time. -/
def go (fuel : Nat) (sa : Bool) : List (Drive Grid) → State Grid → Res (State Grid)
  | [], s => .ok s
  | x :: xs, s => do
    let s1 ← update fuel sa (x.set s)
    if sa = true ∧ s1.p.endtimeS ≤ s1.p.timeS then .error .fuel else go fuel sa xs s1

theorem go_driven {fuel : Nat} {sa : Bool} : ∀ {xs : List (Drive Grid)} {s s' : State Grid}, go fuel sa xs s = .ok s' →
    Driven fuel sa s xs s'
  | [], s, s', h => by simp only [go, Except.ok.injEq] at h; subst h; exact .nil
  | x :: xs, s, s', h => by
    simp only [go, bind_ok_iff] at h
    obtain ⟨s1, h1, h⟩ := h
    split at h
    · exact absurd h (by simp)
    · rename_i hn
      exact .cons h1 (fun hs he => hn ⟨hs, he⟩) (go_driven h)

/-- Both runs from their configuration files. -/
def both (extra : String) (xs : List (Drive Grid)) : Res ((State Grid × State Grid) × (State Grid × State Grid)) := do
  let a ← bmiInitialize env (file "forcing_resolution=60[min]" extra)
  let b ← bmiInitialize env (file "forcing_resolution=30[min]" extra)
  let a' ← go 1000 true xs a
  let b' ← go 1000 true (repeated 2 xs) b
  .ok ((a, b), (a', b'))

/-- Same column and parameters, as a test. -/
def same (a b : State Grid) : Bool :=
  decide (a.head = b.head) && decide (a.prev = b.prev) && decide (a.soils = b.soils) && decide (a.mb.volonT = b.mb.volonT) &&
    decide (b.p = { a.p with forcingResH := b.p.forcingResH, forcingInterval := b.p.forcingInterval })

theorem same_iff {a b : State Grid} : same a b = true ↔ SamePhysics a b := by
  unfold same
  simp only [Bool.and_eq_true, decide_eq_true_eq]
  exact ⟨fun ⟨⟨⟨⟨h1, h2⟩, h3⟩, h4⟩, h5⟩ => ⟨h1, h2, h3, h4, h5⟩, fun ⟨h1, h2, h3, h4, h5⟩ => ⟨⟨⟨⟨h1, h2⟩, h3⟩, h4⟩, h5⟩⟩

theorem both_inv {extra : String} {xs : List (Drive Grid)} {r : (State Grid × State Grid) × (State Grid × State Grid)}
    (h : both extra xs = .ok r) :
    bmiInitialize env (file "forcing_resolution=60[min]" extra) = .ok r.1.1 ∧
      bmiInitialize env (file "forcing_resolution=30[min]" extra) = .ok r.1.2 ∧ Driven 1000 true r.1.1 xs r.2.1 ∧
      Driven 1000 true r.1.2 (repeated 2 xs) r.2.2 := by
  unfold both at h
  simp only [bind_ok_iff, Except.ok.injEq] at h
  obtain ⟨a, ha, b, hb, a', ha', b', hb', rfl⟩ := h
  exact ⟨ha, hb, go_driven ha', go_driven hb'⟩

/-- Everything of `Comparable` but the fixed sub-timestep. -/
def Alike (a b : State Grid) : Prop :=
  same a b = true ∧ a.p.invalidSoil = false ∧ a.p.frozen ≠ [] ∧ a.p.timestepH = 1/2 ∧ b.p.timestepH = 1/2 ∧
    a.p.forcingResH = 1 ∧ b.p.forcingResH = 1/2 ∧ a.numGiuh = a.giuhOrd.length ∧ a.giuhOrd ≠ [] ∧
    a.giuhQueue.length = a.giuhOrd.length + 1 ∧ b.numGiuh = b.giuhOrd.length ∧ b.giuhOrd ≠ [] ∧
    b.giuhQueue.length = b.giuhOrd.length + 1

instance (a b : State Grid) : Decidable (Alike a b) := by unfold Alike; infer_instance

theorem Alike.comparable {a b : State Grid} (h : Alike a b) (ha : a.p.adaptive = false) : Comparable a b 2 2 1 := by
  obtain ⟨h1, h2, h3, h4, h5, h6, h7, h8, h9, h10, h11, h12, h13⟩ := h
  obtain ⟨c1, c2⟩ := C75_count (a := a) (b := b) (k := 2) (m := 1) (by rw [h5]; norm_num) (h4.trans h5.symm)
    (by rw [h7, h5]; norm_num) (by rw [h6, h7]; norm_num)
  exact ⟨same_iff.1 h1, ha, h2, h3, c1, c2, rfl, ⟨h8, h9, h10⟩, ⟨h11, h12, h13⟩⟩

/-- Test for the first example. -/
def Test1 (r : (State Grid × State Grid) × (State Grid × State Grid)) : Prop :=
  Alike r.1.1 r.1.2 ∧ r.1.1.p.adaptive = false ∧ r.2.1.head.length = 3 ∧ 0 < r.2.1.mb.volAET

instance : DecidablePred Test1 := fun r => by unfold Test1; infer_instance

theorem check1 : okAnd (both "verbosity=none" [rate 5 0, rate 0 1]) (fun r => decide (Test1 r)) = true := by decide +kernel

attribute [local irreducible] both bmiInitialize env in
/-- C75, non-vacuity: rain, then ET, with Updates of 60 and of 30 minutes; three fronts at the end of both runs. -/
example : ∃ a b a' b', bmiInitialize env (file "forcing_resolution=60[min]" "verbosity=none") = .ok a ∧
    bmiInitialize env (file "forcing_resolution=30[min]" "verbosity=none") = .ok b ∧ Comparable a b 2 2 1 ∧
    Driven 1000 true a [rate 5 0, rate 0 1] a' ∧ Driven 1000 true b (repeated 2 [rate 5 0, rate 0 1]) b' ∧
    SamePhysics a' b' ∧ a'.head.length = 3 ∧ 0 < a'.mb.volAET := by
  obtain ⟨r, hr, h1, h2, h3, h4⟩ := okAnd_exists check1
  obtain ⟨i1, i2, d1, d2⟩ := both_inv hr
  have hc := h1.comparable h2
  obtain ⟨b', hb', hs⟩ := C75_split fmax_twice (by norm_num) hc d1
  exact ⟨_, _, _, b', i1, i2, hc, d1, hb', hs, h3, h4⟩

/-- What the two files are read to. -/
def cfgs : Res (Cfg Grid × Cfg Grid) := do
  let c ← readConfig env {} (file "forcing_resolution=60[min]" "verbosity=none")
  let d ← readConfig env {} (file "forcing_resolution=30[min]" "verbosity=none")
  .ok (c, d)

theorem check_cfgs : okAnd cfgs (fun r => decide (r.2 = { r.1 with forcingRes := some (1/2) })) = true := by decide +kernel

attribute [local irreducible] readConfig env in
/-- C75, the two files meet the hypotheses of `C75_initialize`. -/
example : ∃ c, readConfig env {} (file "forcing_resolution=60[min]" "verbosity=none") = .ok c ∧
    readConfig env {} (file "forcing_resolution=30[min]" "verbosity=none") = .ok { c with forcingRes := some (1/2) } := by
  obtain ⟨r, hr, h⟩ := okAnd_exists check_cfgs
  unfold cfgs at hr
  simp only [bind_ok_iff, Except.ok.injEq] at hr
  obtain ⟨c, hc, d, hd, rfl⟩ := hr
  exact ⟨c, hc, hd.trans (congrArg Except.ok h)⟩

/-- Test for the counterexample. -/
def Test2 (r : (State Grid × State Grid) × (State Grid × State Grid)) : Prop :=
  Alike r.1.1 r.1.2 ∧ r.1.1.p.adaptive = true ∧ r.2.1.p.timeS = r.2.2.p.timeS ∧ r.2.1.mb.volAET ≠ r.2.2.mb.volAET ∧
    r.2.1.head.map (fun f => f.theta) ≠ r.2.2.head.map (fun f => f.theta)

instance : DecidablePred Test2 := fun r => by unfold Test2; infer_instance

theorem check2 : okAnd (both "adaptive_timestep=true" [rate 0 1]) (fun r => decide (Test2 r)) = true := by decide +kernel

end CutSample

attribute [local irreducible] CutSample.both bmiInitialize Sample.env in
/-- C75 needs the fixed sub-timestep: with `adaptive_timestep=true` one dry Update of an hour and two of half an hour give
different moistures and a different ET, because a dry Update takes the whole forcing interval as its sub-timestep. -/
theorem C75_adaptive_fails : ∃ a b a' b' : State Grid, SamePhysics a b ∧ a.p.adaptive = true ∧
    Driven 1000 true a [CutSample.rate 0 1] a' ∧ Driven 1000 true b (repeated 2 [CutSample.rate 0 1]) b' ∧
    a'.p.timeS = b'.p.timeS ∧ a'.mb.volAET ≠ b'.mb.volAET ∧
    a'.head.map (fun f => f.theta) ≠ b'.head.map (fun f => f.theta) := by
  obtain ⟨r, hr, h1, h2, h3, h4, h5⟩ := Sample.okAnd_exists CutSample.check2
  obtain ⟨_, _, d1, d2⟩ := CutSample.both_inv hr
  exact ⟨_, _, _, _, CutSample.same_iff.1 h1.1, h2, d1, d2, h3, h4, h5⟩

end LGAR
