import Verif.Lemmas.Blocks
import Verif.Props.Config
import Verif.Props.Bmi
/-
C66 and C67: lifetime of the arrays and structures of the BMI object.  The allocator is any function that returns an address
not in use.
-/
set_option linter.unusedSectionVars false
namespace LGAR

/-- How many lines of the file have this key. -/
def keyCount (name : String) (lines : List (List Char)) : Nat := (lines.filter fun l => keyText l == name.toList).length

/-- Blocks nobody releases after one use: two for every further layer_thickness, one for every further layer_soil_type,
one for every soil_z beyond the one the coupling uses. -/
def lostBlocks (j : Session) : Nat :=
  2 * (keyCount "layer_thickness" j.lines - 1) + (keyCount "layer_soil_type" j.lines - 1) +
  (keyCount "soil_z" j.lines - if j.coupled then 1 else 0)

/-- The file allocates nothing twice: one layer_thickness, one layer_soil_type, soil_z once if coupled and else not at
all. -/
def Session.Plain (j : Session) : Prop :=
  keyCount "layer_thickness" j.lines = 1 ∧ keyCount "layer_soil_type" j.lines = 1 ∧
  keyCount "soil_z" j.lines = if j.coupled then 1 else 0

section Free
variable {α : Type} [Add α] [Sub α] [Mul α] [Div α] [Neg α] [Zero α] [One α] [OfScientific α]
  [LT α] [LE α] [DecidableLT α] [DecidableLE α] [BEq α] [CMath α]

/-- Initialize returns for the file of this use, with this coupling flag. -/
def Session.Starts (env : Env α) (j : Session) : Prop :=
  ∃ s, bmiInitialize env j.lines = .ok s ∧ s.p.sftCoupled = j.coupled

theorem lineBlocks_count (lines : List (List Char)) :
    (lines.flatMap lineBlocks).length =
      2 * keyCount "layer_thickness" lines + keyCount "layer_soil_type" lines + keyCount "soil_z" lines := by
  induction lines with
  | nil => rfl
  | cons l ls ih =>
    have hk : (lineBlocks l).length = 2 * (if keyText l == "layer_thickness".toList then 1 else 0) +
        (if keyText l == "layer_soil_type".toList then 1 else 0) + (if keyText l == "soil_z".toList then 1 else 0) := by
      unfold lineBlocks
      rw [paramKey_eq]
      generalize keyText l = k
      by_cases h1 : k = "layer_thickness".toList
      · subst h1; decide
      by_cases h2 : k = "layer_soil_type".toList
      · subst h2; decide
      by_cases h3 : k = "soil_z".toList
      · subst h3; decide
      have e1 := beq_eq_false_iff_ne.mpr h1
      have e2 := beq_eq_false_iff_ne.mpr h2
      have e3 := beq_eq_false_iff_ne.mpr h3
      have n1 : keyOf k ≠ some .thick := fun e => h1 (keyOf_inj e (by decide))
      have n2 : keyOf k ≠ some .soilType := fun e => h2 (keyOf_inj e (by decide))
      have n3 : keyOf k ≠ some .soilZ := fun e => h3 (keyOf_inj e (by decide))
      rw [e1, e2, e3]
      split <;> simp_all
    have hc : ∀ name : String, keyCount name (l :: ls) = (if keyText l == name.toList then 1 else 0) + keyCount name ls := by
      intro name
      unfold keyCount
      rw [List.filter_cons]
      generalize (keyText l == name.toList) = b
      cases b
      · simp
      · simp [Nat.add_comm]
    rw [List.flatMap_cons, List.length_append, ih, hk, hc, hc, hc]
    omega

theorem keyCount_pos {env : Env α} {lines : List (List Char)} {s : State α} (h : bmiInitialize env lines = .ok s)
    {name : String} (hn : name ∈ required) : 1 ≤ keyCount name lines := by
  by_contra hc
  have h0 : keyCount name lines = 0 := by omega
  refine (C47_refused env lines s).1 name hn (fun line hl e => ?_) h
  rw [keyCount, List.length_eq_zero_iff, List.filter_eq_nil_iff] at h0
  exact h0 line hl (by simpa using e)

theorem mem_lineBlocks {lines : List (List Char)} {name : String} (h : 1 ≤ keyCount name lines) {k : Key}
    (hk : keyOf name.toList = some k) : ∃ line ∈ lines, keyOf (paramKey line) = some k := by
  obtain ⟨line, hl⟩ := List.exists_mem_of_length_pos (show 0 < (lines.filter _).length from h)
  rw [List.mem_filter] at hl
  refine ⟨line, hl.1, ?_⟩
  rw [paramKey_eq, show keyText line = name.toList by simpa using hl.2, hk]

theorem Session.Starts.counts {env : Env α} {j : Session} (h : j.Starts env) :
    1 ≤ keyCount "layer_thickness" j.lines ∧ 1 ≤ keyCount "layer_soil_type" j.lines ∧
    (if j.coupled then 1 else 0) ≤ keyCount "soil_z" j.lines := by
  obtain ⟨s, hs, hc⟩ := h
  refine ⟨keyCount_pos hs (by decide), keyCount_pos hs (by decide), ?_⟩
  split
  · rename_i hj
    by_contra hn
    have h0 : keyCount "soil_z" j.lines = 0 := by omega
    have := (C47_refused env j.lines s).2 (fun line hl e => by
      rw [keyCount, List.length_eq_zero_iff, List.filter_eq_nil_iff] at h0
      exact h0 line hl (by simpa using e)) hs
    rw [hc, hj] at this
    cases this
  · exact Nat.zero_le _

theorem Session.Starts.covers {env : Env α} {j : Session} (h : j.Starts env) {b : Block} (hb : b ≠ .state) :
    b ∈ j.lines.flatMap lineBlocks ∨ b ∈ initBlocks j.coupled := by
  obtain ⟨h1, h2, h3⟩ := h.counts
  obtain ⟨l1, m1, k1⟩ := mem_lineBlocks h1 (k := .thick) (by decide)
  obtain ⟨l2, m2, k2⟩ := mem_lineBlocks h2 (k := .soilType) (by decide)
  have from1 : ∀ b ∈ [Block.thickness, .cum], b ∈ j.lines.flatMap lineBlocks := fun b hb =>
    List.mem_flatMap.mpr ⟨l1, m1, by unfold lineBlocks; rw [k1]; exact hb⟩
  cases b with
  | state => exact absurd rfl hb
  | thickness => exact .inl (from1 _ (by decide))
  | cum => exact .inl (from1 _ (by decide))
  | soilType => exact .inl (List.mem_flatMap.mpr ⟨l2, m2, by unfold lineBlocks; rw [k2]; exact List.mem_singleton.mpr rfl⟩)
  | tempZ =>
    cases hc : j.coupled with
    | false => exact .inr (by decide)
    | true =>
      rw [hc] at h3
      obtain ⟨l3, m3, k3⟩ := mem_lineBlocks h3 (k := .soilZ) (by decide)
      exact .inl (List.mem_flatMap.mpr ⟨l3, m3, by unfold lineBlocks; rw [k3]; exact List.mem_singleton.mpr rfl⟩)
  | _ => exact .inr (by cases j.coupled <;> decide)

/-- One use from any state of the object between uses. -/
theorem session_spec {pick : Store → Nat} (hp : ∀ m, pick m ∉ m.live) {env : Env α} {j : Session} (hj : j.Starts env)
    {m : Store} {P : Block → Prop} (h : Held m P) :
    ∃ m', m.session pick j = .ok m' ∧ Held m' (fun c => c = .objOrdinates ∨ c = .objQueue) ∧
      m'.live.length = m.live.length + lostBlocks j + 2 := by
  obtain ⟨m1, e1, h1, l1⟩ := h.initialize hp j.lines j.coupled
  have h1 : Held m1 fun _ => True := h1.congr fun b => by
    rw [true_iff]
    by_cases hb : b = .state
    · exact .inl hb
    · exact .inr (hj.covers hb)
  obtain ⟨m2, e2, h2, l2⟩ := h1.updates hp j.invalidSoil j.updates trivial trivial trivial
  obtain ⟨m3, e3, h3, l3⟩ := h2.finalize trivial fun _ _ => trivial
  refine ⟨m3, ?_, h3.congr (by simp), ?_⟩
  · unfold Store.session
    rw [e1, ok_bind, e2, ok_bind, e3]
  · obtain ⟨h1, h2, h3⟩ := hj.counts
    rw [lineBlocks_count] at l1
    unfold lostBlocks
    cases hc : j.coupled <;> rw [hc] at l1 h3 <;> simp only [initBlocks, List.length_append, List.length_cons, List.length_nil,
      if_true, Bool.false_eq_true, if_false] at l1 h3 ⊢ <;> omega

theorem sessions_spec {pick : Store → Nat} (hp : ∀ m, pick m ∉ m.live) {env : Env α} {js : List Session}
    (hj : ∀ j ∈ js, j.Starts env) : ∀ {m : Store} {P : Block → Prop}, Held m P →
    ∃ m', m.sessions pick js = .ok m' ∧
      Held m' (fun c => (js = [] ∧ P c) ∨ (js ≠ [] ∧ (c = .objOrdinates ∨ c = .objQueue))) ∧
      m'.live.length = m.live.length + (js.map lostBlocks).sum + 2 * js.length := by
  induction js with
  | nil => intro m P h; exact ⟨m, rfl, h.congr (by simp), by simp⟩
  | cons j js ih =>
    intro m P h
    obtain ⟨m1, e1, h1, l1⟩ := session_spec hp (hj j List.mem_cons_self) h
    obtain ⟨m2, e2, h2, l2⟩ := ih (fun k hk => hj k (List.mem_cons_of_mem _ hk)) h1
    refine ⟨m2, by rw [Store.sessions, e1, ok_bind, e2], h2.congr fun c => ?_, ?_⟩
    · by_cases hjs : js = [] <;> simp [hjs]
    · rw [l2, l1, List.map_cons, List.sum_cons, List.length_cons]; omega

/-- C66, the exact account: construct an object, use it any number of times (Initialize with a file for which it returns, any
number of Updates, Finalize), destroy it.  Nothing is released twice or used after release, and the number of blocks
never released is what `lostBlocks` says for each file, plus two for every use after the first. -/
theorem C66_account (pick : Store → Nat) (hp : ∀ m, pick m ∉ m.live) (env : Env α) (js : List Session)
    (hj : ∀ j ∈ js, j.Starts env) :
    ∃ m, Store.life pick js = .ok m ∧ m.live.length = (js.map lostBlocks).sum + 2 * (js.length - 1) := by
  obtain ⟨m1, e1, h1, l1⟩ := sessions_spec hp hj held_construct
  obtain ⟨m2, e2, -, l2⟩ := h1.destroy
  refine ⟨m2, by unfold Store.life; rw [e1, ok_bind, e2], ?_⟩
  have l0 : Store.construct.live.length = 0 := rfl
  cases js with
  | nil =>
    have e : Store.construct = m1 := by simpa [Store.sessions] using e1
    subst e
    have e : m2 = Store.construct := by
      have : Store.construct.destroy = .ok Store.construct := rfl
      rw [this] at e2
      cases e2; rfl
    subst e
    simp [l0]
  | cons j js =>
    have := l2 ⟨.inr ⟨by simp, .inl rfl⟩, .inr ⟨by simp, .inr rfl⟩⟩
    rw [List.length_cons] at l1 ⊢
    omega

/-- C66: one use of an object with a file that has layer_thickness and layer_soil_type once, and soil_z once if the
temperature is coupled and else not at all: every block is released exactly once. -/
theorem C66_released_partial (pick : Store → Nat) (hp : ∀ m, pick m ∉ m.live) (env : Env α) (j : Session)
    (hj : j.Starts env) (hpl : j.Plain) :
    ∃ m, Store.life pick [j] = .ok m ∧ m.live = [] ∧ ReleasedOnce m.log := by
  obtain ⟨m1, e1, h1, l1⟩ := sessions_spec hp (js := [j]) (env := env) (by simpa using hj) held_construct
  obtain ⟨m2, e2, hlog, -⟩ := h1.destroy
  obtain ⟨m, e, hl⟩ := C66_account pick hp env [j] (by simpa using hj)
  have em : m2 = m := by
    unfold Store.life at e
    rw [e1, ok_bind, e2] at e
    cases e; rfl
  subst em
  have hz : lostBlocks j = 0 := by
    obtain ⟨a, b, c⟩ := hpl
    unfold lostBlocks
    rw [a, b, c]; omega
  have hlive : m2.live = [] := by
    rw [← List.length_eq_zero_iff, hl]
    simp [hz]
  refine ⟨m2, e, hlive, fun a => ?_⟩
  obtain ⟨k, hk⟩ := hlog a
  exact ⟨k, by rw [hk, hlive]; simp⟩

/-- C66: the conditions on the file are needed; with any other file for which Initialize returns something is never
released. -/
theorem C66_needed (pick : Store → Nat) (hp : ∀ m, pick m ∉ m.live) (env : Env α) (j : Session) (hj : j.Starts env) (m : Store)
    (h : Store.life pick [j] = .ok m) : m.live = [] ↔ j.Plain := by
  obtain ⟨m', e, hl⟩ := C66_account pick hp env [j] (by simpa using hj)
  obtain rfl : m = m' := by rw [h] at e; cases e; rfl
  obtain ⟨h1, h2, h3⟩ := hj.counts
  rw [← List.length_eq_zero_iff, hl]
  unfold Session.Plain lostBlocks
  simp only [List.map_cons, List.map_nil, List.sum_cons, List.sum_nil, List.length_cons, List.length_nil]
  omega

/-- C66 fails when an object is used again after Finalize: the two GIUH arrays of the first use are never released. -/
theorem C66_second_use_fails (pick : Store → Nat) (hp : ∀ m, pick m ∉ m.live) (env : Env α) (j k : Session)
    (hj : j.Starts env) (hk : k.Starts env) (hpj : j.Plain) (hpk : k.Plain) :
    ∃ m, Store.life pick [j, k] = .ok m ∧ m.live.length = 2 := by
  obtain ⟨m, e, hl⟩ := C66_account pick hp env [j, k] (by simp [hj, hk])
  refine ⟨m, e, ?_⟩
  have hz : ∀ j : Session, j.Plain → lostBlocks j = 0 := by
    rintro j ⟨a, b, c⟩
    unfold lostBlocks
    rw [a, b, c]; omega
  simpa [hz j hpj, hz k hpk] using hl

/-- C66 fails when Initialize is called twice in a row: all 19 blocks of the first call are never released. -/
theorem C66_initialize_twice_fails (pick : Store → Nat) (hp : ∀ m, pick m ∉ m.live) (env : Env α) (j k : Session)
    (hk : k.Starts env) (hpj : j.Plain) (hpk : k.Plain) :
    ∃ m1 m2 m3, Store.construct.initialize pick j.lines j.coupled = .ok m1 ∧ m1.session pick k = .ok m2 ∧
      m2.destroy = .ok m3 ∧ m3.live.length = 19 := by
  obtain ⟨m1, e1, h1, l1⟩ := held_construct.initialize hp j.lines j.coupled
  obtain ⟨m2, e2, h2, l2⟩ := session_spec hp hk h1
  obtain ⟨m3, e3, -, l3⟩ := h2.destroy
  refine ⟨m1, m2, m3, e1, e2, e3, ?_⟩
  have l3 := l3 ⟨.inl rfl, .inr rfl⟩
  have l0 : Store.construct.live.length = 0 := rfl
  obtain ⟨a, b, c⟩ := hpj
  obtain ⟨a', b', c'⟩ := hpk
  unfold lostBlocks at l2
  rw [a', b', c'] at l2
  rw [lineBlocks_count, a, b, c] at l1
  have : (initBlocks j.coupled).length + (if j.coupled then 1 else 0) = 15 := by cases j.coupled <;> decide
  omega

/-- C66 fails when Finalize is called twice: the second call reads the released `*state`. -/
theorem C66_finalize_twice_fails (pick : Store → Nat) (hp : ∀ m, pick m ∉ m.live) (env : Env α) (j : Session)
    (hj : j.Starts env) (m : Store) (h : Store.construct.session pick j = .ok m) : ∃ w, m.finalize = .error (.uaf w) := by
  obtain ⟨m1, e1, h1, l1⟩ := held_construct.initialize hp j.lines j.coupled
  have h1 : Held m1 fun _ => True := h1.congr fun b => by
    rw [true_iff]
    by_cases hb : b = .state
    · exact .inl hb
    · exact .inr (hj.covers hb)
  obtain ⟨m2, e2, h2, l2⟩ := h1.updates hp j.invalidSoil j.updates trivial trivial trivial
  unfold Store.session at h
  rw [e1, ok_bind, e2, ok_bind] at h
  obtain ⟨m3, e3, h3, l3⟩ := h2.dels (bs := [.soils, .depthWf, .moistureWf, .temp, .tempZ, .soilType, .thetaE, .thetaR, .vgN,
    .vgAlpha, .Ksat, .thickness, .cum, .ordinates, .frozen, .input]) (by decide) (by decide) trivial (fun _ _ => trivial)
  obtain ⟨a, ha, ea⟩ := h3.live .state ⟨trivial, by decide⟩
  have hd : m3.del .state = .ok { m3 with live := m3.live.erase a, log := m3.log ++ [.free a] } := by
    unfold Store.del
    rw [reach_ok h3 (.inl rfl), ok_bind, ea]
    simp only [if_pos ha]
  have hm : m = { m3 with live := m3.live.erase a, log := m3.log ++ [.free a] } := by
    have : m2.finalize = _ := dels_append m2 [.soils, .depthWf, .moistureWf, .temp, .tempZ, .soilType, .thetaE, .thetaR, .vgN,
      .vgAlpha, .Ksat, .thickness, .cum, .ordinates, .frozen, .input] [.state]
    rw [this, e3, ok_bind, Store.dels, hd] at h
    cases h; rfl
  have hr : m.reach .soils = .error (.uaf "access to released state") := by
    unfold Store.reach
    rw [hm]
    simp only [ea, if_neg h3.nodup.not_mem_erase]
    rfl
  refine ⟨"access to released state", ?_⟩
  unfold Store.finalize
  rw [Store.dels, Store.del, hr]
  rfl

/-- C66 fails when Finalize is called before Initialize: `state` is uninitialised. -/
theorem C66_finalize_first_fails : ∃ w, Store.construct.finalize = .error (.ub w) := ⟨_, rfl⟩

/-! ## C67: pointers handed out -/

/-- Every variable that owns memory is held after Initialize. -/
theorem init_held {pick : Store → Nat} (hp : ∀ m, pick m ∉ m.live) {env : Env α} {j : Session} (hj : j.Starts env) {m : Store}
    (h : Store.construct.initialize pick j.lines j.coupled = .ok m) : Held m fun _ => True := by
  obtain ⟨m1, e1, h1, -⟩ := held_construct.initialize hp j.lines j.coupled
  obtain rfl : m = m1 := by rw [h] at e1; cases e1; rfl
  exact h1.congr fun b => by
    rw [true_iff]
    by_cases hb : b = .state
    · exact .inl hb
    · exact .inr (hj.covers hb)

theorem valuePtr_held {m : Store} (h : Held m fun _ => True) (r : Ref) :
    ∃ p, m.valuePtr r = .ok p ∧ p.map Ptr.addr = r.block.map m.ptr ∧ ∀ a ∈ p, a ∈ m.live := by
  unfold Store.valuePtr
  cases hb : r.block with
  | none => exact ⟨none, rfl, rfl, by simp⟩
  | some b =>
    obtain ⟨a, ha, e⟩ := h.live b trivial
    refine ⟨some a, ?_, by simp [e], by simpa using ha⟩
    simp only [reach_ok h (b := b) (.inr trivial), ok_bind, e]

/-- C67: after Initialize, a pointer returned by GetValuePtr for any name but the two arrays of fronts keeps its value and is never
released, however often Update is called. -/
theorem C67_stable_partial (pick : Store → Nat) (hp : ∀ m, pick m ∉ m.live) (env : Env α) (j : Session) (hj : j.Starts env)
    (m : Store) (h : Store.construct.initialize pick j.lines j.coupled = .ok m) (name : String) (r : Ref)
    (hr : valuePtr name = .ok r) (hm : name ≠ "soil_moisture_wetting_fronts") (hd : name ≠ "soil_depth_wetting_fronts")
    (invalidSoil : Bool) (n : Nat) :
    ∃ m' p new, m.updates pick invalidSoil n = .ok m' ∧ m.valuePtr r = .ok p ∧ m'.valuePtr r = .ok p ∧
      m'.log = m.log ++ new ∧ ∀ a, p = some a → a ∈ m'.live ∧ Ev.free a ∉ new := by
  have hb : ∀ b ∈ r.block, b ≠ .depthWf ∧ b ≠ .moistureWf := by
    have hr' : r ≠ .moistureWf ∧ r ≠ .depthWf := by
      constructor
      · rintro rfl; exact hm (valuePtr_name hr)
      · rintro rfl; exact hd (valuePtr_name hr)
    intro b hb
    cases r <;> simp_all [Ref.block] <;> subst hb <;> decide
  have main : ∀ n (m : Store), Held m (fun _ => True) → ∃ m' new, m.updates pick invalidSoil n = .ok m' ∧
      Held m' (fun _ => True) ∧ m'.log = m.log ++ new ∧
      ∀ b, b ≠ .depthWf → b ≠ .moistureWf → m'.ptr b = m.ptr b ∧ ∀ a, m.ptr b = .addr a → Ev.free a ∉ new := by
    intro n
    induction n with
    | zero => intro m h; exact ⟨m, [], rfl, h, by simp, by simp⟩
    | succ n ih =>
      intro m h
      obtain ⟨m1, e1, h1, -⟩ := h.update hp invalidSoil trivial trivial trivial
      obtain ⟨m2, new, e2, h2, g2, k2⟩ := ih m1 h1
      cases invalidSoil with
      | true =>
        have : m = m1 := by simpa [Store.update] using e1
        subst this
        exact ⟨m2, new, by rw [Store.updates, e1]; exact e2, h2, g2, k2⟩
      | false =>
        have e1' : m.reallocSoil pick = .ok m1 := e1
        obtain ⟨d, hdl, ed⟩ := h.live .depthWf trivial
        obtain ⟨w, hwl, ew⟩ := h.live .moistureWf trivial
        obtain ⟨⟨x, y, g1⟩, p1⟩ := reallocSoil_inv e1' ed ew
        refine ⟨m2, [.free d, .free w, .malloc x, .malloc y] ++ new, by rw [Store.updates, e1]; exact e2, h2,
          by rw [g2, g1, List.append_assoc], fun b hb1 hb2 => ⟨?_, fun a ha => ?_⟩⟩
        · rw [(k2 b hb1 hb2).1, p1 b hb1 hb2]
        · have h3 := (k2 b hb1 hb2).2 a (by rw [p1 b hb1 hb2, ha])
          have n1 : a ≠ d := by
            rintro rfl
            exact hb1 (h.inj b _ trivial trivial (ha.trans ed.symm))
          have n2 : a ≠ w := by
            rintro rfl
            exact hb2 (h.inj b _ trivial trivial (ha.trans ew.symm))
          simp [n1, n2, h3]
  have h0 := init_held hp hj h
  obtain ⟨m', new, e, h', g, k⟩ := main n m h0
  obtain ⟨p, ep, mp, lp⟩ := valuePtr_held h0 r
  obtain ⟨p', ep', mp', lp'⟩ := valuePtr_held h' r
  have same : p' = p := by
    have : p'.map Ptr.addr = p.map Ptr.addr := by
      rw [mp, mp']
      cases hrb : r.block with
      | none => rfl
      | some b => simp [(k b (hb b hrb).1 (hb b hrb).2).1]
    exact Option.map_injective (fun a b e => Ptr.addr.inj e) this
  subst same
  refine ⟨m', p', new, e, ep, ep', g, fun a ha => ⟨lp' a ha, ?_⟩⟩
  subst ha
  cases hrb : r.block with
  | none => rw [hrb] at mp; simp at mp
  | some b =>
    rw [hrb] at mp
    exact (k b (hb b hrb).1 (hb b hrb).2).2 a (by simpa using mp.symm)

/-- C67 fails for the two arrays of fronts: every Update of a supported soil releases the memory that GetValuePtr handed out
before, so a client that kept the pointer reads released memory. -/
theorem C67_fails (pick : Store → Nat) (hp : ∀ m, pick m ∉ m.live) (env : Env α) (j : Session) (hj : j.Starts env)
    (m : Store) (h : Store.construct.initialize pick j.lines j.coupled = .ok m) (n : Nat) (m1 : Store)
    (h1 : m.updates pick false n = .ok m1) (name : String)
    (hname : name = "soil_moisture_wetting_fronts" ∨ name = "soil_depth_wetting_fronts") :
    ∃ r a m2 new, valuePtr name = .ok r ∧ m1.valuePtr r = .ok (some a) ∧ a ∈ m1.live ∧ m1.update pick false = .ok m2 ∧
      m2.log = m1.log ++ new ∧ Ev.free a ∈ new := by
  have h0 := init_held hp hj h
  obtain ⟨m1', e1, k1, -⟩ := h0.updates hp false n trivial trivial trivial
  obtain rfl : m1 = m1' := by rw [h1] at e1; cases e1; rfl
  obtain ⟨m2, e2, -, -⟩ := k1.update hp false trivial trivial trivial
  have e2' : m1.reallocSoil pick = .ok m2 := e2
  obtain ⟨d, hdl, ed⟩ := k1.live .depthWf trivial
  obtain ⟨w, hwl, ew⟩ := k1.live .moistureWf trivial
  obtain ⟨⟨x, y, g⟩, -⟩ := reallocSoil_inv e2' ed ew
  rcases hname with rfl | rfl
  · exact ⟨.moistureWf, w, m2, _, by decide, by
      unfold Store.valuePtr
      simp only [Ref.block, reach_ok k1 (b := .moistureWf) (.inr trivial), ok_bind, ew], hwl, e2, g, by simp⟩
  · exact ⟨.depthWf, d, m2, _, by decide, by
      unfold Store.valuePtr
      simp only [Ref.block, reach_ok k1 (b := .depthWf) (.inr trivial), ok_bind, ed], hdl, e2, g, by simp⟩

end Free

/-! ## Cases -/

/-- An allocator that never returns an address a second time. -/
def freshPick (m : Store) : Nat := 1 + m.live.sum + (m.log.map Ev.addr).sum

theorem freshPick_ok (m : Store) : freshPick m ∉ m.live := by
  intro h
  have := List.le_sum_of_mem h
  unfold freshPick at this
  omega

/-- The sample file, uncoupled. -/
def sampleUse : Session := ⟨Sample.cfg, false, false, 3⟩

/-- The sample file with a soil_z line that the uncoupled model does not need. -/
def soilZUse : Session := ⟨"soil_z=10,20,30[cm]".toList :: Sample.cfg, false, false, 3⟩

/-- The sample file coupled to a soil temperature model. -/
def coupledUse : Session := ⟨"sft_coupled=true".toList :: "soil_z=10,20,30[cm]".toList :: Sample.cfg, true, false, 3⟩

theorem uses_start : sampleUse.Starts Sample.env ∧ soilZUse.Starts Sample.env ∧ coupledUse.Starts Sample.env :=
  ⟨Sample.okAnd_exists (p := fun s => decide (s.p.sftCoupled = false)) (by decide +kernel) |>.imp fun s h => ⟨h.1, of_decide_eq_true h.2⟩,
   Sample.okAnd_exists (p := fun s => decide (s.p.sftCoupled = false)) (by decide +kernel) |>.imp fun s h => ⟨h.1, of_decide_eq_true h.2⟩,
   Sample.okAnd_exists (p := fun s => decide (s.p.sftCoupled = true)) (by decide +kernel) |>.imp fun s h => ⟨h.1, of_decide_eq_true h.2⟩⟩

/-- Cases for C66 and C67: files for which Initialize returns, with and without the condition. -/
example : sampleUse.Starts Sample.env ∧ sampleUse.Plain ∧ coupledUse.Starts Sample.env ∧ coupledUse.Plain ∧
    ∀ m, freshPick m ∉ m.live :=
  ⟨uses_start.1, by unfold Session.Plain; decide, uses_start.2.2, by unfold Session.Plain; decide, freshPick_ok⟩

/-- C66 fails for a file that sets soil_z without coupling: Initialize returns, and its array is never released, whatever
the allocator. -/
theorem C66_soil_z_fails (pick : Store → Nat) (hp : ∀ m, pick m ∉ m.live) :
    ∃ m, Store.life pick [soilZUse] = .ok m ∧ m.live.length = 1 := by
  obtain ⟨m, e, hl⟩ := C66_account pick hp Sample.env [soilZUse] (by simpa using uses_start.2.1)
  exact ⟨m, e, by rw [hl]; decide⟩

end LGAR
