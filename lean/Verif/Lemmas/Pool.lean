import Verif.Lemmas.Own
import Verif.Spec.Pool
/-
Helper lemmas: the invariant of several objects in one memory.
-/
set_option linter.unusedSectionVars false
namespace LGAR
variable {α : Type}

/-- `hDelete` twice. -/
theorem finalize_frame (o : Own α) (hl : LogOk o.mem) {ns os : List (Nat × Front α)} (h : Holds o ns os) :
    ∃ m, o.finalize = .ok m ∧ LogOk m ∧ (∀ a, a ∈ addrs ns ∨ a ∈ addrs os → m.cell a = none) ∧
      ∀ a, ¬ (a ∈ addrs ns ∨ a ∈ addrs os) → m.cell a = o.mem.cell a := by
  obtain ⟨m1, e1, c1, -, k1⟩ := hDelete_spec h.1 (h.1.bound hl)
  have hp : IsList m1 o.prev os := h.2.1.congr fun a ha => by
    rw [c1 a, if_neg fun hb => h.2.2 a hb ha]
  obtain ⟨m2, e2, c2, -, k2⟩ := hDelete_spec hp (hp.bound (k1 hl))
  refine ⟨m2, ?_, k2 (k1 hl), fun a ha => ?_, fun a ha => ?_⟩
  · unfold Own.finalize; rw [e1, ok_bind, e2]
  · rw [c2 a, c1 a]
    split
    · rfl
    · rw [if_pos (ha.resolve_right ‹_›)]
  · rw [not_or] at ha
    rw [c2 a, c1 a, if_neg ha.2, if_neg ha.1]

/-- The lists of every object. -/
abbrev Shelf (α : Type) := Nat → List (Nat × Front α) × List (Nat × Front α)

/-- `a` is a node of object `i`. -/
def Shelf.at (L : Shelf α) (i a : Nat) : Prop := a ∈ addrs (L i).1 ∨ a ∈ addrs (L i).2

/-- The shelf describes what object `i` holds. -/
def ShelfHolds (P : Pool α) (L : Shelf α) (i : Nat) : Prop :=
  match P.obj i with
  | none => L i = ([], [])
  | some (h, p) => Holds { mem := P.mem, head := h, prev := p } (L i).1 (L i).2

/-- The invariant: every object holds its lists, and no node is in the lists of two objects. -/
structure PoolOk (P : Pool α) (L : Shelf α) : Prop where
  log : LogOk P.mem
  fin : Finite P.mem
  holds : ∀ i, ShelfHolds P L i
  apart : ∀ i j a, i ≠ j → L.at i a → ¬ L.at j a

/-- The contents of object `i`. -/
def contents (P : Pool α) (L : Shelf α) (i : Nat) : Option (List (Front α) × List (Front α)) :=
  (P.obj i).map fun _ => (vals (L i).1, vals (L i).2)

/-- What one call does to the object it is made on. -/
def StoryStep [Zero α] : PoolEv α → Option (List (Front α) × List (Front α)) →
    Option (List (Front α) × List (Front α)) → Prop
  | .create _, _, y => y = some ([], [])
  | .cmd _ c, x, y => ∃ a b, x = some a ∧ c.Does a b ∧ y = some b
  | .finalize _, x, y => x ≠ none ∧ y = none

theorem story_cons [Zero α] (e : PoolEv α) (es : List (PoolEv α)) (x z : Option (List (Front α) × List (Front α))) :
    Story (e :: es) x z ↔ ∃ y, StoryStep e x y ∧ Story es y z := by
  cases e <;> simp only [Story, StoryStep]
  · exact ⟨fun h => ⟨_, rfl, h⟩, fun ⟨_, e, h⟩ => e ▸ h⟩
  · exact ⟨fun ⟨a, b, h1, h2, h3⟩ => ⟨_, ⟨a, b, h1, h2, rfl⟩, h3⟩, fun ⟨_, ⟨a, b, h1, h2, e⟩, h3⟩ => ⟨a, b, h1, h2, e ▸ h3⟩⟩
  · exact ⟨fun ⟨h1, h2⟩ => ⟨_, ⟨h1, rfl⟩, h2⟩, fun ⟨_, ⟨h1, e⟩, h2⟩ => ⟨h1, e ▸ h2⟩⟩

/-- All nodes belong to an object. -/
def AllHeld (P : Pool α) (L : Shelf α) : Prop := ∀ a, (P.mem.cell a).isSome = true → ∃ i, L.at i a

/-- What one call does to everything. -/
structure CallOk [Zero α] (e : PoolEv α) (P : Pool α) (L : Shelf α) (P' : Pool α) (L' : Shelf α) : Prop where
  ok : PoolOk P' L'
  obj : ∀ j, j ≠ e.on → P'.obj j = P.obj j
  shelf : ∀ j, j ≠ e.on → L' j = L j
  cells : ∀ j a, j ≠ e.on → L.at j a → P'.mem.cell a = P.mem.cell a
  step : StoryStep e (contents P L e.on) (contents P' L' e.on)
  stray : ∀ a, (P.mem.cell a).isSome = true → (∀ i, ¬ L.at i a) → P'.mem.cell a = P.mem.cell a ∧ ∀ i, ¬ L'.at i a
  held : AllHeld P L → (∀ i, e = .create i → P.obj i = none) → AllHeld P' L'

theorem ShelfHolds.live {P : Pool α} {L : Shelf α} {i : Nat} (h : ShelfHolds P L i) {a : Nat} (ha : L.at i a) :
    ∃ n, P.mem.cell a = some n := by
  unfold ShelfHolds at h
  split at h
  · simp [Shelf.at, h] at ha
  · rcases ha with ha | ha
    · exact h.1.live ha
    · exact h.2.1.live ha

theorem ShelfHolds.congr {P P' : Pool α} {L L' : Shelf α} {i : Nat} (h : ShelfHolds P L i) (ho : P'.obj i = P.obj i)
    (hL : L' i = L i) (hc : ∀ a, L.at i a → P'.mem.cell a = P.mem.cell a) : ShelfHolds P' L' i := by
  unfold ShelfHolds at h ⊢
  rw [ho, hL]
  cases hq : P.obj i with
  | none => rw [hq] at h; exact h
  | some q =>
    rw [hq] at h
    exact ⟨h.1.congr fun a ha => hc a (Or.inl ha), h.2.1.congr fun a ha => hc a (Or.inr ha), h.2.2⟩

theorem exec_pool [Zero α] (A : Alloc α) (hA : A.Fresh) (P : Pool α) (L : Shelf α) (e : PoolEv α) (h : PoolOk P L) :
    Calm (P.exec A e) fun P' => ∃ L', CallOk e P L P' L' := by
  cases e with
  | create i =>
    refine Calm.of_ok ⟨_, rfl, fun j => if j = i then ([], []) else L j, ?_⟩
    have hat : ∀ j a, Shelf.at (fun j => if j = i then ([], []) else L j) j a → j ≠ i ∧ L.at j a := by
      intro j a ha
      by_cases hj : j = i
      · simp [Shelf.at, hj] at ha
      · exact ⟨hj, by simpa [Shelf.at, hj] using ha⟩
    refine ⟨⟨h.log, h.fin, fun j => ?_, fun j k a hjk ha hb => ?_⟩, fun j hj => ?_, fun j hj => ?_, fun j a hj ha => rfl, ?_,
      fun a ha hs => ⟨rfl, fun j hj => hs j (hat j a hj).2⟩, fun hh hc a ha => ?_⟩
    · by_cases hj : j = i
      · simp only [ShelfHolds, Pool.setObj, hj, if_true]
        exact ⟨rfl, rfl, by simp⟩
      · exact (h.holds j).congr (by simp [Pool.setObj, hj]) (by simp [hj]) fun a ha => rfl
    · exact h.apart j k a hjk (hat j a ha).2 (hat k a hb).2
    · simp [Pool.setObj, show j ≠ i from hj]
    · simp [show j ≠ i from hj]
    · simp [StoryStep, contents, Pool.setObj, PoolEv.on]
    · obtain ⟨j, hj⟩ := hh a ha
      refine ⟨j, ?_⟩
      have : j ≠ i := by
        rintro rfl
        have := h.holds j
        simp only [ShelfHolds, hc j rfl] at this
        simp [Shelf.at, this] at hj
      simpa [Shelf.at, this] using hj
  | cmd i c =>
    cases ho : P.obj i with
    | none => simp only [Pool.exec, ho]; exact ⟨by simp, by simp⟩
    | some q =>
      obtain ⟨hd, pv⟩ := q
      have hi := h.holds i
      simp only [ShelfHolds, ho] at hi
      simp only [Pool.exec, ho]
      refine Calm.bind _ (exec_frame A hA _ c h.log h.fin hi) ?_
      rintro o' ⟨hl', hf', ns', os', hh', hdo, -, t1, t2, t3⟩
      refine ⟨fun j => if j = i then (ns', os') else L j, ?_⟩
      set L' : Shelf α := fun j => if j = i then (ns', os') else L j with hL'
      have ati : ∀ a, L'.at i a ↔ a ∈ addrs ns' ∨ a ∈ addrs os' := fun a => by simp [Shelf.at, hL']
      have atj : ∀ j a, j ≠ i → (L'.at j a ↔ L.at j a) := fun j a hj => by simp [Shelf.at, hL', hj]
      have new : ∀ a, L'.at i a → ¬ L.at i a → P.mem.cell a = none := fun a ha hb => t3 a ((ati a).mp ha) hb
      have other : ∀ j a, j ≠ i → L.at j a → ¬ L'.at i a := by
        intro j a hj ha hb
        have hn := new a hb (h.apart j i a hj ha)
        obtain ⟨n, hn'⟩ := (h.holds j).live ha
        rw [hn] at hn'; cases hn'
      have same : ∀ a, ¬ L.at i a → ¬ L'.at i a → o'.mem.cell a = P.mem.cell a := fun a ha hb =>
        t1 a ha fun hc => hb ((ati a).mpr hc)
      refine ⟨⟨hl', hf', fun j => ?_, fun j k a hjk ha hb => ?_⟩, fun j hj => ?_, fun j hj => ?_, fun j a hj ha => ?_, ?_,
        fun a ha hs => ?_, fun hh _ a ha => ?_⟩
      · by_cases hj : j = i
        · subst hj
          simpa [ShelfHolds, Pool.setObj, hL'] using hh'
        · exact (h.holds j).congr (by simp [Pool.setObj, hj]) (by simp [hL', hj]) fun a ha =>
            same a (h.apart j i a hj ha) (other j a hj ha)
      · by_cases hj : j = i
        · subst hj
          exact other k a (Ne.symm hjk) ((atj k a (Ne.symm hjk)).mp hb) ha
        · rw [atj j a hj] at ha
          by_cases hk : k = i
          · subst hk; exact other j a hj ha hb
          · exact h.apart j k a hjk ha ((atj k a hk).mp hb)
      · simp [Pool.setObj, show j ≠ i from hj]
      · simp [hL', show j ≠ i from hj]
      · exact same a (h.apart j i a hj ha) (other j a hj ha)
      · simpa [StoryStep, contents, Pool.setObj, PoolEv.on, ho, hL'] using hdo
      · have hn : ¬ L'.at i a := fun hb => by
          rw [new a hb (hs i)] at ha; cases ha
        refine ⟨same a (hs i) hn, fun j hj => ?_⟩
        by_cases hji : j = i
        · subst hji; exact hn hj
        · exact hs j ((atj j a hji).mp hj)
      · by_cases hi' : L'.at i a
        · exact ⟨i, hi'⟩
        · by_cases hx : L.at i a
          · have : o'.mem.cell a = none := t2 a hx fun hc => hi' ((ati a).mpr hc)
            rw [show ((({ P with mem := o'.mem } : Pool α).setObj i (some (o'.head, o'.prev))).mem.cell a) = o'.mem.cell a
              from rfl, this] at ha
            cases ha
          · have e1 : o'.mem.cell a = P.mem.cell a := same a hx hi'
            obtain ⟨j, hj⟩ := hh a (by rw [← e1]; exact ha)
            have hji : j ≠ i := fun e => hx (e ▸ hj)
            exact ⟨j, (atj j a hji).mpr hj⟩
  | finalize i =>
    cases ho : P.obj i with
    | none => simp only [Pool.exec, ho]; exact ⟨by simp, by simp⟩
    | some q =>
      obtain ⟨hd, pv⟩ := q
      have hi := h.holds i
      simp only [ShelfHolds, ho] at hi
      obtain ⟨m, em, hl', gone, kept⟩ := finalize_frame _ h.log hi
      refine Calm.of_ok ⟨({ P with mem := m } : Pool α).setObj i none, ?_, fun j => if j = i then ([], []) else L j, ?_⟩
      · simp only [Pool.exec, ho, em, ok_bind]; rfl
      have hat : ∀ j a, Shelf.at (fun j => if j = i then ([], []) else L j) j a ↔ j ≠ i ∧ L.at j a := by
        intro j a
        by_cases hj : j = i
        · simp [Shelf.at, hj]
        · simp [Shelf.at, hj]
      have same : ∀ j a, j ≠ i → L.at j a → m.cell a = P.mem.cell a := fun j a hj ha => kept a (h.apart j i a hj ha)
      refine ⟨⟨hl', h.fin.of_le fun a ha => ?_, fun j => ?_, fun j k a hjk ha hb => ?_⟩, fun j hj => ?_, fun j hj => ?_,
        fun j a hj ha => same j a hj ha, ?_,
        fun a ha hs => ⟨kept a (hs i), fun j hj => hs j ((hat j a).mp hj).2⟩, fun hh hc a ha => ?_⟩
      · show m.cell a = none
        by_cases hx : L.at i a
        · exact gone a hx
        · rw [kept a hx]; exact ha
      · by_cases hj : j = i
        · simp [ShelfHolds, Pool.setObj, hj]
        · exact (h.holds j).congr (by simp [Pool.setObj, hj]) (by simp [hj]) fun a ha => same j a hj ha
      · exact h.apart j k a hjk ((hat j a).mp ha).2 ((hat k a).mp hb).2
      · simp [Pool.setObj, show j ≠ i from hj]
      · simp [show j ≠ i from hj]
      · simp [StoryStep, contents, Pool.setObj, PoolEv.on, ho]
      · have hx : ¬ L.at i a := fun hx => by
          have ha : (m.cell a).isSome = true := ha
          rw [gone a hx] at ha; cases ha
        obtain ⟨j, hj⟩ := hh a (by rw [← kept a hx]; exact ha)
        exact ⟨j, (hat j a).mpr ⟨fun e => hx (e ▸ hj), hj⟩⟩

theorem poolOk_start : PoolOk (Pool.start : Pool α) fun _ => ([], []) :=
  ⟨fun a => ⟨0, by simp [Pool.start]⟩, ⟨0, fun _ _ => rfl⟩, fun i => rfl, fun i j a _ h => by simp [Shelf.at] at h⟩

/-- Is the object there? -/
def present (P : Pool α) (i : Nat) : Bool := (P.obj i).isSome

theorem run_pool [Zero α] (A : Alloc α) (hA : A.Fresh) (es : List (PoolEv α)) (P : Pool α) (L : Shelf α)
    (h : PoolOk P L) :
    Calm (Pool.run A es P) fun P' => ∃ L', PoolOk P' L' ∧
      (∀ i, Story (callsOn i es) (contents P L i) (contents P' L' i)) ∧
      (∀ a, (P.mem.cell a).isSome = true → (∀ i, ¬ L.at i a) → P'.mem.cell a = P.mem.cell a) ∧
      ((∀ i, Closed (present P i) (callsOn i es)) → AllHeld P L → AllHeld P' L' ∧ ∀ i, P'.obj i = none) := by
  induction es generalizing P L with
  | nil =>
    refine ⟨L, h, fun i => rfl, fun _ _ _ => rfl, fun hc hh => ⟨hh, fun i => ?_⟩⟩
    have : present P i = false := hc i
    simpa [present] using this
  | cons e es ih =>
    unfold Pool.run
    refine Calm.bind _ (exec_pool A hA P L e h) ?_
    rintro P1 ⟨L1, c⟩
    have := ih P1 L1 c.ok
    revert this
    cases Pool.run A es P1 with
    | error e => exact id
    | ok P2 =>
      rintro ⟨L2, ok2, st, sy, cl⟩
      refine ⟨L2, ok2, fun i => ?_, fun a ha hs => ?_, fun hc hh => ?_⟩
      · by_cases hi : e.on = i
        · have e1 : callsOn i (e :: es) = e :: callsOn i es := by simp [callsOn, hi]
          rw [e1, story_cons]
          exact ⟨_, hi ▸ c.step, st i⟩
        · have e1 : callsOn i (e :: es) = callsOn i es := by simp [callsOn, hi]
          have e2 : contents P1 L1 i = contents P L i := by
            unfold contents; rw [c.obj i (Ne.symm hi), c.shelf i (Ne.symm hi)]
          rw [e1, ← e2]; exact st i
      · obtain ⟨k1, k2⟩ := c.stray a ha hs
        rw [sy a (by rw [k1]; exact ha) k2, k1]
      · refine cl (fun i => ?_) (c.held hh fun i hi => ?_)
        · have hci := hc i
          by_cases hi : e.on = i
          · have e1 : callsOn i (e :: es) = e :: callsOn i es := by simp [callsOn, hi]
            rw [e1] at hci
            have hst := hi ▸ c.step
            cases e with
            | create k =>
              obtain rfl : k = i := hi
              have : present P1 k = true := by
                have : contents P1 L1 k = some ([], []) := hst
                cases ho : P1.obj k with
                | none => simp [contents, ho] at this
                | some q => simp [present, ho]
              rw [this]; exact hci.2
            | cmd k cc =>
              obtain rfl : k = i := hi
              obtain ⟨x, y, h1, -, h2⟩ := hst
              have p1 : present P1 k = true := by
                have : contents P1 L1 k = some y := h2
                cases ho : P1.obj k with
                | none => simp [contents, ho] at this
                | some q => simp [present, ho]
              have p0 : present P k = true := by
                have : contents P L k = some x := h1
                cases ho : P.obj k with
                | none => simp [contents, ho] at this
                | some q => simp [present, ho]
              rw [p1, ← p0]; exact hci
            | finalize k =>
              obtain rfl : k = i := hi
              have : present P1 k = false := by
                have : contents P1 L1 k = none := hst.2
                cases ho : P1.obj k with
                | none => simp [present, ho]
                | some q => simp [contents, ho] at this
              rw [this]; exact hci
          · have e1 : callsOn i (e :: es) = callsOn i es := by simp [callsOn, hi]
            rw [e1] at hci
            have : present P1 i = present P i := by unfold present; rw [c.obj i (Ne.symm hi)]
            rw [this]; exact hci
        · subst hi
          have hci := hc i
          have e1 : callsOn i (.create i :: es) = .create i :: callsOn i es := by simp [callsOn, PoolEv.on]
          rw [e1] at hci
          have : present P i = false := hci.1
          simpa [present] using this

end LGAR
