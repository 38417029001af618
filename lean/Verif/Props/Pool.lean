import Verif.Lemmas.Pool
import Verif.Props.Heap
/-
Property C107: several models in one process do not disturb each other.
-/
set_option linter.unusedSectionVars false
namespace LGAR
variable {α : Type}

theorem contents_shows {P : Pool α} {L : Shelf α} (h : PoolOk P L) (i : Nat) : Shows P i (contents P L i) := by
  have hi := h.holds i
  unfold ShelfHolds at hi
  unfold contents
  cases ho : P.obj i with
  | none => exact ho
  | some q =>
    rw [ho] at hi
    exact ⟨q.1, q.2, _, _, ho, hi.1, hi.2.1, rfl, rfl⟩

theorem nodeOf_at {P : Pool α} {L : Shelf α} (h : PoolOk P L) {i a : Nat} (ha : NodeOf P i a) : L.at i a := by
  obtain ⟨hd, pv, ns, os, ho, l1, l2, hm⟩ := ha
  have hi := h.holds i
  simp only [ShelfHolds, ho] at hi
  rw [l1.unique hi.1, l2.unique hi.2.1] at hm
  exact hm

theorem pool_reached [Zero α] {A : Alloc α} (hA : A.Fresh) {es : List (PoolEv α)} {P : Pool α}
    (h : Pool.run A es .start = .ok P) :
    ∃ L, PoolOk P L ∧ ∀ i, Story (callsOn i es) none (contents P L i) := by
  have r := run_pool A hA es .start _ poolOk_start
  rw [h] at r
  obtain ⟨L, ok, st, -, -⟩ := r
  exact ⟨L, ok, st⟩

/-- C107: for every allocator and every interleaving of calls on any number of objects that runs through, the contents of
the lists of each object are what its own calls say; the calls on the others do not appear. -/
theorem C107_own_calls [Zero α] (A : Alloc α) (hA : A.Fresh) (es : List (PoolEv α)) (P : Pool α)
    (h : Pool.run A es .start = .ok P) (i : Nat) :
    ∃ y, Story (callsOn i es) none y ∧ Shows P i y := by
  obtain ⟨L, ok, st⟩ := pool_reached hA h
  exact ⟨_, st i, contents_shows ok i⟩

/-- C107, call by call: a call on one object leaves pointers, nodes and contents of every other object as they are. -/
theorem C107_others_kept [Zero α] (A : Alloc α) (hA : A.Fresh) (es : List (PoolEv α)) (P P' : Pool α)
    (h : Pool.run A es .start = .ok P) (e : PoolEv α) (he : P.exec A e = .ok P') (i : Nat) (hi : i ≠ e.on) :
    P'.obj i = P.obj i ∧ ∀ a, NodeOf P i a → NodeOf P' i a ∧ P'.mem.cell a = P.mem.cell a := by
  obtain ⟨L, ok, -⟩ := pool_reached hA h
  have r := exec_pool A hA P L e ok
  rw [he] at r
  obtain ⟨L', c⟩ := r
  refine ⟨c.obj i hi, fun a ha => ?_⟩
  have hat := nodeOf_at ok ha
  refine ⟨?_, c.cells i a hi hat⟩
  obtain ⟨hd, pv, -, -, ho, -⟩ := ha
  have hh := c.ok.holds i
  have ho' : P'.obj i = some (hd, pv) := (c.obj i hi).trans ho
  simp only [ShelfHolds, ho'] at hh
  rw [c.shelf i hi] at hh
  exact ⟨hd, pv, _, _, ho', hh.1, hh.2.1, hat⟩

/-- C107: no node belongs to two objects. -/
theorem C107_separate [Zero α] (A : Alloc α) (hA : A.Fresh) (es : List (PoolEv α)) (P : Pool α)
    (h : Pool.run A es .start = .ok P) (i j a : Nat) (hij : i ≠ j) (ha : NodeOf P i a) : ¬ NodeOf P j a := by
  obtain ⟨L, ok, -⟩ := pool_reached hA h
  exact fun hb => ok.apart i j a hij (nodeOf_at ok ha) (nodeOf_at ok hb)

/-- C107: in no interleaving does a call use or release a node that was already released, whichever object released it,
and no loop over a list fails to end. -/
theorem C107_no_dangling [Zero α] (A : Alloc α) (hA : A.Fresh) (es : List (PoolEv α)) :
    (∀ w, Pool.run A es .start ≠ .error (.uaf w)) ∧ Pool.run A es .start ≠ .error .fuel := by
  have r := run_pool A hA es .start _ poolOk_start
  cases hr : Pool.run A es .start with
  | ok P => exact ⟨by simp, by simp⟩
  | error e =>
    rw [hr] at r
    exact ⟨fun w => by simpa using r.1 w, by simpa using r.2⟩

/-- C107: if each object is finalized before it is initialized again and at the end, in whatever order among the objects,
no node is left and every allocation of the whole process was released exactly once. -/
theorem C107_released [Zero α] (A : Alloc α) (hA : A.Fresh) (es : List (PoolEv α)) (P : Pool α)
    (h : Pool.run A es .start = .ok P) (hc : ∀ i, Closed false (callsOn i es)) :
    (∀ a, P.mem.cell a = none) ∧ ReleasedOnce P.mem.log := by
  have r := run_pool A hA es .start _ poolOk_start
  rw [h] at r
  obtain ⟨L, ok, -, -, cl⟩ := r
  obtain ⟨hh, hn⟩ := cl hc fun a ha => by simp [Pool.start] at ha
  have empty : ∀ a, P.mem.cell a = none := by
    intro a
    cases hca : P.mem.cell a with
    | none => rfl
    | some n =>
      obtain ⟨i, hi⟩ := hh a (by rw [hca]; rfl)
      have := ok.holds i
      simp only [ShelfHolds, hn i] at this
      simp [Shelf.at, this] at hi
  refine ⟨empty, fun a => ?_⟩
  obtain ⟨k, hk⟩ := ok.log a
  exact ⟨k, by simpa [empty a] using hk⟩

/-- C107, the limit: Initialize on an object that was not finalized loses the nodes of its lists.  Whatever is called
afterwards, on whatever objects, they are never released. -/
theorem C107_initialize_again [Zero α] (A : Alloc α) (hA : A.Fresh) (es : List (PoolEv α)) (P : Pool α)
    (h : Pool.run A es .start = .ok P) (i a : Nat) (ha : NodeOf P i a) (later : List (PoolEv α)) (P' : Pool α)
    (h' : Pool.run A (.create i :: later) P = .ok P') : P'.mem.cell a = P.mem.cell a ∧ P'.mem.cell a ≠ none := by
  obtain ⟨L, ok, -⟩ := pool_reached hA h
  have hat := nodeOf_at ok ha
  have r := exec_pool A hA P L (.create i) ok
  unfold Pool.run at h'
  cases he : P.exec A (.create i) with
  | error e => rw [he] at h'; cases h'
  | ok P1 =>
    rw [he] at h' r
    have hm : P1.mem = P.mem := by
      have : P.setObj i (some (none, none)) = P1 := Except.ok.inj he
      rw [← this]; rfl
    obtain ⟨L1, c⟩ := r
    obtain ⟨n, hn⟩ := (ok.holds i).live hat
    have stray : ∀ j, ¬ L1.at j a := by
      intro j hj
      by_cases hji : j = i
      · subst hji
        have hst := c.step
        have hob : P1.obj j = some (none, none) := by
          have : P.setObj j (some (none, none)) = P1 := Except.ok.inj he
          rw [← this]; simp [Pool.setObj]
        have hh := c.ok.holds j
        simp only [ShelfHolds, hob] at hh
        have e1 := hh.1.unique (show IsList P1.mem none [] from rfl)
        have e2 := hh.2.1.unique (show IsList P1.mem none [] from rfl)
        simp [Shelf.at, e1, e2] at hj
      · have : L1 j = L j := c.shelf j hji
        exact ok.apart i j a (Ne.symm hji) hat (by simpa [Shelf.at, this] using hj)
    have r2 := run_pool A hA later P1 L1 c.ok
    have h2 : Pool.run A later P1 = .ok P' := h'
    rw [h2] at r2
    obtain ⟨-, -, -, sy, -⟩ := r2
    have := sy a (by rw [hm, hn]; rfl) stray
    rw [hm] at this
    exact ⟨this, by rw [this, hn]; simp⟩

/-! ### Two catchments -/

namespace HeapSample

/-- Two objects, their calls interleaved; the nodes of the one finalized first are used again by the other. -/
def twoModels : List (PoolEv ℚ) :=
  [.create 0, .create 7, .cmd 0 (.insertFront 10 (1/5) 1 1 true), .cmd 7 (.insertFront 20 (1/4) 1 1 true), .cmd 0 .snapshot,
   .cmd 7 .snapshot, .cmd 0 (.insertFirst 2 (2/5) 1 1 false), .cmd 7 (.write 0 fun f => { f with theta := 3/10 }),
   .cmd 0 .snapshot, .finalize 0, .cmd 7 (.insertFirst 1 (2/5) 1 1 false), .cmd 7 .snapshot]

end HeapSample

open HeapSample in
theorem two_models : ∃ P, Pool.run fit twoModels .start = .ok P ∧ P.obj 0 = none ∧ P.obj 7 ≠ none ∧
    P.mem.log.length = 16 :=
  Sample.okAnd_exists (by decide +kernel)

open HeapSample in
example : ∃ P y, Pool.run fit twoModels .start = .ok P ∧ Story (callsOn 7 twoModels) none y ∧ Shows P 7 y ∧
    y ≠ none := by
  obtain ⟨P, hP, -, h7, -⟩ := two_models
  obtain ⟨y, h1, h2⟩ := C107_own_calls fit fit_fresh twoModels P hP 7
  refine ⟨P, y, hP, h1, h2, ?_⟩
  rintro rfl
  exact h7 h2

open HeapSample in
/-- Initialize of object 0 again: object 7 keeps its nodes. -/
example : ∃ P P', Pool.run fit twoModels .start = .ok P ∧ P.exec fit (.create 0) = .ok P' ∧ P'.obj 7 = P.obj 7 ∧
    ∀ a, NodeOf P 7 a → NodeOf P' 7 a ∧ P'.mem.cell a = P.mem.cell a := by
  obtain ⟨P, hP, -⟩ := two_models
  exact ⟨P, _, hP, rfl, C107_others_kept fit fit_fresh twoModels P _ hP (.create 0) rfl 7 (by decide)⟩

open HeapSample in
example : ∃ P, Pool.run fit (twoModels ++ [.finalize 7]) .start = .ok P ∧ (∀ a, P.mem.cell a = none) ∧
    ReleasedOnce P.mem.log := by
  obtain ⟨P, hP, -⟩ : ∃ P, Pool.run fit (twoModels ++ [.finalize 7]) .start = .ok P ∧ P.mem.log.length = 20 :=
    Sample.okAnd_exists (by decide +kernel)
  refine ⟨P, hP, C107_released fit fit_fresh _ P hP fun i => ?_⟩
  by_cases h0 : i = 0
  · subst h0; simp [twoModels, callsOn, PoolEv.on, Closed]
  · by_cases h7 : i = 7
    · subst h7; simp [twoModels, callsOn, PoolEv.on, Closed]
    · simp [twoModels, callsOn, PoolEv.on, Closed, Ne.symm h0, Ne.symm h7]

open HeapSample in
/-- Initialize twice on the object 0: its first front stays in memory though the object was finalized. -/
example : ∃ P P' a, Pool.run fit [.create 0, .cmd 0 (.insertFront 10 (1/5) 1 1 true)] .start = .ok P ∧ NodeOf P 0 a ∧
    Pool.run fit [.create 0, .cmd 0 (.insertFront 10 (1/5) 1 1 true), .finalize 0] P = .ok P' ∧
    P'.mem.cell a ≠ none := by
  obtain ⟨P, hP, h0⟩ : ∃ P, Pool.run fit [.create 0, .cmd 0 (.insertFront 10 (1/5) 1 1 true)] .start = .ok P ∧
      P.obj 0 = some (some 0, none) :=
    Sample.okAnd_exists (by decide +kernel)
  obtain ⟨P', hP', -⟩ : ∃ P', Pool.run fit ([.create 0, .cmd 0 (.insertFront 10 (1/5) 1 1 true)] ++
      [.create 0, .cmd 0 (.insertFront 10 (1/5) 1 1 true), .finalize 0]) .start = .ok P' ∧ P'.mem.log.length = 3 :=
    Sample.okAnd_exists (by decide +kernel)
  have happ : ∀ (es fs : List (PoolEv ℚ)) (X Y : Pool ℚ), Pool.run fit es X = .ok Y →
      Pool.run fit (es ++ fs) X = Pool.run fit fs Y := by
    intro es fs
    induction es with
    | nil => rintro X Y h; cases h; rfl
    | cons e es ih =>
      intro X Y h
      unfold Pool.run at h
      rw [List.cons_append]
      show (X.exec fit e >>= fun P => Pool.run fit (es ++ fs) P) = _
      cases hx : X.exec fit e with
      | error w => rw [hx] at h; cases h
      | ok Z => rw [hx] at h; exact ih Z Y h
  rw [happ _ _ _ _ hP] at hP'
  have hn : NodeOf P 0 0 := by
    obtain ⟨y, -, hy⟩ := C107_own_calls fit fit_fresh _ P hP 0
    cases y with
    | none => rw [show P.obj 0 = none from hy] at h0; cases h0
    | some y =>
      obtain ⟨hd, pv, ns, os, ho, l1, l2, -⟩ := hy
      refine ⟨hd, pv, ns, os, ho, l1, l2, Or.inl ?_⟩
      rw [ho] at h0
      cases h0
      cases ns with
      | nil => cases (show (some 0 : Option Nat) = none from l1)
      | cons x t => rw [Option.some.inj l1.1]; simp
  exact ⟨P, P', 0, hP, hn, hP', (C107_initialize_again fit fit_fresh _ P hP 0 0 hn _ P' hP').2⟩

end LGAR
