import Verif.Lemmas.Own
import Verif.Spec.Samples
/-
Properties C18 and C58 at pointer level: the list functions on linked nodes in memory, and who owns the nodes.
-/
set_option linter.unusedSectionVars false
namespace LGAR
variable {α : Type}

/-! ### C18: the pointer programs do what the list functions say -/

/-- C18, search at pointer level: the pointer returned by listFindFront is the node at the position which the list
function finds (NULL if it finds none). -/
theorem C18_heap_find (m : Mem α) (p : Option Nat) (ns : List (Nat × Front α)) (h : IsList m p ns) (key : Int)
    (fuel : Nat) (hf : ns.length ≤ fuel) :
    hFind fuel key m p none = .ok ((listFindFront key (vals ns) []).bind fun i => (addrs ns)[i]?) := by
  cases ns with
  | nil => rw [show p = none from h]; rfl
  | cons x t =>
    obtain ⟨a, f⟩ := x
    have hp : p = some a := h.1
    subst hp
    have e := hFindGo_spec (key := key) h (by simp) hf
    simp only [hFind, Option.none_or, e]
    congr 1
    simp only [listFindFront, vals, List.map_cons, List.isEmpty_cons, Bool.false_eq_true, if_false, List.isEmpty_nil,
      if_true]
    rw [← List.map_cons (f := Prod.snd) (a := (a, f)), ← List.map_cons (f := Prod.fst) (a := (a, f))]
    generalize (a, f) :: t = l
    induction l with
    | nil => rfl
    | cons y l ih =>
      by_cases hy : y.2.front = key
      · simp [findFrom, hy]
      · simp only [List.find?_cons, hy, decide_false, List.map_cons, findFrom, if_false]
        rw [ih]
        cases findFrom key (List.map Prod.snd l) <;> simp

/-- C18, delete at pointer level: exactly the first node with the number is released, the other nodes stay where they
are, the list is what the list function says, and the returned pointer starts the part below the removed node.  No other
memory changes. -/
theorem C18_heap_delete (m : Mem α) (p : Option Nat) (ns : List (Nat × Front α)) (h : IsList m p ns) (key : Int)
    (fuel : Nat) (hf : ns.length < fuel) (i : Nat) (l : List (Front α))
    (hl : listDeleteFront key (vals ns) = .ok (i, l)) :
    ∃ c q p' m' ns', hDeleteFront fuel m key p = .ok (q, p', m') ∧ (addrs ns)[i]? = some c ∧
      IsList m' p' ns' ∧ vals ns' = l ∧ addrs ns' = (addrs ns).eraseIdx i ∧ IsList m' q (ns'.drop i) ∧
      m'.cell c = none ∧ (∀ a, a ∉ addrs ns → m'.cell a = m.cell a) ∧ m'.log = m.log ++ [.free c] := by
  have hex : ∃ x ∈ ns, x.2.front = key := by
    by_contra hn
    push Not at hn
    have : findFrom key (vals ns) = none := findFrom_none.mpr fun f hf => by
      obtain ⟨x, hx, rfl⟩ := List.mem_map.mp hf
      exact hn x hx
    simp [listDeleteFront, this] at hl
  obtain ⟨s, c, f, t, rfl, hk, hs⟩ := first_split hex
  have e : listDeleteFront key (vals (s ++ (c, f) :: t)) = .ok (s.length, vals s ++ decFronts (vals t)) := by
    rw [show vals (s ++ (c, f) :: t) = vals s ++ f :: vals t by simp [vals]]
    rw [listDeleteFront_split hk (fun g hg => by
      obtain ⟨x, hx, rfl⟩ := List.mem_map.mp hg
      exact hs x hx)]
    simp [decFronts]
  rw [e] at hl
  obtain ⟨rfl, rfl⟩ : s.length = i ∧ vals s ++ decFronts (vals t) = l := by simpa using hl
  obtain ⟨q, p', m', e', l', lq, hc, f', g', -⟩ := hDeleteFront_spec h hs hk hf
  refine ⟨c, q, p', m', s ++ decNodes t, e', by simp [addrs], l', ?_, ?_, ?_, hc, f', g'⟩
  · rw [← vals_decNodes]; simp [vals]
  · have := addrs_decNodes t
    simp only [addrs] at this
    simp [addrs, this, List.eraseIdx_append_of_length_le]
  · rw [List.drop_left]; exact lq

/-- C18, delete of an absent number at pointer level: `abort()`, as in the list function. -/
theorem C18_heap_delete_absent (m : Mem α) (p : Option Nat) (ns : List (Nat × Front α)) (h : IsList m p ns) (key : Int)
    (fuel : Nat) (hf : ns.length < fuel) (hs : ∀ f ∈ vals ns, f.front ≠ key) :
    hDeleteFront fuel m key p = .error (.abort "listDeleteFront: front not found") :=
  hDeleteFront_absent h (fun x hx => hs x.2 (List.mem_map.mpr ⟨x, hx, rfl⟩)) hf

/-- C18, insert at the surface at pointer level: one new node in front, the other nodes stay where they are, contents as
in the list function (psi and K of the new node are whatever the memory held). -/
theorem C18_heap_insertFirst [Zero α] (A : Alloc α) (hA : A.Fresh) (m : Mem α) (hfin : Finite m) (p : Option Nat)
    (ns : List (Nat × Front α)) (h : IsList m p ns) (fuel : Nat) (hf : ns.length < fuel) (depth theta : α) (num : Int)
    (layer : Nat) (bottom : Bool) :
    ∃ w m' ns' psi0 K0, hInsertFirst A fuel m depth theta num layer bottom p = .ok (some w, m') ∧
      IsList m' (some w) ns' ∧ addrs ns' = w :: addrs ns ∧
      vals ns' = listInsertFirst psi0 K0 depth theta num layer bottom (vals ns) ∧ m.cell w = none ∧
      ∀ a, a ≠ w → a ∉ addrs ns → m'.cell a = m.cell a := by
  obtain ⟨w, m', ns', psi0, K0, h1, h2, h3, h4, h5, h6, -, -⟩ := hInsertFirst_spec hA h hfin hf depth theta num layer
    bottom
  exact ⟨w, m', ns', psi0, K0, h1, h2, h3, h4, h5, h6⟩

/-- C18, reverse at pointer level: the same nodes in opposite order. -/
theorem C18_heap_reverse (m : Mem α) (p : Option Nat) (ns : List (Nat × Front α)) (h : IsList m p ns) (fuel : Nat)
    (hf : ns.length < fuel) :
    ∃ p' m', hReverse fuel m none p = .ok (p', m') ∧ IsList m' p' ns.reverse ∧
      vals ns.reverse = listReverseOrder (vals ns) ∧ m'.log = m.log := by
  obtain ⟨p', m', e, l, -, g⟩ := hReverse_spec (q := none) (rs := []) h rfl (by simp) hf
  refine ⟨p', m', e, by simpa using l, ?_, g⟩
  rw [listReverseOrder_eq]; simp [vals]

/-- C18, length at pointer level. -/
theorem C18_heap_length (m : Mem α) (p : Option Nat) (ns : List (Nat × Front α)) (h : IsList m p ns) (fuel : Nat)
    (hf : ns.length < fuel) : hLength fuel m p = .ok (listLength (vals ns)) := by
  rw [hLength_spec h hf]; simp [listLength]

/-- C18, copy at pointer level: the copy has equal contents in new nodes only, the original is untouched, and the copy
survives every later change of the memory outside its own nodes. -/
theorem C18_heap_copy (A : Alloc α) (hA : A.Fresh) (m : Mem α) (hfin : Finite m) (p : Option Nat)
    (ns : List (Nat × Front α)) (h : IsList m p ns) (fuel : Nat) (hf : ns.length < fuel) :
    ∃ p' m' ns', hCopy A fuel m p = .ok (p', m') ∧ IsList m' p ns ∧ IsList m' p' ns' ∧
      vals ns' = listCopy (vals ns) ∧ (∀ a ∈ addrs ns', a ∉ addrs ns) ∧
      ∀ m'', (∀ a ∈ addrs ns', m''.cell a = m'.cell a) → IsList m'' p' ns' := by
  obtain ⟨p', m', ns', e, l, v, fr, f', -, -⟩ := hCopy_spec hA h hfin hf
  have hd : ∀ a ∈ addrs ns', a ∉ addrs ns := by
    intro a ha hb
    obtain ⟨n, hn⟩ := h.live hb
    rw [fr a ha] at hn; cases hn
  refine ⟨p', m', ns', e, h.congr fun a ha => f' a fun hb => hd a hb ha, l, ?_, hd, fun m'' hm => l.congr hm⟩
  rw [listCopy_eq]; exact v

/-- C18, the saved copy is independent: whatever insertions, deletions and assignments are made to the current list after
the copy was taken, the saved list keeps its nodes and their contents, which are those of the list at the time of the
copy. -/
theorem C18_snapshot_kept [Zero α] (A : Alloc α) (hA : A.Fresh) (before after : List (Cmd α))
    (hafter : ∀ c ∈ after, c ≠ .snapshot) (o1 o2 : Own α)
    (h1 : Own.run A (before ++ [.snapshot]) .start = .ok o1) (h2 : Own.run A after o1 = .ok o2) :
    ∃ ns os, IsList o1.mem o1.head ns ∧ IsList o1.mem o1.prev os ∧ vals os = vals ns ∧
      (∀ a ∈ addrs os, a ∉ addrs ns) ∧ IsList o2.mem o2.prev os := by
  have r := run_spec A hA (before ++ [.snapshot]) .start tidy_start.1 tidy_start.2.1 (ns := []) (os := [])
    ⟨rfl, rfl, by simp, by simp [Own.start]⟩
  rw [h1] at r
  obtain ⟨hl, hf, ns, os, ho, hd, -⟩ := r
  have r2 := run_spec A hA after o1 hl hf ho
  rw [h2] at r2
  obtain ⟨-, -, ns2, os2, ho2, -, hk⟩ := r2
  refine ⟨ns, os, ho.1, ho.2.1, ?_, fun a ha hb => ho.2.2.1 a hb ha, hk hafter ▸ ho2.2.1⟩
  have last : ∀ (cs : List (Cmd α)) x y, Cmd.DoesAll (cs ++ [.snapshot]) x y → y.2 = y.1 := by
    intro cs
    induction cs with
    | nil =>
      rintro x y ⟨z, hz, e⟩
      rw [show y = z from e, show z = (x.1, listCopy x.1) from hz, listCopy_eq]
    | cons c cs ih =>
      rintro x y ⟨z, -, e⟩
      exact ih z y e
  exact last before _ _ hd

/-- C18, refinement of whole histories: after any sequence of list operations that runs through, the current list and the
saved list in memory hold what the list functions of the model compute. -/
theorem C18_heap_refines [Zero α] (A : Alloc α) (hA : A.Fresh) (cs : List (Cmd α)) (o : Own α)
    (h : Own.run A cs .start = .ok o) :
    ∃ ns os, IsList o.mem o.head ns ∧ IsList o.mem o.prev os ∧ Cmd.DoesAll cs ([], []) (vals ns, vals os) := by
  have r := run_spec A hA cs .start tidy_start.1 tidy_start.2.1 (ns := []) (os := [])
    ⟨rfl, rfl, by simp, by simp [Own.start]⟩
  rw [h] at r
  obtain ⟨-, -, ns, os, ho, hd, -⟩ := r
  exact ⟨ns, os, ho.1, ho.2.1, hd⟩

/-! ### C58: every node is released exactly once -/

/-- C58: for every allocator and every sequence of list operations of the program that runs through, Finalize runs
through, no node is left, and in the whole history every allocation is followed by exactly one release. -/
theorem C58_released [Zero α] (A : Alloc α) (hA : A.Fresh) (cs : List (Cmd α)) (o : Own α)
    (h : Own.run A cs .start = .ok o) :
    ∃ m, o.finalize = .ok m ∧ (∀ a, m.cell a = none) ∧ ReleasedOnce m.log := by
  have r := run_spec A hA cs .start tidy_start.1 tidy_start.2.1 (ns := []) (os := [])
    ⟨rfl, rfl, by simp, by simp [Own.start]⟩
  rw [h] at r
  obtain ⟨hl, -, ns, os, ho, -, -⟩ := r
  obtain ⟨m1, e1, c1, -, k1⟩ := hDelete_spec ho.1 (ho.1.bound hl)
  have hp : IsList m1 o.prev os := ho.2.1.congr fun a ha => by
    rw [c1 a, if_neg fun hb => ho.2.2.1 a hb ha]
  obtain ⟨m2, e2, c2, -, k2⟩ := hDelete_spec hp (hp.bound (k1 hl))
  have empty : ∀ a, m2.cell a = none := by
    intro a
    rw [c2 a, c1 a]
    split
    · rfl
    · split
      · rfl
      · exact IsList.all_of_owned ho ‹_› ‹_›
  refine ⟨m2, ?_, empty, fun a => ?_⟩
  · unfold Own.finalize; rw [e1, ok_bind, e2]
  · obtain ⟨k, hk⟩ := k2 (k1 hl) a
    exact ⟨k, by simpa [empty a] using hk⟩

/-- C58, on the way: in no history does a list operation read, write or release a node that was already released, nor
does a loop over a list fail to end; and the nodes in use are those of the two lists, none of which is in both. -/
theorem C58_no_dangling [Zero α] (A : Alloc α) (hA : A.Fresh) (cs : List (Cmd α)) :
    (∀ w, Own.run A cs .start ≠ .error (.uaf w)) ∧ Own.run A cs .start ≠ .error .fuel ∧
    ∀ o, Own.run A cs .start = .ok o → ∃ ns os, Owned o ns os := by
  have r := run_spec A hA cs .start tidy_start.1 tidy_start.2.1 (ns := []) (os := [])
    ⟨rfl, rfl, by simp, by simp [Own.start]⟩
  cases hr : Own.run A cs .start with
  | error e =>
    rw [hr] at r
    exact ⟨fun w => by simpa using r.1 w, by simpa using r.2, by simp⟩
  | ok o =>
    rw [hr] at r
    obtain ⟨-, -, ns, os, ho, -, -⟩ := r
    exact ⟨by simp, by simp, fun o' e => by cases e; exact ⟨ns, os, ho⟩⟩

/-- The number of nodes in use after any history: the lengths of the two lists together.  Memory does not grow with the
number of Updates. -/
theorem C58_live_count [Zero α] (A : Alloc α) (hA : A.Fresh) (cs : List (Cmd α)) (o : Own α)
    (h : Own.run A cs .start = .ok o) :
    ∃ ns os, IsList o.mem o.head ns ∧ IsList o.mem o.prev os ∧ (addrs ns ++ addrs os).Nodup ∧
      ∀ a, (o.mem.cell a).isSome = true ↔ a ∈ addrs ns ++ addrs os := by
  obtain ⟨ns, os, ho⟩ := (C58_no_dangling A hA cs).2.2 o h
  refine ⟨ns, os, ho.1, ho.2.1, ?_, fun a => ⟨fun ha => List.mem_append.mpr (ho.2.2.2 a ha), fun ha => ?_⟩⟩
  · exact List.nodup_append.mpr ⟨ho.1.nodup, ho.2.1.nodup, fun a ha b hb e => ho.2.2.1 a ha (e ▸ hb)⟩
  · rcases List.mem_append.mp ha with hh | hh
    · obtain ⟨n, hn⟩ := ho.1.live hh; rw [hn]; rfl
    · obtain ⟨n, hn⟩ := ho.2.1.live hh; rw [hn]; rfl

/-! Two calls of Finalize: the second one releases released nodes, because Finalize does not reset the pointers. -/

/-- C58, the call must not be repeated: after a history that ends with a front in the list, a second Finalize uses
released memory. -/
theorem C58_finalize_twice [Zero α] (A : Alloc α) (hA : A.Fresh) (cs : List (Cmd α)) (o : Own α)
    (h : Own.run A cs .start = .ok o) (hne : o.head ≠ none) :
    ∃ m, o.finalize = .ok m ∧ ∃ w, ({ o with mem := m } : Own α).finalize = .error (.uaf w) := by
  obtain ⟨m, e, hm, -⟩ := C58_released A hA cs o h
  refine ⟨m, e, ?_⟩
  obtain ⟨a, ha⟩ := Option.ne_none_iff_exists'.mp hne
  have hu : hDelete m.bound m o.head = .error (.uaf "access to a freed front") := by
    rw [ha]
    show hDelete (m.log.length + 1) m (some a) = _
    simp only [hDelete, Mem.load, hm a, error_bind]
  exact ⟨"access to a freed front", by unfold Own.finalize; simp only [hu, error_bind]⟩

/-! ### A history -/

namespace HeapSample

/-- The lowest free address among the first ones, else `d`. -/
def lowest (m : Mem ℚ) (d : Nat) : Nat → Nat → Nat
  | 0, _ => d
  | k + 1, a =>
    match m.cell a with
    | none => a
    | some _ => lowest m d k (a + 1)

/-- A first fit allocator: reuses released addresses, and fresh memory holds rubbish. -/
noncomputable def fit : Alloc ℚ where
  pick m := lowest m (by classical exact if h : ∃ a, m.cell a = none then Nat.find h else 0) 20 0
  junk _ := ⟨{ depth := 7, theta := 7, psi := 7, K := 7, layer := 0, front := 99, toBottom := true, dzdt := 7 }, some 3⟩

theorem fit_fresh : fit.Fresh := by
  classical
  intro m h
  show m.cell (lowest m (if h : ∃ a, m.cell a = none then Nat.find h else 0) 20 0) = none
  have hd : m.cell (if h : ∃ a, m.cell a = none then Nat.find h else 0) = none := by
    rw [dif_pos h]; exact Nat.find_spec h
  have : ∀ k a d, m.cell d = none → m.cell (lowest m d k a) = none := by
    intro k
    induction k with
    | zero => intro a d hd; exact hd
    | succ k ih =>
      intro a d hd
      unfold lowest
      split
      · assumption
      · exact ih _ _ hd
  exact this 20 0 _ hd

/-- Two layers filled, a snapshot, a surficial front, a second snapshot, the front of layer 1 deleted, depths changed, a
third snapshot, and another surficial front. -/
def history : List (Cmd ℚ) :=
  [.insertFront 10 (1/5) 1 1 true, .insertFront 30 (1/4) 2 2 true, .snapshot, .insertFirst 2 (2/5) 1 1 false, .snapshot,
   .write 0 fun f => { f with depth := 3 }, .deleteFront 2, .snapshot, .insertFirst 1 (3/10) 1 1 false]

def front (depth theta : ℚ) (layer : Nat) (num : Int) (bottom : Bool) : Front ℚ :=
  { depth, theta, psi := 7, K := 7, layer, front := num, toBottom := bottom, dzdt := 0 }

end HeapSample

open HeapSample in
/-- The history runs; at the end three nodes are current and two are saved; the addresses of the first snapshots were
used again. -/
theorem heap_sample : ∃ o, Own.run fit history .start = .ok o ∧
    (o.head ≠ none ∧ o.mem.log = [.malloc 0, .malloc 1, .malloc 2, .malloc 3, .malloc 4, .free 2, .free 3, .malloc 2,
      .malloc 3, .malloc 5, .free 0, .free 2, .free 3, .free 5, .malloc 0, .malloc 2, .malloc 3]) :=
  Sample.okAnd_exists (by decide +kernel)

open HeapSample in
example : ∃ m, (∀ a, m.cell a = none) ∧ ReleasedOnce m.log ∧ ∃ o, Own.run fit history .start = .ok o ∧
    o.finalize = .ok m := by
  obtain ⟨o, ho, -⟩ := heap_sample
  obtain ⟨m, h1, h2, h3⟩ := C58_released fit fit_fresh history o ho
  exact ⟨m, h2, h3, o, ho, h1⟩

open HeapSample in
example : ∃ o m, Own.run fit history .start = .ok o ∧ o.finalize = .ok m ∧
    ∃ w, ({ o with mem := m } : Own ℚ).finalize = .error (.uaf w) := by
  obtain ⟨o, ho, hh, -⟩ := heap_sample
  obtain ⟨m, h1, h2⟩ := C58_finalize_twice fit fit_fresh history o ho hh
  exact ⟨o, m, ho, h1, h2⟩

/-- The pointer programs on a list of three nodes at scattered addresses. -/
def HeapSample.mem : Mem ℚ where
  cell a := if a = 4 then some ⟨front 10 (1/5) 1 1 true, some 9⟩ else if a = 9 then
    some ⟨front 15 (2/5) 2 2 false, some 0⟩ else if a = 0 then some ⟨front 30 (1/4) 2 3 true, none⟩ else none
  log := [.malloc 4, .malloc 9, .malloc 0]

def HeapSample.nodes : List (Nat × Front ℚ) :=
  [(4, front 10 (1/5) 1 1 true), (9, front 15 (2/5) 2 2 false), (0, front 30 (1/4) 2 3 true)]

open HeapSample in
theorem HeapSample.isList : IsList mem (some 4) nodes := ⟨rfl, _, rfl, rfl, _, rfl, rfl, _, rfl, rfl⟩
open HeapSample in
theorem HeapSample.finite : Finite mem := ⟨10, fun a ha => by
  simp [mem, show a ≠ 4 by omega, show a ≠ 9 by omega, show a ≠ 0 by omega]⟩

open HeapSample in
example : hFind 4 2 mem (some 4) none = .ok (some 9) := C18_heap_find _ _ _ HeapSample.isList 2 4 (by decide)
open HeapSample in
example : ∃ c q p' m' ns', hDeleteFront 4 mem 2 (some 4) = .ok (q, p', m') ∧ (addrs nodes)[1]? = some c ∧
      IsList m' p' ns' ∧ vals ns' = [front 10 (1/5) 1 1 true, front 30 (1/4) 2 2 true] ∧
      addrs ns' = (addrs nodes).eraseIdx 1 ∧ IsList m' q (ns'.drop 1) ∧
      m'.cell c = none ∧ (∀ a, a ∉ addrs nodes → m'.cell a = mem.cell a) ∧ m'.log = mem.log ++ [.free c] :=
  C18_heap_delete _ _ _ HeapSample.isList 2 4 (by decide) _ _ (by decide +kernel)
open HeapSample in
example : ∃ p' m' ns', hCopy fit 4 mem (some 4) = .ok (p', m') ∧ IsList m' (some 4) nodes ∧ IsList m' p' ns' ∧
      vals ns' = listCopy (vals nodes) ∧ (∀ a ∈ addrs ns', a ∉ addrs nodes) ∧
      ∀ m'', (∀ a ∈ addrs ns', m''.cell a = m'.cell a) → IsList m'' p' ns' :=
  C18_heap_copy fit fit_fresh _ HeapSample.finite _ _ HeapSample.isList 4 (by decide)

end LGAR
