import Verif.Lemmas.Lists
import Verif.Spec.Samples
/-
Properties C18 (list primitives) and C19 (sort by depth).
-/
namespace LGAR
attribute [-instance] Rat.instOfScientific
variable {α : Type}
open Sample

/-- C18, search: the result is the position of the first front with this number; NULL iff there is none.
(The second list argument is the NULL of the default call.) -/
theorem C18_find (key : Int) (l : List (Front α)) (i : Nat) :
    (listFindFront key l [] = some i ↔
      ∃ h : i < l.length, l[i].front = key ∧ ∀ j (hj : j < i), (l[j]'(by omega)).front ≠ key) ∧
    (listFindFront key l [] = none ↔ ∀ f ∈ l, f.front ≠ key) := by
  cases l with
  | nil => simp [listFindFront]
  | cons f t => simp only [listFindFront, List.isEmpty_cons, Bool.false_eq_true, if_false, List.isEmpty_nil, if_true]
                exact ⟨findFrom_some, findFrom_none⟩

/-- C18, search in the previous state: a non-empty second list is the one searched (whenever the first is not NULL). -/
theorem C18_find_old (key : Int) (l old : List (Front α)) (hl : l ≠ []) (ho : old ≠ []) :
    listFindFront key l old = listFindFront key old [] := by
  cases l <;> cases old <;> simp_all [listFindFront]

/-- C18, delete: the first front with the number is removed, all other fronts keep their data and order, and the
numbers of the fronts below it go down by one. -/
theorem C18_delete (a b : List (Front α)) (f : Front α) (ha : ∀ g ∈ a, g.front ≠ f.front) :
    listDeleteFront f.front (a ++ f :: b) =
      .ok (a.length, a ++ b.map fun g => { g with front := g.front - 1 }) :=
  listDeleteFront_split rfl ha

/-- C18, delete of an absent number aborts. -/
theorem C18_delete_absent (k : Int) (l : List (Front α)) (h : ∀ f ∈ l, f.front ≠ k) :
    listDeleteFront k l = .error (.abort "listDeleteFront: front not found") := by
  unfold listDeleteFront; rw [findFrom_none.mpr h]

/-- C18, delete on a consecutively numbered list: number `i+1` exists for every position `i`, exactly that front goes,
and the numbering stays consecutive. -/
theorem C18_delete_numbered (l : List (Front α)) (h : Consecutive l) (i : Nat) (hi : i < l.length) :
    ∃ l', listDeleteFront ((i : Int) + 1) l = .ok (i, l') ∧ Consecutive l' ∧
      l'.map Front.data = (l.map Front.data).eraseIdx i := by
  have hn := (consecutive_iff l).mp h
  refine ⟨_, ?_, (consecutive_iff _).mpr (numFrom_delete_at hn i hi), ?_⟩
  · rw [← h i hi]; exact listDeleteFront_at hn i hi
  · rw [List.map_append, decFronts_data, List.eraseIdx_eq_take_drop_succ, List.map_take, List.map_drop]

example : Consecutive col3 ∧ 1 < col3.length := by decide +kernel
example : listDeleteFront 2 col3 = .ok (1, [fr 4 (3/10) 1 1 false, fr 30 (1/10) 2 2 true]) := by decide +kernel

/-- C18, insert at the surface: the new front comes first, the others keep data and order and are renumbered. -/
theorem C18_insertFirst [Zero α] (psi0 K0 depth theta : α) (layer : Nat) (bottom : Bool) (l : List (Front α))
    (h : Consecutive l) :
    ∃ f l', listInsertFirst psi0 K0 depth theta 1 layer bottom l = f :: l' ∧ Consecutive (f :: l') ∧
      f.depth = depth ∧ f.theta = theta ∧ f.layer = layer ∧ f.toBottom = bottom ∧
      l'.map Front.data = l.map Front.data := by
  refine ⟨_, _, rfl, ?_, rfl, rfl, rfl, rfl, incFronts_data l⟩
  rw [consecutive_iff] at h ⊢
  exact ⟨rfl, h.inc⟩

example : Consecutive col3 := by decide +kernel

/-- C18, insert at a number: on a consecutively numbered list, inserting at number n+1 appends. -/
theorem C18_insertAt_partial [Zero α] (psi0 K0 depth theta : α) (layer : Nat) (bottom : Bool) (l : List (Front α))
    (h : Consecutive l) :
    ∃ f, listInsertFront psi0 K0 depth theta ((l.length : Int) + 1) layer bottom l = .ok (some l.length, l ++ [f]) ∧
      Consecutive (l ++ [f]) ∧ f.depth = depth ∧ f.theta = theta ∧ f.layer = layer ∧ f.toBottom = bottom := by
  have hn := (consecutive_iff l).mp h
  refine ⟨⟨depth, theta, psi0, K0, layer, (l.length : Int) + 1, bottom, 0⟩, ?_, ?_, rfl, rfl, rfl, rfl⟩
  · rcases List.eq_nil_or_concat l with rfl | ⟨a, p, rfl⟩
    · rfl
    · rw [List.concat_eq_append] at hn ⊢
      have hp : p.front = ((a ++ [p]).length : Int) + 1 - 1 := by
        have := h (a.length) (by simp)
        simp at this; simp [this]
      have ha : ∀ g ∈ a, g.front ≠ ((a ++ [p]).length : Int) + 1 - 1 := by
        rw [NumFrom.append] at hn
        intro g hg e
        have := hn.1.mem_lt hg
        simp at e; omega
      have hne : ∃ x t, a ++ [p] = x :: t := by cases a <;> simp
      obtain ⟨x, t, hx⟩ := hne
      unfold listInsertFront
      have := insertGo_split (link := (⟨depth, theta, psi0, K0, layer, ((a ++ [p]).length : Int) + 1, bottom, 0⟩ :
        Front α)) (b := []) hp ha
      rw [hx] at this ⊢
      simp only [if_true] at this
      simp only [this, ok_bind]
      rw [← hx]; simp
  · rw [consecutive_iff, NumFrom.append]
    exact ⟨hn, by show (l.length : Int) + 1 = 1 + l.length; omega, trivial⟩

/-- C18 fails for insertion in the middle: inserting at a number that is already used by a later front never returns;
the renumbering loop increments the same counter until signed overflow. -/
theorem C18_insertAt_middle_fails [Zero α] (psi0 K0 depth theta : α) (layer : Nat) (bottom : Bool)
    (l : List (Front α)) (h : Consecutive l) (i : Nat) (h0 : 0 < i) (hi : i < l.length) :
    ∃ w, listInsertFront psi0 K0 depth theta ((i : Int) + 1) layer bottom l = .error (.ub w) := by
  have hn := (consecutive_iff l).mp h
  obtain ⟨k, rfl⟩ : ∃ k, i = k + 1 := ⟨i - 1, by omega⟩
  have e : l = l.take k ++ l[k] :: l.drop (k + 1) := by
    rw [List.getElem_cons_drop]; simp
  have hp : l[k].front = ((k + 1 : Nat) : Int) + 1 - 1 := by rw [h k (by omega)]; push_cast; ring
  have ha : ∀ g ∈ l.take k, g.front ≠ ((k + 1 : Nat) : Int) + 1 - 1 := by
    rw [e, NumFrom.append] at hn
    intro g hg e'
    have := hn.1.mem_lt hg
    have hl : (l.take k).length ≤ k := by simp
    push_cast at e'; omega
  have := insertGo_split (link := (⟨depth, theta, psi0, K0, layer, ((k + 1 : Nat) : Int) + 1, bottom, 0⟩ :
        Front α)) (b := l.drop (k + 1)) hp ha
  rw [← e, if_neg (by simp; omega)] at this
  refine ⟨"listInsertFront: endless renumbering loop, signed overflow", ?_⟩
  cases l with
  | nil => simp at hi
  | cons x t => unfold listInsertFront; simp only [this]; rfl

/-- C18, copy returns an equal list.  (Independence of later edits: `Props/Heap`.) -/
theorem C18_copy (l : List (Front α)) : listCopy l = l := listCopy_eq l

/-- C18, reverse: the reversed sequence, an involution. -/
theorem C18_reverse (l : List (Front α)) :
    listReverseOrder l = l.reverse ∧ listReverseOrder (listReverseOrder l) = l := by
  simp [listReverseOrder_eq]

/-- C18, length. -/
theorem C18_length (l : List (Front α)) : listLength l = l.length := rfl

section AtDepth
variable [Sub α] [Neg α] [LT α] [LE α] [DecidableLT α] [DecidableLE α] [CMath α] [OfScientific α] [One α]

omit [Neg α] [One α] in
theorem atDepthGo_ok (N : Nat) (cum : List α) (depth : α) (mk : Nat → Bool → Int → Front α) (p : Front α)
    (l : List (Front α)) (link : Front α) (r : List (Front α))
    (h : atDepthGo N cum depth mk p l = .ok (some (link, r))) :
    ∃ a q c b ly bt, p :: l = a ++ q :: c :: b ∧ q.depth < depth ∧ depth ≤ c.depth ∧
      listFindLayer N cum depth = .ok (some (ly, bt)) ∧ link = mk ly bt c.front ∧
      r = a ++ q :: link :: incFronts (c :: b) := by
  induction l generalizing p link r with
  | nil => simp [atDepthGo] at h
  | cons c t ih =>
    unfold atDepthGo at h
    split at h
    · rename_i hc
      simp only [bind_ok_iff] at h
      obtain ⟨o, ho, h⟩ := h
      cases o with
      | none => simp at h
      | some x =>
        obtain ⟨ly, bt⟩ := x
        simp only [Except.ok.injEq, Option.some.injEq, Prod.mk.injEq] at h
        obtain ⟨rfl, rfl⟩ := h
        exact ⟨[], p, c, t, ly, bt, rfl, hc.1, hc.2, ho, rfl, rfl⟩
    · cases t with
      | nil => simp at h
      | cons d u =>
        simp only [bind_ok_iff] at h
        obtain ⟨o, ho, h⟩ := h
        cases o with
        | none => simp at h
        | some x =>
          obtain ⟨lk, r'⟩ := x
          simp only [Except.ok.injEq, Option.some.injEq, Prod.mk.injEq] at h
          obtain ⟨rfl, rfl⟩ := h
          obtain ⟨a, q, c', b, ly, bt, e, h1, h2, h3, h4, h5⟩ := ih c lk r' ho
          exact ⟨p :: a, q, c', b, ly, bt, by rw [e]; rfl, h1, h2, h3, h4, by rw [h5]; rfl⟩

/-- C18, insertion by depth, below the first front: when a node is returned, it sits between the first two neighbouring
fronts whose depths enclose its depth, with the number of the front it displaces; numbering stays consecutive. -/
theorem C18_insertAtDepth (psi0 K0 : α) (front0 : Int) (N : Nat) (cum : List α) (depth theta : α) (h : Front α)
    (t : List (Front α)) (hd : ¬ depth < h.depth) (link : Front α) (r : List (Front α))
    (hok : listInsertFrontAtDepth psi0 K0 front0 N cum depth theta (h :: t) = .ok (some link, r)) :
    ∃ a q c b, h :: t = a ++ q :: c :: b ∧ q.depth < depth ∧ depth ≤ c.depth ∧
      r = a ++ q :: link :: (c :: b).map (fun g => { g with front := g.front + 1 }) ∧
      link.depth = depth ∧ link.theta = theta ∧ (Consecutive (h :: t) → Consecutive r) := by
  unfold listInsertFrontAtDepth at hok
  simp only [if_neg hd, bind_ok_iff] at hok
  obtain ⟨o, ho, hok⟩ := hok
  cases o with
  | none => simp at hok
  | some x =>
    obtain ⟨lk, r'⟩ := x
    simp only [Except.ok.injEq, Prod.mk.injEq, Option.some.injEq] at hok
    obtain ⟨rfl, rfl⟩ := hok
    obtain ⟨a, q, c, b, ly, bt, e, h1, h2, h3, h4, h5⟩ := atDepthGo_ok _ _ _ _ _ _ _ _ ho
    refine ⟨a, q, c, b, e, h1, h2, h5, by rw [h4], by rw [h4], ?_⟩
    · intro hc
      rw [consecutive_iff, e, NumFrom.append] at hc
      rw [consecutive_iff, h5, NumFrom.append]
      obtain ⟨n1, n2, n3, n4⟩ := hc
      refine ⟨n1, n2, ?_, ?_, n4.inc⟩
      · rw [h4]; exact n3
      · show c.front + 1 = _
        rw [n3]

/-- C18 fails for insertion by depth above the first front: the new head is lost to the caller (the head pointer is
passed by value), the list the caller holds is unchanged. -/
theorem C18_insertAtDepth_head_lost (psi0 K0 : α) (front0 : Int) (N : Nat) (cum : List α) (depth theta : α)
    (h : Front α) (t : List (Front α)) (hd : depth < h.depth) (o : Option (Front α)) (r : List (Front α))
    (hok : listInsertFrontAtDepth psi0 K0 front0 N cum depth theta (h :: t) = .ok (o, r)) : r = h :: t := by
  unfold listInsertFrontAtDepth at hok
  simp only [if_pos hd, bind_ok_iff] at hok
  obtain ⟨x, _, hok⟩ := hok
  cases x <;> simp_all
end AtDepth

example : okAnd (listInsertFrontAtDepth (0 : ℚ) 0 0 2 [0, 10, 30] 7 (1/4) col3)
    (fun x => x.1.isSome && x.2.length == 4) = true := by decide +kernel
example : okAnd (listInsertFrontAtDepth (0 : ℚ) 0 0 2 [0, 10, 30] 2 (1/4) col3)
    (fun x => x.1.isSome && x.2 == col3) = true := by decide +kernel

/-- C19, sorting by depth: depths come out non-decreasing. -/
theorem C19_sorted {K : Type} [LinearOrder K] (l : List (Front K)) :
    (listSortFrontsByDepth l).Pairwise fun f g => f.depth ≤ g.depth := by
  rw [List.pairwise_iff_getElem]
  intro i j hi hj hij
  have hlen : (listSortFrontsByDepth l).length = l.length := sortPasses_length _ _
  have hn : l.length - 1 < l.length := by omega
  exact (sortPasses_spec (l.length - 1) l hn).2.1 i j (by omega) (by omega)

/-- C19, partial: depth, moisture, layer and number of each front stay together (no front lost or duplicated).
Missing: head, conductivity, speed and bottom flag, see the next theorem. -/
theorem C19_keeps_partial {K : Type} [LinearOrder K] (l : List (Front K)) :
    List.Perm ((listSortFrontsByDepth l).map fun f => (f.depth, f.theta, f.layer, f.front))
      (l.map fun f => (f.depth, f.theta, f.layer, f.front)) :=
  sortPasses_perm _ _

/-- C19 fails as stated: head, conductivity, speed and bottom flag stay at their list position, so sorting two fronts
attaches the bottom flag (and psi, K) of one to the depth of the other. -/
theorem C19_keeps_all_data_fails :
    ∃ l : List (Front ℚ), ¬ List.Perm ((listSortFrontsByDepth l).map Front.data) (l.map Front.data) := by
  refine ⟨[fr 10 (2/10) 1 1 true, fr 4 (3/10) 1 2 false], ?_⟩
  decide +kernel

end LGAR
