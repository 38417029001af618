import Verif.Lemmas.Balance
import Mathlib.Algebra.BigOperators.Group.List.Basic
/-
GIUH routing: closed form of one call.
-/
set_option linter.unusedSectionVars false
namespace LGAR

section Free
variable {α : Type} [Add α] [Sub α] [Mul α] [Div α] [Neg α] [Zero α] [One α] [OfScientific α]
  [LT α] [LE α] [DecidableLT α] [DecidableLE α] [BEq α] [CMath α]

/-- The queue with one runoff added. -/
def giuhMix (r : α) (q ord : List α) : List α := List.zipWith (fun a o => a + o * r) q ord

theorem giuhAdd_eq (r : α) : ∀ (qs os pre pre' rest : List α), qs.length = os.length → pre.length = pre'.length →
    giuhAdd r (pre' ++ os) qs.length pre.length (pre ++ qs ++ rest) = .ok (pre ++ giuhMix r qs os ++ rest)
  | [], [], pre, pre', rest, _, _ => by simp [giuhAdd, giuhMix]
  | [], _ :: _, _, _, _, h, _ => by simp at h
  | _ :: _, [], _, _, _, h, _ => by simp at h
  | a :: qs, o :: os, pre, pre', rest, h, hp => by
    have i1 : idx (pre ++ a :: qs ++ rest) pre.length = .ok a := by rw [idx_ok_iff]; simp
    have i2 : idx (pre' ++ o :: os) pre.length = .ok o := by rw [idx_ok_iff, hp]; simp
    have i3 : setIdx (pre ++ a :: qs ++ rest) pre.length (a + o * r) = .ok (pre ++ (a + o * r) :: qs ++ rest) := by
      unfold setIdx
      rw [if_pos (by simp)]
      simp
    have ih := giuhAdd_eq r qs os (pre ++ [a + o * r]) (pre' ++ [o]) rest (by simpa using h) (by simpa using hp)
    simp only [List.length_cons, giuhAdd]
    rw [i1, ok_bind, i2, ok_bind, i3, ok_bind]
    simp only [List.length_append, List.length_cons, List.length_nil, List.append_assoc, List.singleton_append, Nat.zero_add] at ih
    simp only [List.append_assoc, List.cons_append] at ih ⊢
    rw [ih]
    simp [giuhMix]

theorem giuhShift_eq : ∀ (xs pre rest : List α) (x : α), giuhShift xs.length (pre.length + 1) (pre ++ x :: xs ++ rest) =
    .ok (pre ++ xs ++ ((x :: xs).getLast (by simp)) :: rest)
  | [], pre, rest, x => by simp [giuhShift]
  | y :: xs, pre, rest, x => by
    have i1 : idx (pre ++ x :: y :: xs ++ rest) (pre.length + 1) = .ok y := by
      rw [idx_ok_iff]; simp
    have i2 : setPred (pre ++ x :: y :: xs ++ rest) (pre.length + 1) y = .ok (pre ++ y :: y :: xs ++ rest) := by
      unfold setPred setIdx
      simp only
      rw [if_pos (by simp)]
      simp
    have ih := giuhShift_eq xs (pre ++ [y]) rest y
    simp only [List.length_cons, giuhShift]
    rw [i1, ok_bind, i2, ok_bind]
    simp only [List.length_append, List.length_cons, List.length_nil, Nat.zero_add, List.append_assoc, List.cons_append,
      List.nil_append] at ih ⊢
    rw [ih]
    simp

/-- One call of the routing on a queue `q` (plus its last, unused entry). -/
theorem giuhConv_eq (r x a o : α) (q os : List α) (h : q.length = os.length) :
    giuhConv r (q.length + 1) (o :: os) (a :: q ++ [x]) = .ok (a + o * r, giuhMix r q os ++ [0, 0]) := by
  have e1 : setIdx (a :: q ++ [x]) (q.length + 1) 0 = .ok ([] ++ a :: q ++ [0]) := by
    unfold setIdx
    rw [if_pos (by simp)]
    simp
  have e2 := giuhAdd_eq r (a :: q) (o :: os) [] [] [0] (by simpa using h) rfl
  simp only [List.length_cons, List.nil_append, List.length_nil] at e2
  have hl : (giuhMix r q os).length = q.length := by simp [giuhMix, h]
  have e3 : giuhMix r (a :: q) (o :: os) = (a + o * r) :: giuhMix r q os := rfl
  rw [e3] at e2
  have e4 := giuhShift_eq (giuhMix r q os) [] [0] (a + o * r)
  simp only [hl, List.length_nil, List.nil_append, Nat.zero_add] at e4
  have e5 : ∀ z : α, setPred (giuhMix r q os ++ z :: [0]) (q.length + 1) 0 = .ok (giuhMix r q os ++ [0, 0]) := by
    intro z
    unfold setPred setIdx
    simp only
    rw [if_pos (by simp [hl])]
    rw [List.set_append_right _ _ (by rw [hl])]
    simp [hl]
  have i0 : idx ((a + o * r) :: giuhMix r q os ++ [0]) 0 = .ok (a + o * r) := by rw [idx_ok_iff]; simp
  unfold giuhConv
  rw [e1, ok_bind]
  simp only [List.nil_append]
  rw [e2, ok_bind, i0, ok_bind]
  simp only [Nat.add_sub_cancel]
  rw [e4, ok_bind, e5, ok_bind]
  rfl

/-- Without ordinates the routing writes before the start of its queue. -/
theorem giuhConv_zero (r : α) (ord queue : List α) : ∃ why, giuhConv r 0 ord queue = .error (.ub why) := by
  unfold giuhConv
  cases queue with
  | nil => exact ⟨_, rfl⟩
  | cons a q => exact ⟨"array write at index -1", rfl⟩

end Free
end LGAR
