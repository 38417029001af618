import Verif.Num.Lawful
/-
Proof tools for the result monad: inversion of `bind`, and `Spec` triples that also exclude undefined behaviour and
exhausted fuel.
-/
namespace LGAR

/-- Which outcomes a proof excludes besides NULL dereferences and out-of-range accesses. -/
structure Guard where
  fuel : Bool
  uaf : Bool

/-- Unfinished loops and use after free, too. -/
def Guard.all : Guard := ⟨true, true⟩
/-- Use after free, too. -/
def Guard.mem : Guard := ⟨false, true⟩

/-- NULL dereference or out-of-range access, or (as chosen by `fb`) a loop that did not finish, a use after free. -/
def Err.bad (fb : Guard) : Err → Prop
  | .ub _ => True
  | .uaf _ => fb.uaf = true
  | .fuel => fb.fuel = true
  | _ => False

/-- `x` does not end with an outcome excluded by `fb`, and if it returns, the value satisfies `Q`. -/
def Spec {β : Type} (fb : Guard) (x : Res β) (Q : β → Prop) : Prop :=
  match x with
  | .ok a => Q a
  | .error e => ¬ e.bad fb

section
variable {β γ : Type} {fb : Guard}

@[simp] theorem bind_ok_iff {x : Res β} {f : β → Res γ} {c : γ} :
    (x >>= f) = .ok c ↔ ∃ a, x = .ok a ∧ f a = .ok c := by
  cases x <;> simp [bind, Except.bind]

@[simp] theorem pure_eq_ok {a : β} : (pure a : Res β) = .ok a := rfl

theorem map_ok_iff {x : Res β} {f : β → γ} {c : γ} :
    (f <$> x) = .ok c ↔ ∃ a, x = .ok a ∧ f a = c := by
  cases x <;> simp [Functor.map, Except.map]

theorem ok_bind (a : β) (f : β → Res γ) : (Except.ok a >>= f : Res γ) = f a := rfl
theorem error_bind (e : Err) (f : β → Res γ) : ((Except.error e : Res β) >>= f) = .error e := rfl

theorem Spec.ok {Q : β → Prop} {a : β} (h : Q a) : Spec fb (.ok a) Q := h
theorem Spec.pure {Q : β → Prop} {a : β} (h : Q a) : Spec fb (Pure.pure a) Q := h
theorem Spec.error {Q : β → Prop} {e : Err} (h : ¬ e.bad fb) : Spec fb (.error e : Res β) Q := h

theorem Spec.bind {x : Res β} {f : β → Res γ} {Q : γ → Prop} (R : β → Prop)
    (hx : Spec fb x R) (hf : ∀ a, x = .ok a → R a → Spec fb (f a) Q) : Spec fb (x >>= f) Q := by
  cases x with
  | error e => exact hx
  | ok a => exact hf a rfl hx

theorem Spec.mono {x : Res β} {Q R : β → Prop} (hx : Spec fb x R) (h : ∀ a, x = .ok a → R a → Q a) : Spec fb x Q := by
  cases x with
  | error e => exact hx
  | ok a => exact h a rfl hx

theorem Spec.of_ok {x : Res β} {Q : β → Prop} (hx : Spec fb x fun _ => True) (h : ∀ a, x = .ok a → Q a) : Spec fb x Q :=
  hx.mono fun a ha _ => h a ha

theorem Spec.elim {x : Res β} {Q : β → Prop} (hx : Spec fb x Q) {a : β} (h : x = .ok a) : Q a := by
  subst h; exact hx

theorem Spec.no_ub {x : Res β} {Q : β → Prop} (hx : Spec fb x Q) (w : String) : x ≠ .error (.ub w) := by
  rintro rfl; exact hx trivial

theorem Spec.no_uaf {x : Res β} {Q : β → Prop} (hx : Spec fb x Q) (hu : fb.uaf = true) (w : String) : x ≠ .error (.uaf w) := by
  rintro rfl; exact hx hu

theorem Spec.weaken {x : Res β} {Q : β → Prop} {fb' : Guard} (hx : Spec fb x Q) (h1 : fb'.fuel = true → fb.fuel = true)
    (h2 : fb'.uaf = true → fb.uaf = true) : Spec fb' x Q := by
  cases x with
  | ok a => exact hx
  | error e =>
    intro hb
    refine hx ?_
    cases e <;> simp only [Err.bad] at hb ⊢ <;> first | exact h1 hb | exact h2 hb

theorem Spec.no_fuel {x : Res β} {Q : β → Prop} (hx : Spec .all x Q) : x ≠ .error .fuel := by
  rintro rfl; exact hx rfl

theorem Spec.ite {p : Prop} [Decidable p] {x y : Res β} {Q : β → Prop}
    (h1 : p → Spec fb x Q) (h2 : ¬ p → Spec fb y Q) : Spec fb (if p then x else y) Q := by
  split <;> [exact h1 ‹_›; exact h2 ‹_›]
end

section
@[simp] theorem cassert_ok_iff {p : Prop} [Decidable p] {w : String} {u : Unit} :
    cassert p w = .ok u ↔ p := by
  unfold cassert; split <;> simp_all

theorem cdiv_ok_iff {α : Type} [Div α] [CMath α] {a b r : α} : cdiv a b = .ok r ↔ CMath.divOk a b = true ∧ r = a / b := by
  unfold cdiv; split <;> simp_all; exact eq_comm

theorem cpow_ok_iff {α : Type} [CMath α] {a b r : α} : cpow a b = .ok r ↔ CMath.powOk a b = true ∧ r = CMath.pow a b := by
  unfold cpow; split <;> simp_all; exact eq_comm

theorem csqrt_ok_iff {α : Type} [CMath α] {a r : α} : csqrt a = .ok r ↔ CMath.sqrtOk a = true ∧ r = CMath.sqrt a := by
  unfold csqrt; split <;> simp_all; exact eq_comm

theorem idx_ok_iff {β : Type} {a : List β} {i : Nat} {r : β} : idx a i = .ok r ↔ a[i]? = some r := by
  unfold idx; split <;> simp_all

theorem idxPred_ok_iff {β : Type} {a : List β} {i : Nat} {r : β} :
    idxPred a i = .ok r ↔ 0 < i ∧ a[i - 1]? = some r := by
  unfold idxPred; split <;> simp_all [idx_ok_iff]

theorem idxI_ok_iff {β : Type} {a : List β} {i : Int} {r : β} :
    idxI a i = .ok r ↔ 0 ≤ i ∧ a[i.toNat]? = some r := by
  unfold idxI; split
  · simp; omega
  · simp_all [idx_ok_iff]

theorem deref_ok_iff {α : Type} {l : List (Front α)} {i : Nat} {r : Front α} : deref l i = .ok r ↔ l[i]? = some r := by
  unfold deref; split <;> simp_all

variable {fb : Guard}

theorem spec_cdiv {α : Type} [Div α] [CMath α] {a b : α} {Q : α → Prop} (h : CMath.divOk a b = true → Q (a / b)) : Spec fb (cdiv a b) Q := by
  unfold cdiv; split
  · exact h ‹_›
  · exact Spec.error (by simp [Err.bad])

theorem spec_cpow {α : Type} [CMath α] {a b : α} {Q : α → Prop} (h : CMath.powOk a b = true → Q (CMath.pow a b)) : Spec fb (cpow a b) Q := by
  unfold cpow; split
  · exact h ‹_›
  · exact Spec.error (by simp [Err.bad])

theorem spec_csqrt {α : Type} [CMath α] {a : α} {Q : α → Prop} (h : CMath.sqrtOk a = true → Q (CMath.sqrt a)) : Spec fb (csqrt a) Q := by
  unfold csqrt; split
  · exact h ‹_›
  · exact Spec.error (by simp [Err.bad])

theorem spec_cassert {p : Prop} [Decidable p] {w : String} {Q : Unit → Prop} (h : p → Q ()) :
    Spec fb (cassert p w) Q := by
  unfold cassert; split
  · exact h ‹_›
  · exact Spec.error (by simp [Err.bad])

theorem spec_idx {β : Type} {a : List β} {i : Nat} {Q : β → Prop} (hi : i < a.length) (h : Q a[i]) :
    Spec fb (idx a i) Q := by
  unfold idx; rw [List.getElem?_eq_getElem hi]; exact h

theorem spec_deref {α : Type} {l : List (Front α)} {i : Nat} {Q : Front α → Prop} (hi : i < l.length) (h : Q l[i]) :
    Spec fb (deref l i) Q := by
  unfold deref; rw [List.getElem?_eq_getElem hi]; exact h

theorem spec_idxPred {β : Type} {a : List β} {i : Nat} {Q : β → Prop} (h0 : 0 < i) (hi : i - 1 < a.length)
    (h : Q a[i - 1]) : Spec fb (idxPred a i) Q := by
  obtain ⟨k, rfl⟩ : ∃ k, i = k + 1 := ⟨i - 1, by omega⟩
  exact spec_idx (by simpa using hi) (by simpa using h)
end

section
variable {K : Type} [Field K] [LinearOrder K] [IsStrictOrderedRing K] [CMath K] [LawfulNum K]

theorem cdiv_ok {a b r : K} : cdiv a b = .ok r ↔ b ≠ 0 ∧ r = a / b := by
  rw [cdiv_ok_iff, divOk_iff]
end

end LGAR
