import Verif.Lemmas.Tools
import Verif.Spec.Ends
/-
Computations that finish: for all large enough fuel the result is the same and is not the exhausted fuel.
-/
namespace LGAR
variable {β γ : Type}

theorem Finishes.const {x : Res β} (h : x ≠ .error .fuel) : Finishes (fun _ => x) := ⟨x, h, 0, fun _ _ => rfl⟩

theorem Finishes.ok (a : β) : Finishes (fun _ => (.ok a : Res β)) := .const (by simp)

theorem Finishes.pure (a : β) : Finishes (fun _ => (Pure.pure a : Res β)) := .const (by simp)

theorem Finishes.err {e : Err} (h : e ≠ .fuel) : Finishes (fun _ => (.error e : Res β)) := .const (by simpa using h)

theorem Finishes.bind {f : Nat → Res β} {k : Nat → β → Res γ} (hf : Finishes f)
    (hk : ∀ a, Ends f (.ok a) → Finishes fun n => k n a) : Finishes fun n => f n >>= k n := by
  obtain ⟨r, hr, N, hN⟩ := hf
  cases r with
  | error e =>
    refine ⟨.error e, ?_, N, fun n hn => ?_⟩
    · intro h; exact hr (by cases h; rfl)
    · dsimp only; rw [hN n hn, error_bind]
  | ok a =>
    obtain ⟨r', hr', M, hM⟩ := hk a ⟨hr, N, hN⟩
    refine ⟨r', hr', max N M, fun n hn => ?_⟩
    dsimp only
    rw [hN n (le_trans (le_max_left _ _) hn), ok_bind]
    exact hM n (le_trans (le_max_right _ _) hn)

/-- A first part that needs no fuel. -/
theorem Finishes.bindC {x : Res β} {k : Nat → β → Res γ} (hx : x ≠ .error .fuel)
    (hk : ∀ a, x = .ok a → Finishes fun n => k n a) : Finishes fun n => x >>= k n :=
  Finishes.bind (Finishes.const hx) fun a ⟨_, N, hN⟩ => hk a (hN N le_rfl)

theorem Finishes.ite {p : Prop} [Decidable p] {f h : Nat → Res β} (hf : p → Finishes f) (hh : ¬ p → Finishes h) :
    Finishes fun n => if p then f n else h n := by
  by_cases hp : p
  · simp only [hp, if_true]; exact hf hp
  · simp only [hp, if_false]; exact hh hp

theorem Finishes.ends {f : Nat → Res β} (hf : Finishes f) {a : β} {n : Nat} (h : ∀ m, n ≤ m → f m = .ok a) :
    Ends f (.ok a) := ⟨by simp, n, h⟩

theorem Ends.eventually {f : Nat → Res β} {r : Res β} (h : Ends f r) : ∃ n, f n = r := h.2.imp fun n hn => hn n le_rfl

theorem bind_ne_fuel {x : Res β} {f : β → Res γ} (hx : x ≠ .error .fuel) (hf : ∀ a, x = .ok a → f a ≠ .error .fuel) :
    (x >>= f) ≠ .error .fuel := by
  cases x with
  | error e => rw [error_bind]; intro h; exact hx (by cases h; rfl)
  | ok a => exact hf a rfl

theorem idx_ne_fuel {a : List β} {i : Nat} : idx a i ≠ .error .fuel := by
  unfold idx; split <;> simp

theorem idxI_ne_fuel {a : List β} {i : Int} : idxI a i ≠ .error .fuel := by
  unfold idxI; split
  · simp
  · exact idx_ne_fuel

theorem cdiv_ne_fuel {α : Type} [Div α] [CMath α] {a b : α} : cdiv a b ≠ .error .fuel := by
  unfold cdiv; split <;> simp

theorem cpow_ne_fuel {α : Type} [CMath α] {a b : α} : cpow a b ≠ .error .fuel := by
  unfold cpow; split <;> simp

theorem csqrt_ne_fuel {α : Type} [CMath α] {a : α} : csqrt a ≠ .error .fuel := by
  unfold csqrt; split <;> simp

theorem soil_ne_fuel {α : Type} {g : Geo α} {k : Nat} : g.soil k ≠ .error .fuel :=
  bind_ne_fuel idx_ne_fuel fun _ _ => idxI_ne_fuel

end LGAR
