import Verif.Spec.Heap
import Verif.Lemmas.Lists
import Verif.Lemmas.Tools
import Mathlib.Data.List.Nodup
import Mathlib.Data.List.Perm.Subperm
import Mathlib.Tactic.NormNum
/-
The pointer programs of `Model/Heap` on well-formed lists.
-/
set_option linter.unusedSectionVars false
namespace LGAR
variable {α : Type}

/-- Neither use after free nor an unfinished loop; a returned value satisfies `Q`. -/
def Calm {β : Type} (x : Res β) (Q : β → Prop) : Prop :=
  match x with
  | .ok a => Q a
  | .error e => (∀ w, e ≠ .uaf w) ∧ e ≠ .fuel

theorem Calm.bind {β γ : Type} {x : Res β} {f : β → Res γ} {Q : γ → Prop} (R : β → Prop)
    (hx : Calm x R) (hf : ∀ a, R a → Calm (f a) Q) : Calm (x >>= f) Q := by
  cases x with
  | error e => exact hx
  | ok a => exact hf a hx

theorem Calm.of_ok {β : Type} {x : Res β} {Q : β → Prop} (h : ∃ a, x = .ok a ∧ Q a) : Calm x Q := by
  obtain ⟨a, rfl, ha⟩ := h; exact ha

/-! ### Memory -/

theorem Mem.put_self (m : Mem α) (a : Nat) (n : Node α) : (m.put a n).cell a = some n := by simp [Mem.put]
theorem Mem.put_ne (m : Mem α) {a b : Nat} (n : Node α) (h : b ≠ a) : (m.put a n).cell b = m.cell b := by
  simp [Mem.put, h]

theorem Mem.load_some {m : Mem α} {a : Nat} {n : Node α} (h : m.cell a = some n) : m.load (some a) = .ok (a, n) := by
  simp [Mem.load, h]

theorem Mem.store_some {m : Mem α} {a : Nat} {n k : Node α} (h : m.cell a = some n) :
    m.store a k = .ok (m.put a k) := by
  simp [Mem.store, h]

/-- What the history says about each address, and whether a node is there now. -/
def LogOk (m : Mem α) : Prop :=
  ∀ a, ∃ k, m.log.filter (fun e => e.addr == a) = (List.replicate k [Ev.malloc a, Ev.free a]).flatten ++
    (if (m.cell a).isSome then [Ev.malloc a] else [])

/-- Only finitely many addresses are in use. -/
def Finite (m : Mem α) : Prop := ∃ B, ∀ a, B ≤ a → m.cell a = none

theorem LogOk.put {m : Mem α} {a : Nat} {n k : Node α} (h : LogOk m) (hc : m.cell a = some n) : LogOk (m.put a k) := by
  intro b
  obtain ⟨j, hj⟩ := h b
  refine ⟨j, ?_⟩
  by_cases hb : b = a
  · subst hb; rw [hc] at hj; simpa [Mem.put] using hj
  · simpa [Mem.put, hb] using hj

theorem LogOk.malloc {m : Mem α} {A : Alloc α} (h : LogOk m) (hc : m.cell (A.pick m) = none) :
    LogOk (m.malloc A).2 := by
  intro b
  obtain ⟨j, hj⟩ := h b
  refine ⟨j, ?_⟩
  by_cases hb : b = A.pick m
  · subst hb
    rw [hc] at hj
    simp only [Option.isSome_none, Bool.false_eq_true, if_false, List.append_nil] at hj
    simp only [Mem.malloc, Mem.put, List.filter_append, hj, if_true, Option.isSome_some]
    simp [Ev.addr]
  · have hb' : ¬ A.pick m = b := fun e => hb e.symm
    simp only [Mem.malloc, Mem.put, List.filter_append, hb, if_false]
    rw [hj]
    simp [Ev.addr, hb']

theorem free_eq {m : Mem α} {a : Nat} {n : Node α} (hc : m.cell a = some n) :
    m.free a = .ok { cell := fun b => if b = a then none else m.cell b, log := m.log ++ [.free a] } := by
  simp [Mem.free, hc]

theorem LogOk.free {m : Mem α} {a : Nat} {n : Node α} (h : LogOk m) (hc : m.cell a = some n) :
    LogOk { cell := fun b => if b = a then none else m.cell b, log := m.log ++ [.free a] } := by
  intro b
  obtain ⟨j, hj⟩ := h b
  by_cases hb : b = a
  · subst hb
    refine ⟨j + 1, ?_⟩
    rw [hc] at hj
    simp only [Option.isSome_some, if_true] at hj
    simp only [List.filter_append, hj, if_true, Option.isSome_none, Bool.false_eq_true, if_false, List.append_nil,
      List.append_assoc]
    rw [List.replicate_succ', List.flatten_append]
    simp [Ev.addr]
  · have hb' : ¬ a = b := fun e => hb e.symm
    refine ⟨j, ?_⟩
    simp only [List.filter_append, hb, if_false]
    rw [hj]
    simp [Ev.addr, hb']

theorem Finite.put {m : Mem α} {a : Nat} {n : Node α} (h : Finite m) : Finite (m.put a n) := by
  obtain ⟨B, hB⟩ := h
  refine ⟨max B (a + 1), fun b hb => ?_⟩
  rw [Mem.put_ne _ _ (by omega)]
  exact hB b (by omega)

theorem Finite.malloc {m : Mem α} {A : Alloc α} (h : Finite m) : Finite (m.malloc A).2 := by
  obtain ⟨B, hB⟩ := Finite.put (a := A.pick m) (n := A.junk m) h
  exact ⟨B, hB⟩

theorem Finite.of_le {m m' : Mem α} (h : Finite m) (hc : ∀ a, m.cell a = none → m'.cell a = none) : Finite m' := by
  obtain ⟨B, hB⟩ := h
  exact ⟨B, fun a ha => hc a (hB a ha)⟩

theorem Finite.fresh {m : Mem α} {A : Alloc α} (h : Finite m) (hA : A.Fresh) : m.cell (A.pick m) = none := by
  obtain ⟨B, hB⟩ := h
  exact hA m ⟨B, hB B (le_refl _)⟩

/-! ### Lists in memory -/

theorem IsList.congr {m m' : Mem α} {p : Option Nat} {ns : List (Nat × Front α)} (h : IsList m p ns)
    (hc : ∀ a ∈ addrs ns, m'.cell a = m.cell a) : IsList m' p ns := by
  induction ns generalizing p with
  | nil => exact h
  | cons x t ih =>
    obtain ⟨a, f⟩ := x
    obtain ⟨rfl, nx, h1, h2⟩ := h
    refine ⟨rfl, nx, ?_, ih h2 fun b hb => hc b (List.mem_cons_of_mem _ hb)⟩
    rw [hc a (by simp), h1]

theorem IsList.live {m : Mem α} {p : Option Nat} {ns : List (Nat × Front α)} (h : IsList m p ns) {a : Nat}
    (ha : a ∈ addrs ns) : ∃ n, m.cell a = some n := by
  induction ns generalizing p with
  | nil => simp at ha
  | cons x t ih =>
    obtain ⟨b, f⟩ := x
    obtain ⟨rfl, nx, h1, h2⟩ := h
    rcases List.mem_cons.mp ha with e | e
    · exact ⟨_, (show a = b from e) ▸ h1⟩
    · exact ih h2 e

theorem IsList.unique {m : Mem α} {p : Option Nat} {ns ns' : List (Nat × Front α)} (h : IsList m p ns)
    (h' : IsList m p ns') : ns = ns' := by
  induction ns generalizing p ns' with
  | nil =>
    cases ns' with
    | nil => rfl
    | cons y s => obtain ⟨e, -⟩ := h'; rw [show p = none from h] at e; cases e
  | cons x t ih =>
    obtain ⟨a, f⟩ := x
    obtain ⟨rfl, nx, h1, h2⟩ := h
    cases ns' with
    | nil => cases (show (some a : Option Nat) = none from h')
    | cons y s =>
      obtain ⟨b, f'⟩ := y
      obtain ⟨e, nx', h1', h2'⟩ := h'
      obtain rfl : a = b := by simpa using e
      rw [h1] at h1'
      obtain ⟨rfl, rfl⟩ : f = f' ∧ nx = nx' := by simpa using h1'
      rw [ih h2 h2']

theorem IsList.suffix {m : Mem α} {p : Option Nat} {s t : List (Nat × Front α)} (h : IsList m p (s ++ t)) :
    ∃ q, IsList m q t := by
  induction s generalizing p with
  | nil => exact ⟨p, h⟩
  | cons x s ih =>
    obtain ⟨-, nx, -, h2⟩ := h
    exact ih h2

theorem IsList.nodup {m : Mem α} {p : Option Nat} {ns : List (Nat × Front α)} (h : IsList m p ns) :
    (addrs ns).Nodup := by
  induction ns generalizing p with
  | nil => simp
  | cons x t ih =>
    have h0 := h
    obtain ⟨a, f⟩ := x
    obtain ⟨rfl, nx, h1, h2⟩ := h
    refine List.nodup_cons.mpr ⟨fun ha => ?_, ih h2⟩
    obtain ⟨⟨b, f'⟩, hb, rfl⟩ := List.mem_map.mp ha
    obtain ⟨s, u, rfl⟩ := List.append_of_mem hb
    obtain ⟨q, hq⟩ := h2.suffix
    have : q = some b := hq.1
    subst this
    have := congrArg List.length (h0.unique hq)
    simp at this
    omega

theorem IsList.bound {m : Mem α} {p : Option Nat} {ns : List (Nat × Front α)} (h : IsList m p ns) (hl : LogOk m) :
    ns.length < m.bound := by
  have hsub : (addrs ns).map Ev.malloc ⊆ m.log := by
    intro e he
    obtain ⟨a, ha, rfl⟩ := List.mem_map.mp he
    obtain ⟨n, hn⟩ := h.live ha
    obtain ⟨k, hk⟩ := hl a
    have : Ev.malloc a ∈ m.log.filter (fun e => e.addr == a) := by rw [hk, hn]; simp
    exact (List.mem_filter.mp this).1
  have hnd : ((addrs ns).map Ev.malloc).Nodup := h.nodup.map (fun a b e => by cases e; rfl)
  have := (hnd.subperm hsub).length_le
  simp at this
  unfold Mem.bound
  omega

/-! ### The programs -/

theorem hDelete_spec {m : Mem α} {p : Option Nat} {ns : List (Nat × Front α)} (h : IsList m p ns) {fuel : Nat}
    (hf : ns.length < fuel) :
    ∃ m', hDelete fuel m p = .ok m' ∧ (∀ a, m'.cell a = if a ∈ addrs ns then none else m.cell a) ∧
      m'.log = m.log ++ (addrs ns).map Ev.free ∧ (LogOk m → LogOk m') := by
  induction ns generalizing m p fuel with
  | nil =>
    obtain ⟨fuel, rfl⟩ : ∃ k, fuel = k + 1 := ⟨fuel - 1, by simp at hf; omega⟩
    rw [show p = none from h]
    exact ⟨m, rfl, by simp, by simp, id⟩
  | cons x t ih =>
    obtain ⟨a, f⟩ := x
    have hnd := h.nodup
    obtain ⟨rfl, nx, h1, h2⟩ := h
    obtain ⟨fuel, rfl⟩ : ∃ k, fuel = k + 1 := ⟨fuel - 1, by simp at hf; omega⟩
    have hat : a ∉ addrs t := (List.nodup_cons.mp hnd).1
    obtain ⟨m', e, hc, hl, hk⟩ := ih (m := { cell := fun b => if b = a then none else m.cell b, log := m.log ++ [.free a] })
      (h2.congr fun b hb => by
        have : b ≠ a := fun e => hat (e ▸ hb)
        simp [this]) (fuel := fuel) (by simp at hf; omega)
    refine ⟨m', ?_, fun b => ?_, ?_, fun h0 => hk (h0.free h1)⟩
    · simp only [hDelete, Mem.load_some h1, free_eq h1, ok_bind]; exact e
    · rw [hc]
      by_cases hb : b = a
      · simp [hb]
      · simp only [List.map_cons, List.mem_cons, hb, false_or, if_false]
    · rw [hl]; simp

theorem hCopy_spec {A : Alloc α} (hA : A.Fresh) {m : Mem α} {p : Option Nat} {ns : List (Nat × Front α)}
    (h : IsList m p ns) (hfin : Finite m) {fuel : Nat} (hf : ns.length < fuel) :
    ∃ p' m' ns', hCopy A fuel m p = .ok (p', m') ∧ IsList m' p' ns' ∧ vals ns' = vals ns ∧
      (∀ a ∈ addrs ns', m.cell a = none) ∧ (∀ a, a ∉ addrs ns' → m'.cell a = m.cell a) ∧ Finite m' ∧
      (LogOk m → LogOk m') := by
  induction ns generalizing m p fuel with
  | nil =>
    obtain ⟨fuel, rfl⟩ : ∃ k, fuel = k + 1 := ⟨fuel - 1, by simp at hf; omega⟩
    rw [show p = none from h]
    exact ⟨none, m, [], rfl, rfl, rfl, by simp, by simp, hfin, id⟩
  | cons x t ih =>
    obtain ⟨a, f⟩ := x
    obtain ⟨rfl, nx, h1, h2⟩ := h
    obtain ⟨fuel, rfl⟩ : ∃ k, fuel = k + 1 := ⟨fuel - 1, by simp at hf; omega⟩
    have hfr := hfin.fresh hA
    set w := A.pick m with hw
    set m1 := (m.malloc A).2 with hm1
    have haw : a ≠ w := by rintro e; rw [e, hfr] at h1; cases h1
    have c1 : ∀ b, b ≠ w → m1.cell b = m.cell b := fun b hb => by
      simp [hm1, Mem.malloc, Mem.put, ← hw, hb]
    have c1w : m1.cell w = some (A.junk m) := by simp [hm1, Mem.malloc, Mem.put, ← hw]
    set m2 := m1.put w { A.junk m with f := f } with hm2
    have c2 : ∀ b, b ≠ w → m2.cell b = m.cell b := fun b hb => by rw [hm2, Mem.put_ne _ _ hb, c1 b hb]
    have c2w : m2.cell w = some { A.junk m with f := f } := Mem.put_self ..
    have hne : ∀ b ∈ addrs t, b ≠ w := by
      intro b hb e
      obtain ⟨n, hn⟩ := h2.live hb
      rw [e, hfr] at hn; cases hn
    obtain ⟨p', m3, t', e3, l3, v3, n3, f3, fin3, k3⟩ := ih (m := m2) (h2.congr fun b hb => c2 b (hne b hb))
      (Finite.put hfin.malloc) (fuel := fuel) (by simp at hf; omega)
    have hwt : w ∉ addrs t' := fun hb => by
      have := n3 w hb
      rw [c2w] at this; cases this
    have c3w : m3.cell w = some { A.junk m with f := f } := by rw [f3 w hwt, c2w]
    refine ⟨some w, m3.put w { f := f, next := p' }, (w, f) :: t', ?_, ?_, by simp [v3], ?_, ?_, Finite.put fin3, ?_⟩
    · unfold hCopy
      have ea : m1.load (some a) = .ok (a, ⟨f, nx⟩) := Mem.load_some (by rw [c1 a haw, h1])
      have ew : m1.load (some w) = .ok (w, A.junk m) := Mem.load_some c1w
      have es : m1.store w { A.junk m with f := f } = .ok m2 := Mem.store_some c1w
      have ew3 : m3.load (some w) = .ok (w, { A.junk m with f := f }) := Mem.load_some c3w
      have es3 : m3.store w { f := f, next := p' } = .ok (m3.put w { f := f, next := p' }) := Mem.store_some c3w
      have em : m.malloc A = (w, m1) := rfl
      simp only [em]
      rw [ea]; simp only [ok_bind]
      rw [ew]; simp only [ok_bind]
      rw [show m1.store w _ = .ok m2 from es]; simp only [ok_bind]
      rw [e3]; simp only [ok_bind]
      rw [ew3]; simp only [ok_bind]
      rw [es3]; rfl
    · refine ⟨rfl, p', Mem.put_self .., l3.congr fun b hb => Mem.put_ne _ _ fun e => hwt (e ▸ hb)⟩
    · intro b hb
      rcases List.mem_cons.mp hb with e | e
      · rw [show b = w from e]; exact hfr
      · have := n3 b e
        by_cases hbw : b = w
        · rw [hbw]; exact hfr
        · rwa [c2 b hbw] at this
    · intro b hb
      have hbw : b ≠ w := fun e => hb (by simp [e])
      have hbt : b ∉ addrs t' := fun e => hb (List.mem_cons_of_mem _ e)
      rw [Mem.put_ne _ _ hbw, f3 b hbt, c2 b hbw]
    · intro h0
      exact (k3 ((LogOk.malloc h0 hfr).put c1w)).put c3w

theorem hShift_spec {d : Int} {m : Mem α} {p : Option Nat} {ns : List (Nat × Front α)} (h : IsList m p ns) {fuel : Nat}
    (hf : ns.length < fuel) :
    ∃ m', hShift d fuel m p = .ok m' ∧
      IsList m' p (ns.map fun x => (x.1, { x.2 with front := x.2.front + d })) ∧
      (∀ a, a ∉ addrs ns → m'.cell a = m.cell a) ∧ m'.log = m.log ∧ (LogOk m → LogOk m') := by
  induction ns generalizing m p fuel with
  | nil =>
    obtain ⟨fuel, rfl⟩ : ∃ k, fuel = k + 1 := ⟨fuel - 1, by simp at hf; omega⟩
    rw [show p = none from h]
    exact ⟨m, rfl, rfl, fun _ _ => rfl, rfl, id⟩
  | cons x t ih =>
    obtain ⟨a, f⟩ := x
    have hnd := h.nodup
    obtain ⟨rfl, nx, h1, h2⟩ := h
    obtain ⟨fuel, rfl⟩ : ∃ k, fuel = k + 1 := ⟨fuel - 1, by simp at hf; omega⟩
    have hat : a ∉ addrs t := (List.nodup_cons.mp hnd).1
    obtain ⟨m', e, l', c', g', k'⟩ := ih (m := m.put a ⟨{ f with front := f.front + d }, nx⟩)
      (h2.congr fun b hb => Mem.put_ne _ _ fun e => hat (e ▸ hb)) (fuel := fuel) (by simp at hf; omega)
    refine ⟨m', ?_, ⟨rfl, nx, ?_, l'⟩, ?_, g', fun h0 => k' (h0.put h1)⟩
    · simp only [hShift, Mem.load_some h1, ok_bind, Mem.store_some h1]; exact e
    · rw [c' a hat]; exact Mem.put_self ..
    · intro b hb
      have hba : b ≠ a := fun e => hb (by simp [e])
      rw [c' b fun e => hb (List.mem_cons_of_mem _ e), Mem.put_ne _ _ hba]

theorem hLength_spec {m : Mem α} {p : Option Nat} {ns : List (Nat × Front α)} (h : IsList m p ns) {fuel : Nat}
    (hf : ns.length < fuel) : hLength fuel m p = .ok ns.length := by
  induction ns generalizing p fuel with
  | nil =>
    obtain ⟨fuel, rfl⟩ : ∃ k, fuel = k + 1 := ⟨fuel - 1, by simp at hf; omega⟩
    rw [show p = none from h]; rfl
  | cons x t ih =>
    obtain ⟨a, f⟩ := x
    obtain ⟨rfl, nx, h1, h2⟩ := h
    obtain ⟨fuel, rfl⟩ : ∃ k, fuel = k + 1 := ⟨fuel - 1, by simp at hf; omega⟩
    simp only [hLength, Mem.load_some h1, ok_bind, ih h2 (fuel := fuel) (by simp at hf; omega), pure_eq_ok,
      List.length_cons]

/-! ### Segments -/

/-- A list segment from `p` up to the pointer `q`. -/
def IsSeg (m : Mem α) : Option Nat → List (Nat × Front α) → Option Nat → Prop
  | p, [], q => p = q
  | p, (a, f) :: t, q => p = some a ∧ ∃ nx, m.cell a = some ⟨f, nx⟩ ∧ IsSeg m nx t q

theorem isList_append {m : Mem α} {p : Option Nat} {s t : List (Nat × Front α)} :
    IsList m p (s ++ t) ↔ ∃ q, IsSeg m p s q ∧ IsList m q t := by
  induction s generalizing p with
  | nil => simp [IsSeg]
  | cons x s ih =>
    obtain ⟨a, f⟩ := x
    constructor
    · rintro ⟨rfl, nx, h1, h2⟩
      obtain ⟨q, h3, h4⟩ := ih.mp h2
      exact ⟨q, ⟨rfl, nx, h1, h3⟩, h4⟩
    · rintro ⟨q, ⟨rfl, nx, h1, h3⟩, h4⟩
      exact ⟨rfl, nx, h1, ih.mpr ⟨q, h3, h4⟩⟩

theorem IsSeg.congr {m m' : Mem α} {p q : Option Nat} {ns : List (Nat × Front α)} (h : IsSeg m p ns q)
    (hc : ∀ a ∈ addrs ns, m'.cell a = m.cell a) : IsSeg m' p ns q := by
  induction ns generalizing p with
  | nil => exact h
  | cons x t ih =>
    obtain ⟨a, f⟩ := x
    obtain ⟨rfl, nx, h1, h2⟩ := h
    refine ⟨rfl, nx, ?_, ih h2 fun b hb => hc b (List.mem_cons_of_mem _ hb)⟩
    rw [hc a (by simp), h1]

/-! ### Insertion, search, deletion -/

theorem hInsertFirst_spec [Zero α] {A : Alloc α} (hA : A.Fresh) {m : Mem α} {p : Option Nat}
    {ns : List (Nat × Front α)} (h : IsList m p ns) (hfin : Finite m) {fuel : Nat} (hf : ns.length < fuel)
    (depth theta : α) (num : Int) (layer : Nat) (bottom : Bool) :
    ∃ w m' ns' psi0 K0, hInsertFirst A fuel m depth theta num layer bottom p = .ok (some w, m') ∧
      IsList m' (some w) ns' ∧ addrs ns' = w :: addrs ns ∧
      vals ns' = listInsertFirst psi0 K0 depth theta num layer bottom (vals ns) ∧ m.cell w = none ∧
      (∀ a, a ≠ w → a ∉ addrs ns → m'.cell a = m.cell a) ∧ Finite m' ∧ (LogOk m → LogOk m') := by
  have hfr := hfin.fresh hA
  set w := A.pick m with hw
  set m1 := (m.malloc A).2 with hm1
  have em : m.malloc A = (w, m1) := rfl
  have c1 : ∀ b, b ≠ w → m1.cell b = m.cell b := fun b hb => by simp [hm1, Mem.malloc, Mem.put, ← hw, hb]
  have c1w : m1.cell w = some (A.junk m) := by simp [hm1, Mem.malloc, Mem.put, ← hw]
  set k : Node α := ⟨{ (A.junk m).f with depth := depth, theta := theta, front := num, layer := layer,
                                         toBottom := bottom, dzdt := 0 }, p⟩ with hk
  have hne : ∀ b ∈ addrs ns, b ≠ w := by
    intro b hb e
    obtain ⟨n, hn⟩ := h.live hb
    rw [e, hfr] at hn; cases hn
  have c2w : (m1.put w k).cell w = some k := Mem.put_self ..
  obtain ⟨m', e, l', f', g', k'⟩ := hShift_spec (d := 1) (m := m1.put w k)
    (h.congr fun b hb => by rw [Mem.put_ne _ _ (hne b hb), c1 b (hne b hb)]) hf
  have hwn : w ∉ addrs ns := fun hb => hne w hb rfl
  refine ⟨w, m', (w, k.f) :: _, (A.junk m).f.psi, (A.junk m).f.K, ?_, ⟨rfl, p, ?_, l'⟩, ?_, ?_, hfr, ?_, ?_, ?_⟩
  · unfold hInsertFirst
    simp only [em, Mem.load_some c1w, ok_bind, Mem.store_some c1w]
    simp only [← hk, Mem.load_some c2w, ok_bind]
    rw [show k.next = p from rfl, e]; rfl
  · rw [f' w hwn, c2w]
  · simp [addrs, List.map_map, Function.comp_def]
  · simp [listInsertFirst, incFronts, List.map_map, Function.comp_def, hk]
  · intro b hb hbn
    rw [f' b hbn, Mem.put_ne _ _ hb, c1 b hb]
  · refine Finite.of_le (Finite.put (hfin.malloc (A := A)) (a := w) (n := k)) fun b hb => ?_
    by_cases hbn : b ∈ addrs ns
    · obtain ⟨n, hn⟩ := h.live hbn
      rw [Mem.put_ne _ _ (hne b hbn), c1 b (hne b hbn), hn] at hb; cases hb
    · rw [f' b hbn]; exact hb
  · intro h0
    exact k' ((LogOk.malloc h0 hfr).put c1w)

theorem hHas_spec {key : Int} {m : Mem α} {p : Option Nat} {ns : List (Nat × Front α)} (h : IsList m p ns) {fuel : Nat}
    (hf : ns.length < fuel) (b : Bool) :
    hHas key fuel m p b = .ok (b || ns.any fun x => decide (x.2.front = key)) := by
  induction ns generalizing p fuel b with
  | nil =>
    obtain ⟨fuel, rfl⟩ : ∃ k, fuel = k + 1 := ⟨fuel - 1, by simp at hf; omega⟩
    rw [show p = none from h]; simp [hHas]
  | cons x t ih =>
    obtain ⟨a, f⟩ := x
    obtain ⟨rfl, nx, h1, h2⟩ := h
    obtain ⟨fuel, rfl⟩ : ∃ k, fuel = k + 1 := ⟨fuel - 1, by simp at hf; omega⟩
    simp only [hHas, Mem.load_some h1, ok_bind, ih h2 (fuel := fuel) (by simp at hf; omega), List.any_cons]
    by_cases hk : f.front = key <;> simp [hk]

theorem hFindGo_spec {key : Int} {m : Mem α} {p : Option Nat} {ns : List (Nat × Front α)} (h : IsList m p ns)
    (hne : ns ≠ []) {fuel : Nat} (hf : ns.length ≤ fuel) :
    hFindGo key fuel m p = .ok ((ns.find? fun x => decide (x.2.front = key)).map Prod.fst) := by
  induction ns generalizing p fuel with
  | nil => exact absurd rfl hne
  | cons x t ih =>
    obtain ⟨a, f⟩ := x
    obtain ⟨rfl, nx, h1, h2⟩ := h
    obtain ⟨fuel, rfl⟩ : ∃ k, fuel = k + 1 := ⟨fuel - 1, by simp at hf; omega⟩
    simp only [hFindGo, Mem.load_some h1, ok_bind]
    by_cases hk : f.front = key
    · simp [hk]
    · cases t with
      | nil =>
        rw [show nx = none from h2]
        simp [hk]
      | cons y s =>
        obtain ⟨b, g⟩ := y
        have e : nx = some b := h2.1
        subst e
        simp only [hk, if_false]
        rw [ih h2 (by simp) (by simp at hf ⊢; omega)]
        simp [hk]

theorem hWalk_spec {key : Int} {m : Mem α} {p prev : Option Nat} {s t : List (Nat × Front α)} {c : Nat} {f : Front α}
    (h : IsList m p (s ++ (c, f) :: t)) (hs : ∀ x ∈ s, x.2.front ≠ key) (hk : f.front = key) {fuel : Nat}
    (hf : s.length < fuel) :
    hWalk key fuel m prev p = .ok (some ((s.getLast?.map Prod.fst).or prev, c)) := by
  induction s generalizing p prev fuel with
  | nil =>
    obtain ⟨fuel, rfl⟩ : ∃ k, fuel = k + 1 := ⟨fuel - 1, by simp at hf; omega⟩
    obtain ⟨rfl, nx, h1, h2⟩ := h
    simp [hWalk, Mem.load_some h1, ok_bind, hk]
  | cons x s ih =>
    obtain ⟨fuel, rfl⟩ : ∃ k, fuel = k + 1 := ⟨fuel - 1, by simp at hf; omega⟩
    obtain ⟨a, g⟩ := x
    obtain ⟨rfl, nx, h1, h2⟩ := h
    have hg : g.front ≠ key := hs (a, g) (by simp)
    have hnx : ∃ b, nx = some b := by
      cases s with
      | nil => exact ⟨c, h2.1⟩
      | cons y s => exact ⟨y.1, h2.1⟩
    obtain ⟨b, rfl⟩ := hnx
    simp only [hWalk, Mem.load_some h1, ok_bind, hg, if_false]
    rw [ih h2 (fun x hx => hs x (by simp [hx])) (by simp at hf; omega)]
    cases s with
    | nil => simp
    | cons y s => simp [List.getLast?_cons_cons, List.getLast?_eq_getLast_of_ne_nil]

/-- Splitting at the first front with a number. -/
theorem first_split {key : Int} {ns : List (Nat × Front α)} (h : ∃ x ∈ ns, x.2.front = key) :
    ∃ s c f t, ns = s ++ (c, f) :: t ∧ f.front = key ∧ ∀ x ∈ s, x.2.front ≠ key := by
  induction ns with
  | nil => obtain ⟨x, hx, -⟩ := h; simp at hx
  | cons y ns ih =>
    by_cases hy : y.2.front = key
    · exact ⟨[], y.1, y.2, ns, rfl, hy, by simp⟩
    · obtain ⟨x, hx, hk⟩ := h
      have hx' : x ∈ ns := by
        rcases List.mem_cons.mp hx with e | e
        · exact absurd (e ▸ hk) hy
        · exact e
      obtain ⟨s, c, f, t, rfl, h1, h2⟩ := ih ⟨x, hx', hk⟩
      refine ⟨y :: s, c, f, t, rfl, h1, fun z hz => ?_⟩
      rcases List.mem_cons.mp hz with e | e
      · exact e ▸ hy
      · exact h2 z e

/-- Renumbering of the nodes below a deleted one. -/
def decNodes (t : List (Nat × Front α)) : List (Nat × Front α) :=
  t.map fun x => (x.1, { x.2 with front := x.2.front + -1 })

theorem addrs_decNodes (t : List (Nat × Front α)) : addrs (decNodes t) = addrs t := by
  simp [decNodes, addrs, List.map_map, Function.comp_def]

theorem vals_decNodes (t : List (Nat × Front α)) : vals (decNodes t) = decFronts (vals t) := by
  simp [decNodes, vals, decFronts, List.map_map, Function.comp_def, Int.sub_eq_add_neg]

theorem hDeleteFront_spec {key : Int} {m : Mem α} {p : Option Nat} {s t : List (Nat × Front α)} {c : Nat} {f : Front α}
    (h : IsList m p (s ++ (c, f) :: t)) (hs : ∀ x ∈ s, x.2.front ≠ key) (hk : f.front = key) {fuel : Nat}
    (hf : (s ++ (c, f) :: t).length < fuel) :
    ∃ q p' m', hDeleteFront fuel m key p = .ok (q, p', m') ∧ IsList m' p' (s ++ decNodes t) ∧
      IsList m' q (decNodes t) ∧ m'.cell c = none ∧
      (∀ a, a ∉ addrs (s ++ (c, f) :: t) → m'.cell a = m.cell a) ∧ m'.log = m.log ++ [.free c] ∧
      (LogOk m → LogOk m') := by
  have hnd := h.nodup
  have hhas : hHas key fuel m p false = .ok true := by
    rw [hHas_spec h hf]; simp [hk]
  have hwalk := hWalk_spec (prev := none) h hs hk (fuel := fuel) (by simp at hf; omega)
  have hp : ∃ b, p = some b := by
    cases s with
    | nil => exact ⟨c, h.1⟩
    | cons y s => exact ⟨y.1, h.1⟩
  obtain ⟨b, rfl⟩ := hp
  have hft : t.length < fuel := by simp at hf; omega
  rcases List.eq_nil_or_concat s with rfl | ⟨r, y, hy⟩
  · -- the head is deleted
    obtain ⟨e, nx, h1, h2⟩ := h
    obtain rfl : b = c := by simpa using e
    have hbt : b ∉ addrs t := (List.nodup_cons.mp hnd).1
    obtain ⟨m', e', l', f', g', k'⟩ := hShift_spec (d := -1)
      (m := { cell := fun a => if a = b then none else m.cell a, log := m.log ++ [.free b] }) (p := nx) (ns := t)
      (h2.congr fun a ha => by
        have : a ≠ b := fun e => hbt (e ▸ ha)
        simp [this]) hft
    refine ⟨nx, nx, m', ?_, l', l', ?_, ?_, g', fun h0 => k' (h0.free h1)⟩
    · unfold hDeleteFront
      simp only [hhas, ok_bind, hwalk, List.getLast?_nil, Option.map_none, Option.none_or, Mem.load_some h1, if_true,
        free_eq h1, e', Bool.true_eq_false, if_false]
      rfl
    · rw [f' b hbt]; simp
    · intro a ha
      have h1 : a ≠ b := fun e => ha (by simp [e])
      have h2 : a ∉ addrs t := fun e => ha (List.mem_cons_of_mem _ e)
      rw [f' a h2]; simp [h1]
  · obtain ⟨pb, g⟩ := y
    rw [List.concat_eq_append] at hy
    subst hy
    rw [List.append_assoc] at h hnd
    obtain ⟨q, hseg, e, nx, h1, e2, nx2, h3, h4⟩ := isList_append.mp h
    subst e; subst e2
    -- addresses
    have hnd' : (addrs r ++ pb :: c :: addrs t).Nodup := by simpa [addrs] using hnd
    obtain ⟨-, hn2, hdis⟩ := List.nodup_append.mp hnd'
    have hpbc : pb ≠ c := by
      intro e; simp [e] at hn2
    have hpbt : pb ∉ addrs t := fun e => by
      have := (List.nodup_cons.mp hn2).1
      exact this (List.mem_cons_of_mem _ e)
    have hct : c ∉ addrs t := (List.nodup_cons.mp (List.nodup_cons.mp hn2).2).1
    have hrpb : ∀ a ∈ addrs r, a ≠ pb := fun a ha => hdis a ha pb (by simp)
    have hrc : ∀ a ∈ addrs r, a ≠ c := fun a ha => hdis a ha c (by simp)
    have hrt : ∀ a ∈ addrs r, a ∉ addrs t := fun a ha e => hdis a ha a (by simp [e]) rfl
    have hbne : (some b : Option Nat) ≠ some c := by
      intro e
      cases r with
      | nil =>
        have : (some b : Option Nat) = some pb := hseg
        rw [this] at e; exact hpbc (by simpa using e)
      | cons y r' =>
        have : (some b : Option Nat) = some y.1 := hseg.1
        rw [this] at e
        exact hrc y.1 (by simp) (by simpa using e)
    have hcput : (m.put pb ⟨g, nx2⟩).cell c = some ⟨f, nx2⟩ := by
      rw [Mem.put_ne _ _ hpbc.symm, h3]
    set m2 : Mem α := { cell := fun a => if a = c then none else (m.put pb ⟨g, nx2⟩).cell a,
                        log := m.log ++ [.free c] } with hm2
    have c2 : ∀ a, a ≠ c → a ≠ pb → m2.cell a = m.cell a := fun a h1 h2 => by
      simp only [hm2, h1, if_false]; exact Mem.put_ne _ _ h2
    have c2pb : m2.cell pb = some ⟨g, nx2⟩ := by
      simp only [hm2, hpbc, if_false]; exact Mem.put_self ..
    obtain ⟨m', e', l', f', g', k'⟩ := hShift_spec (d := -1) (m := m2) (p := nx2) (ns := t)
      (h4.congr fun a ha => c2 a (fun e => hct (e ▸ ha)) (fun e => hpbt (e ▸ ha))) hft
    have lseg : IsList m' (some b) ((r ++ [(pb, g)]) ++ decNodes t) := by
      rw [List.append_assoc]
      refine isList_append.mpr ⟨some pb, hseg.congr fun a ha => ?_, rfl, nx2, ?_, l'⟩
      · rw [f' a (hrt a ha), c2 a (hrc a ha) (hrpb a ha)]
      · rw [f' pb hpbt, c2pb]
    refine ⟨nx2, some b, m', ?_, lseg, l', ?_, ?_, by rw [g'], fun h0 => k' ?_⟩
    · unfold hDeleteFront
      simp only [hhas, ok_bind, hwalk, Bool.true_eq_false, if_false, List.getLast?_append, List.getLast?_singleton,
        Option.some_or, Option.map_some, Mem.load_some h3, hbne, Mem.load_some h1, Mem.store_some h1, free_eq hcput]
      have : ({ cell := fun b => if b = c then none else (m.put pb ⟨g, nx2⟩).cell b,
                log := (m.put pb ⟨g, nx2⟩).log ++ [Ev.free c] } : Mem α) = m2 := rfl
      rw [this, e']; rfl
    · rw [f' c hct]; simp [hm2]
    · intro a ha
      have ha' : a ∉ addrs r ∧ a ≠ pb ∧ a ≠ c ∧ a ∉ addrs t := by
        simp only [addrs, List.map_append, List.map_cons, List.mem_append, List.mem_cons, List.map_nil,
          List.mem_nil_iff, or_false] at ha
        tauto
      rw [f' a ha'.2.2.2, c2 a ha'.2.2.1 ha'.2.1]
    · exact (h0.put (k := ⟨g, nx2⟩) h1).free hcput

theorem hDeleteFront_absent {key : Int} {m : Mem α} {p : Option Nat} {ns : List (Nat × Front α)} (h : IsList m p ns)
    (hs : ∀ x ∈ ns, x.2.front ≠ key) {fuel : Nat} (hf : ns.length < fuel) :
    hDeleteFront fuel m key p = .error (.abort "listDeleteFront: front not found") := by
  have : (ns.any fun x => decide (x.2.front = key)) = false := by
    rw [List.any_eq_false]; intro x hx; simpa using hs x hx
  unfold hDeleteFront
  simp only [hHas_spec h hf, this, Bool.or_false, ok_bind, if_true]

theorem hInsertGo_none [Zero α] {A : Alloc α} {depth theta : α} {num : Int} {layer : Nat} {bottom : Bool} {m : Mem α}
    {p : Option Nat} {ns : List (Nat × Front α)} (h : IsList m p ns) (hs : ∀ x ∈ ns, x.2.front ≠ num - 1) {fuel : Nat}
    (hf : ns.length < fuel) :
    hInsertGo A depth theta num layer bottom fuel m p = .error (.ub "NULL dereference") := by
  induction ns generalizing p fuel with
  | nil =>
    obtain ⟨fuel, rfl⟩ : ∃ k, fuel = k + 1 := ⟨fuel - 1, by simp at hf; omega⟩
    rw [show p = none from h]; rfl
  | cons x t ih =>
    obtain ⟨fuel, rfl⟩ : ∃ k, fuel = k + 1 := ⟨fuel - 1, by simp at hf; omega⟩
    obtain ⟨a, f⟩ := x
    obtain ⟨rfl, nx, h1, h2⟩ := h
    have hg : f.front ≠ num - 1 := hs (a, f) (by simp)
    simp only [hInsertGo, Mem.load_some h1, ok_bind, hg, if_false]
    exact ih h2 (fun x hx => hs x (by simp [hx])) (by simp at hf; omega)

/-- The node written by an insertion. -/
def newNode [Zero α] (A : Alloc α) (m : Mem α) (depth theta : α) (num : Int) (layer : Nat) (bottom : Bool) : Front α :=
  { (A.junk m).f with depth := depth, theta := theta, front := num, layer := layer, toBottom := bottom, dzdt := 0 }

theorem hInsertGo_spec [Zero α] {A : Alloc α} (hA : A.Fresh) {depth theta : α} {num : Int} {layer : Nat} {bottom : Bool}
    {m : Mem α} {p : Option Nat} {s t : List (Nat × Front α)} {b : Nat} {g : Front α}
    (h : IsList m p (s ++ (b, g) :: t)) (hs : ∀ x ∈ s, x.2.front ≠ num - 1) (hg : g.front = num - 1) (hfin : Finite m)
    {fuel : Nat} (hf : s.length < fuel) :
    (t ≠ [] → ∃ w, hInsertGo A depth theta num layer bottom fuel m p = .error (.ub w)) ∧
    (t = [] → ∃ w m', hInsertGo A depth theta num layer bottom fuel m p = .ok (w, m') ∧
      IsList m' p (s ++ [(b, g), (w, newNode A m depth theta num layer bottom)]) ∧ m.cell w = none ∧
      (∀ a, a ≠ w → a ≠ b → m'.cell a = m.cell a) ∧ Finite m' ∧ (LogOk m → LogOk m')) := by
  induction s generalizing p fuel with
  | nil =>
    obtain ⟨fuel, rfl⟩ : ∃ k, fuel = k + 1 := ⟨fuel - 1, by simp at hf; omega⟩
    obtain ⟨rfl, nx, h1, h2⟩ := h
    have hfr := hfin.fresh hA
    set w := A.pick m with hw
    set m1 := (m.malloc A).2 with hm1
    have em : m.malloc A = (w, m1) := rfl
    have hbw : b ≠ w := by rintro e; rw [e, hfr] at h1; cases h1
    have c1 : ∀ a, a ≠ w → m1.cell a = m.cell a := fun a ha => by simp [hm1, Mem.malloc, Mem.put, ← hw, ha]
    have c1w : m1.cell w = some (A.junk m) := by simp [hm1, Mem.malloc, Mem.put, ← hw]
    have c1b : m1.cell b = some ⟨g, nx⟩ := by rw [c1 b hbw, h1]
    set k : Node α := ⟨newNode A m depth theta num layer bottom, nx⟩ with hk
    have c2b : (m1.put w k).cell b = some ⟨g, nx⟩ := by rw [Mem.put_ne _ _ hbw, c1b]
    have c2w : (m1.put w k).cell w = some k := Mem.put_self ..
    have c2b' : (m1.put w ⟨{ (A.junk m).f with depth := depth, theta := theta, front := num, layer := layer,
                                               toBottom := bottom, dzdt := 0 }, nx⟩).cell b = some ⟨g, nx⟩ := c2b
    constructor
    · intro ht
      cases t with
      | nil => exact absurd rfl ht
      | cons y t =>
        have e : nx = some y.1 := h2.1
        subst e
        refine ⟨"listInsertFront: endless renumbering loop, signed overflow", ?_⟩
        simp only [hInsertGo, Mem.load_some h1, ok_bind, hg, if_true, em, Mem.load_some c1w, Mem.load_some c1b,
          Mem.store_some c1w]
        simp only [Mem.store_some c2b', ok_bind]
        try rfl
    · rintro rfl
      have e : nx = none := h2
      subst e
      refine ⟨w, (m1.put w k).put b ⟨g, some w⟩, ?_, ⟨rfl, some w, Mem.put_self .., rfl, none, ?_, rfl⟩, hfr, ?_, ?_, ?_⟩
      · simp only [hInsertGo, Mem.load_some h1, ok_bind, hg, if_true, em, Mem.load_some c1w, Mem.load_some c1b,
          Mem.store_some c1w]
        simp only [Mem.store_some c2b', ok_bind]
        try rfl
      · rw [Mem.put_ne _ _ hbw.symm, c2w]
      · intro a ha hab
        rw [Mem.put_ne _ _ hab, Mem.put_ne _ _ ha, c1 a ha]
      · exact Finite.put (Finite.put hfin.malloc)
      · intro h0
        exact ((LogOk.malloc h0 hfr).put c1w).put c2b
  | cons x s ih =>
    obtain ⟨fuel, rfl⟩ : ∃ k, fuel = k + 1 := ⟨fuel - 1, by simp at hf; omega⟩
    obtain ⟨a, f⟩ := x
    have hnd := h.nodup
    obtain ⟨rfl, nx, h1, h2⟩ := h
    have hfn : f.front ≠ num - 1 := hs (a, f) (by simp)
    have e : hInsertGo A depth theta num layer bottom (fuel + 1) m (some a) =
        hInsertGo A depth theta num layer bottom fuel m nx := by
      simp only [hInsertGo, Mem.load_some h1, ok_bind, hfn, if_false]
    rw [e]
    obtain ⟨i1, i2⟩ := ih h2 (fun x hx => hs x (by simp [hx])) (by simp at hf; omega)
    refine ⟨i1, fun ht => ?_⟩
    obtain ⟨w, m', e', l', n', f', fin', k'⟩ := i2 ht
    refine ⟨w, m', e', ⟨rfl, nx, ?_, l'⟩, n', f', fin', k'⟩
    have haw : a ≠ w := by rintro e; rw [e, n'] at h1; cases h1
    have hab : a ≠ b := by
      rintro rfl
      have := (List.nodup_cons.mp hnd).1
      exact this (by simp)
    rw [f' a haw hab, h1]

theorem hReverse_spec {m : Mem α} {p q : Option Nat} {ns rs : List (Nat × Front α)} (h : IsList m p ns)
    (hr : IsList m q rs) (hd : ∀ a ∈ addrs ns, a ∉ addrs rs) {fuel : Nat} (hf : ns.length < fuel) :
    ∃ p' m', hReverse fuel m q p = .ok (p', m') ∧ IsList m' p' (ns.reverse ++ rs) ∧
      (∀ a, a ∉ addrs ns → m'.cell a = m.cell a) ∧ m'.log = m.log := by
  induction ns generalizing m p q rs fuel with
  | nil =>
    obtain ⟨fuel, rfl⟩ : ∃ k, fuel = k + 1 := ⟨fuel - 1, by simp at hf; omega⟩
    rw [show p = none from h]
    exact ⟨q, m, rfl, hr, fun _ _ => rfl, rfl⟩
  | cons x t ih =>
    obtain ⟨fuel, rfl⟩ : ∃ k, fuel = k + 1 := ⟨fuel - 1, by simp at hf; omega⟩
    obtain ⟨a, f⟩ := x
    have hnd := h.nodup
    obtain ⟨rfl, nx, h1, h2⟩ := h
    have hat : a ∉ addrs t := (List.nodup_cons.mp hnd).1
    have har : a ∉ addrs rs := hd a (by simp)
    have hl : IsList (m.put a ⟨f, q⟩) (some a) ((a, f) :: rs) :=
      ⟨rfl, q, Mem.put_self .., hr.congr fun b hb => Mem.put_ne _ _ fun e => har (e ▸ hb)⟩
    obtain ⟨p', m', e', l', f', g'⟩ := ih (m := m.put a ⟨f, q⟩)
      (h2.congr fun b hb => Mem.put_ne _ _ fun e => hat (e ▸ hb)) hl
      (fun b hb hb' => by
        rcases List.mem_cons.mp hb' with e | e
        · exact hat ((show b = a from e) ▸ hb)
        · exact hd b (List.mem_cons_of_mem _ hb) e) (fuel := fuel) (by simp at hf; omega)
    refine ⟨p', m', ?_, by simpa using l', fun b hb => ?_, g'⟩
    · simp only [hReverse, Mem.load_some h1, ok_bind, Mem.store_some h1]; exact e'
    · rw [f' b fun e => hb (List.mem_cons_of_mem _ e), Mem.put_ne _ _ fun e => hb (by simp [e])]

theorem hWrite_spec {u : Front α → Front α} {m : Mem α} {p : Option Nat} {ns : List (Nat × Front α)} (h : IsList m p ns)
    (i : Nat) :
    (ns.length ≤ i → ∃ w, hWrite u i m p = .error (.ub w)) ∧
    ∀ a f, ns[i]? = some (a, f) → ∃ m', hWrite u i m p = .ok m' ∧ IsList m' p (ns.set i (a, u f)) ∧
      (∀ b, b ≠ a → m'.cell b = m.cell b) ∧ m'.log = m.log ∧ (LogOk m → LogOk m') := by
  induction ns generalizing p i with
  | nil =>
    rw [show p = none from h]
    refine ⟨fun _ => ?_, fun a f hi => by simp at hi⟩
    cases i <;> exact ⟨_, rfl⟩
  | cons x t ih =>
    obtain ⟨b, g⟩ := x
    have hnd := h.nodup
    obtain ⟨rfl, nx, h1, h2⟩ := h
    have hbt : b ∉ addrs t := (List.nodup_cons.mp hnd).1
    cases i with
    | zero =>
      refine ⟨fun hl => by simp at hl, fun a f hi => ?_⟩
      obtain ⟨rfl, rfl⟩ : b = a ∧ g = f := by simpa using hi
      refine ⟨m.put b ⟨u g, nx⟩, ?_, ⟨rfl, nx, Mem.put_self .., h2.congr fun c hc =>
        Mem.put_ne _ _ fun e => hbt (e ▸ hc)⟩, fun c hc => Mem.put_ne _ _ hc, rfl, fun h0 => h0.put h1⟩
      simp only [hWrite, Mem.load_some h1, ok_bind, Mem.store_some h1]
    | succ i =>
      have e : hWrite u (i + 1) m (some b) = hWrite u i m nx := by
        simp only [hWrite, Mem.load_some h1, ok_bind]
      rw [e]
      obtain ⟨i1, i2⟩ := ih h2 i
      refine ⟨fun hl => i1 (by simp at hl; omega), fun a f hi => ?_⟩
      simp only [List.getElem?_cons_succ] at hi
      obtain ⟨m', e', l', f', g', k'⟩ := i2 a f hi
      refine ⟨m', e', ⟨rfl, nx, ?_, l'⟩, f', g', k'⟩
      rw [f' b ?_, h1]
      rintro rfl
      exact hbt (List.mem_map.mpr ⟨_, List.mem_of_getElem? hi, rfl⟩)

end LGAR
