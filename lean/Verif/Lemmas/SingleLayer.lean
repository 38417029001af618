import Verif.Lemmas.Bounded
import Verif.Lemmas.MoveSafe
import Verif.Lemmas.Correction
import Verif.Num.Mono
/-
Movement of the fronts of a one-layer column and what it does to the storage.
-/
set_option linter.unusedSectionVars false
namespace LGAR

section Exact
variable {K : Type} [Field K] [LinearOrder K] [IsStrictOrderedRing K] [CMath K] [LawfulNum K]

/-- The main loop of the movement on two or more fronts of one layer.  `x` is the water that the first front takes in. -/
inductive Shift (e r column dt : K) : K → List (Front K) → List (Front K) → Prop
  | last (x : K) (f : Front K) : Shift e r column dt x [f] [f]
  | cons (x : K) (c n c' n' : Front K) (t t' : List (Front K)) (hs : Shift e r column dt 0 (n :: t) (n' :: t'))
      (ht : c'.tag = c.tag) (hd : c'.depth = min (c.depth + c.dzdt * dt) column) (h0 : c'.depth ≠ 0)
      (hr : r ≤ (c.depth * (c.theta - n.theta) + x) / c'.depth + n'.theta)
      (hth : c'.theta = min e ((c.depth * (c.theta - n.theta) + x) / c'.depth + n'.theta)) :
      Shift e r column dt x (c :: n :: t) (c' :: n' :: t')

/-- One iteration on a front of layer 1 with another one below. -/
theorem moveOne_top {fuel : Nat} {g : Geo K} {dt precip aet : K} {nFd : Nat} {a t t' prev : List (Front K)} {c n n' : Front K}
    {r : List (Front K) × K} {s : SoilProps K} {column : K} (hp : NumFrom 1 (a ++ c :: n :: t)) (hpr : prev = a ++ c :: n :: t)
    (hn : NumFrom 1 (a ++ c :: n' :: t')) (hlen : t'.length = t.length)
    (hc : c.layer = 1) (hn1 : n'.layer = 1) (hs : g.soil 1 = .ok s) (hgap : s.thetaR < s.thetaE) (hcol : g.cum[g.numLayers]? = some column)
    (hz : c.dzdt ≠ 0)
    (h : moveOne fuel g dt precip nFd prev.length (a.length + 1) prev (a ++ c :: n' :: t') aet = .ok r) :
    ∃ c', r = (a ++ c' :: n' :: t', aet) ∧ c'.tag = c.tag ∧ c'.depth = min (c.depth + c.dzdt * dt) column ∧ c'.depth ≠ 0 ∧
      s.thetaR ≤ (c.depth * (c.theta - n.theta) + (if nFd = a.length + 1 then precip - aet else 0)) / c'.depth + n'.theta ∧
      c'.theta = min s.thetaE ((c.depth * (c.theta - n.theta) + (if nFd = a.length + 1 then precip - aet else 0)) / c'.depth + n'.theta) := by
  subst hpr
  have hl : (a ++ c :: n :: t).length = (a ++ c :: n' :: t').length := by simp [hlen]
  have ho : OldsOk (a ++ c :: n :: t) (a ++ c :: n' :: t') := .inr ⟨hp, hl⟩
  unfold moveOne at h
  simp only [bind_ok_iff, idx_ok_iff] at h
  obtain ⟨col, hcol', c0, hc0, s0, hs0, _, _, h⟩ := h
  rw [hcol, Option.some.injEq] at hcol'
  subst hcol'
  rw [find_num hn (by omega) (by simp)] at hc0 h
  rw [(find_olds ho hn (by omega) (by simp)).1] at h
  obtain ⟨i, hi, hc0⟩ := derefOpt_ok_iff.mp hc0
  simp only [Option.some.injEq] at hi
  subst hi
  have : c0 = c := by simpa using hc0.symm
  subst this
  rw [hc, hs, Except.ok.injEq] at hs0
  subst hs0
  have hwf : a.length + 1 < (a ++ c0 :: n :: t).length := by simp
  have e1 : (Int.ofNat (a.length + 1) + 1) = Int.ofNat (a.length + 2) := rfl
  rw [if_pos hwf, if_pos hwf, if_pos hwf, e1, find_num hn (by omega) (by simp),
    (find_olds ho hn (by omega) (by simp)).1] at h
  simp only [bind_ok_iff] at h
  obtain ⟨nx, hnx, h⟩ := h
  obtain ⟨i, hi, hnx⟩ := derefOpt_ok_iff.mp hnx
  simp only [Option.some.injEq] at hi
  subst hi
  have : nx = n' := by simpa using hnx.symm
  subst this
  rw [if_neg (by rw [hn1, hc]; simp), if_pos hc] at h
  simp only [bind_ok_iff] at h
  obtain ⟨old, hold, oldn, holdn, o, ho', h⟩ := h
  have hpe : (a ++ c0 :: n :: t).isEmpty = false := by cases a <;> rfl
  rw [hpe] at hold holdn
  obtain ⟨i, hi, hold⟩ := derefOpt_ok_iff.mp hold
  simp only [Option.some.injEq] at hi
  subst hi
  have : old = c0 := by simpa using hold.symm
  subst this
  obtain ⟨i, hi, holdn⟩ := derefOpt_ok_iff.mp holdn
  simp only [Option.some.injEq] at hi
  subst hi
  have : oldn = n := by simpa using holdn.symm
  subst this
  cases o with
  | none => simp only [bind_ok_iff] at h; obtain ⟨_, _, h⟩ := h; exact absurd h (by simp)
  | some c1 =>
    simp only [bind_ok_iff, pure_eq_ok, Except.ok.injEq] at h
    obtain ⟨psi, hpsi, rfl⟩ := h
    unfold moveTopLayer at ho'
    have e2 : (if (nFd == a.length + 1) = true then old.depth * (old.theta - oldn.theta) + (precip - (0 + aet))
        else old.depth * (old.theta - oldn.theta)) =
        old.depth * (old.theta - oldn.theta) + (if nFd = a.length + 1 then precip - aet else 0) := by
      by_cases hx : nFd = a.length + 1 <;> simp [hx]
    simp only [e2] at ho'
    generalize (if nFd = a.length + 1 then precip - aet else 0) = x at ho' ⊢
    rw [if_neg (by simp [hz])] at ho'
    simp only [bind_ok_iff, cdiv_ok] at ho'
    obtain ⟨q, ⟨hq0, rfl⟩, ho'⟩ := ho'
    split at ho'
    · simp at ho'
    · rename_i hr
      simp only [pure_eq_ok, Except.ok.injEq, Option.some.injEq, fmin_eq, fmax_eq, not_lt] at ho' hr hq0
      subst ho'
      refine ⟨{ old with
        depth := min (old.depth + old.dzdt * dt) column
        theta := max s.thetaR (min s.thetaE
          ((old.depth * (old.theta - oldn.theta) + x) / min (old.depth + old.dzdt * dt) column + nx.theta))
        psi := psi }, ?_, rfl, rfl, hq0, hr, ?_⟩
      · simp
      · simp only
        rw [max_eq_right]
        exact le_min hgap.le hr

theorem Shift.length {e r column dt x : K} {l l' : List (Front K)} (h : Shift e r column dt x l l') : l'.length = l.length := by
  induction h with
  | last => rfl
  | cons x c n c' n' t t' hs _ _ _ _ _ ih => simpa using ih

theorem Shift.tags {e r column dt x : K} {l l' : List (Front K)} (h : Shift e r column dt x l l') :
    l'.map Front.tag = l.map Front.tag := by
  induction h with
  | last => rfl
  | cons x c n c' n' t t' hs ht _ _ _ _ ih => rw [List.map_cons, List.map_cons (a := c), ih, ht]

theorem moveOnes_shift {fuel : Nat} {g : Geo K} {dt precip aet : K} {prev : List (Front K)} {s : SoilProps K} {column : K}
    (hp : NumFrom 1 prev) (h2 : 2 ≤ prev.length) (hs : g.soil 1 = .ok s) (hgap : s.thetaR < s.thetaE)
    (hcol : g.cum[g.numLayers]? = some column) (hlay : ∀ f ∈ prev, f.layer = 1)
    (hz : ∀ f ∈ prev.dropLast, f.dzdt ≠ 0) :
    ∀ {wf : Nat} {a t t' : List (Front K)} {r : List (Front K) × K}, wf = a.length → prev = a ++ t → a ≠ [] → t ≠ [] →
      Shift s.thetaE s.thetaR column dt 0 t t' →
      moveOnes fuel g dt precip 1 prev.length prev wf (a ++ t') aet = .ok r →
      r.2 = aet ∧ Shift s.thetaE s.thetaR column dt (precip - aet) prev r.1
  | 0, a, t, t', r, hw, _, ha, _, _, _ => by
    exact absurd (List.length_eq_zero_iff.mp hw.symm) ha
  | wf + 1, a, t, t', r, hw, hpr, ha, ht, hsh, h => by
    obtain ⟨a0, c, rfl⟩ : ∃ a0 c, a = a0 ++ [c] := ⟨_, _, (List.dropLast_append_getLast ha).symm⟩
    have hwf : wf = a0.length := by simp at hw; omega
    subst hwf
    cases hsl : t with
    | nil => exact absurd hsl ht
    | cons n u =>
    subst hsl
    cases hst : t' with
    | nil => subst hst; have := hsh.length; simp at this
    | cons n' u' =>
    subst hst
    have hlen : u'.length = u.length := by have := hsh.length; simpa using this
    have htag := hsh.tags
    rw [List.map_cons, List.map_cons, List.cons.injEq] at htag
    have hpr' : prev = a0 ++ c :: n :: u := by rw [hpr]; simp
    have hcl : c.layer = 1 := hlay c (by rw [hpr']; simp)
    have hnl : n'.layer = 1 := by rw [(Front.tag_eq htag.1).1]; exact hlay n (by rw [hpr']; simp)
    have hcz : c.dzdt ≠ 0 := by
      refine hz c ?_
      rw [hpr', List.dropLast_append_of_ne_nil (by simp)]
      simp
    have hn' : NumFrom 1 (a0 ++ c :: n' :: u') := by
      refine tags_num (l := prev) ?_ hp
      rw [hpr']
      simp [htag.1, htag.2]
    unfold moveOnes at h
    simp only [bind_ok_iff, Prod.exists] at h
    obtain ⟨l1, aet1, h1, h⟩ := h
    rw [show a0 ++ [c] ++ n' :: u' = a0 ++ c :: n' :: u' by simp] at h1
    obtain ⟨c', e1, e2, e3, e4, e5, e6⟩ :=
      moveOne_top (by rw [← hpr']; exact hp) hpr' hn' hlen hcl hnl hs hgap hcol hcz h1
    simp only [Prod.mk.injEq] at e1
    obtain ⟨rfl, rfl⟩ := e1
    have key := Shift.cons (dt := dt) _ c n c' n' u u' hsh e2 e3 e4 e5 e6
    rcases Nat.eq_zero_or_pos a0.length with h0 | h0
    · have : a0 = [] := List.length_eq_zero_iff.mp h0
      subst this
      simp only [List.length_nil, moveOnes, Except.ok.injEq] at h
      subst h
      simp only [List.nil_append, List.length_nil, Nat.zero_add, if_true] at hpr' key ⊢
      rw [hpr']
      exact ⟨trivial, key⟩
    · rw [if_neg (by omega)] at key
      exact moveOnes_shift hp h2 hs hgap hcol hlay hz rfl hpr' (by intro hx; simp [hx] at h0) (by simp) key h

/-- Movement of two or more fronts in one layer. -/
theorem moveOnes_single {fuel : Nat} {g : Geo K} {dt precip aet : K} {l : List (Front K)} {s : SoilProps K} {column : K}
    {r : List (Front K) × K} (hp : NumFrom 1 l) (h2 : 2 ≤ l.length) (hN : g.numLayers = 1) (hs : g.soil 1 = .ok s)
    (hgap : s.thetaR < s.thetaE) (hcol : g.cum[g.numLayers]? = some column) (hlay : ∀ f ∈ l, f.layer = 1)
    (hz : ∀ f ∈ l.dropLast, f.dzdt ≠ 0)
    (h : moveOnes fuel g dt precip 1 l.length l l.length l aet = .ok r) :
    r.2 = aet ∧ Shift s.thetaE s.thetaR column dt (precip - aet) l r.1 := by
  have hne : l ≠ [] := by intro hx; simp [hx] at h2
  obtain ⟨a, f, rfl⟩ : ∃ a f, l = a ++ [f] := ⟨_, _, (List.dropLast_append_getLast hne).symm⟩
  have hlen : (a ++ [f]).length = a.length + 1 := by simp
  have h0 := h
  rw [hlen] at h
  unfold moveOnes at h
  simp only [bind_ok_iff, Prod.exists] at h
  obtain ⟨l1, aet1, h1, h⟩ := h
  rw [← hlen] at h1
  obtain ⟨c, c', hc, hr1, hm⟩ := moveOne_cases hp rfl (by omega) le_rfl h1
  have : c = f := by rw [hlen] at hc; simpa using hc.symm
  subst this
  cases hm with
  | boundary s nx th hs hwf => omega
  | top s nx old oldNext c1 column psi hs hwf => omega
  | inner s nx old oldNext oldSucc c1 psi aet' hs hwf => omega
  | deepest s old c1 aet' hs hwf hn => omega
  | same hwf hn =>
    simp only [hlen, Nat.add_sub_cancel] at hr1
    rw [show (a ++ [c]).set a.length c = a ++ [c] by simp] at hr1
    subst hr1
    have ha : a ≠ [] := by intro hx; simp [hx] at h2
    rw [← hlen] at h
    exact moveOnes_shift hp h2 hs hgap hcol hlay hz rfl rfl ha (by simp) (Shift.last 0 c) h

end Exact
end LGAR
