import Verif.Lemmas.Rounding
import Verif.Lemmas.Mass
/-
Rounding errors of the storage sum.
-/
set_option linter.unusedSectionVars false
namespace LGAR
open Rounded

variable {α : Type} [Add α] [Sub α] [Mul α] [Div α] [Neg α] [Zero α] [One α] [OfScientific α]
  [LT α] [LE α] [DecidableLT α] [DecidableLE α] [BEq α] [CMath α] [Rounded α]

theorem near_of_le {y x D : ℝ} (h : |y - x| ≤ eps α * |y|) (hx : |x| ≤ D) : |y - x| ≤ 1.01 * (eps α * D) ∧ |y| ≤ 1.01 * D := by
  have h1 := near_abs h
  have h2 : |y| ≤ 1.01 * D := by linarith
  refine ⟨h.trans ?_, h2⟩
  have := eps_mul_le (α := α) h2
  linarith

/-- One term of the storage sum, factors in either order. -/
theorem term_err {a x t y p D : ℝ} (hD : 0 ≤ D) (ha : |a - x| ≤ eps α * |a|) (hx : |x| ≤ D) (ht : |t - y| ≤ eps α * |t|)
    (hy : |y| ≤ 1) (hp : |p - a * t| ≤ eps α * |p| + tiny α) : |p - x * y| ≤ 4 * (eps α * D + tiny α) := by
  obtain ⟨a1, a2⟩ := near_of_le ha hx
  obtain ⟨t1, t2⟩ := near_of_le ht hy
  have e0 := eps_nonneg (α := α)
  have e1 := eps_small (α := α)
  have y0 := tiny_nonneg (α := α)
  have hat : |a * t - x * y| ≤ 2.1 * (eps α * D) := by
    have e : a * t - x * y = (a - x) * t + x * (t - y) := by ring
    rw [e]
    refine (abs_add_le _ _).trans ?_
    rw [abs_mul, abs_mul]
    have b1 : |a - x| * |t| ≤ 1.01 * (eps α * D) * (1.01 * 1) := mul_le_mul a1 t2 (abs_nonneg _) (by positivity)
    have b2 : |x| * |t - y| ≤ D * (1.01 * (eps α * 1)) := mul_le_mul hx t1 (abs_nonneg _) hD
    nlinarith [_root_.mul_nonneg e0 hD]
  have hxy : |x * y| ≤ D := by
    rw [abs_mul]
    calc |x| * |y| ≤ D * 1 := mul_le_mul hx hy (abs_nonneg _) hD
      _ = D := mul_one _
  have hp1 : |p| ≤ |p - a * t| + |a * t - x * y| + |x * y| := by
    have := abs_add_le (p - a * t + (a * t - x * y)) (x * y)
    have h2 := abs_add_le (p - a * t) (a * t - x * y)
    have e : p - a * t + (a * t - x * y) + x * y = p := by ring
    rw [e] at this; linarith
  have hps : |p - x * y| ≤ |p - a * t| + |a * t - x * y| := by
    have h2 := abs_add_le (p - a * t) (a * t - x * y)
    have e : p - a * t + (a * t - x * y) = p - x * y := by ring
    rwa [e] at h2
  have q1 : eps α * |p| ≤ eps α * (|p - a * t| + |a * t - x * y| + |x * y|) := mul_le_mul_of_nonneg_left hp1 e0
  have q2 : eps α * |p - a * t| ≤ 1 / 1000 * |p - a * t| := mul_le_mul_of_nonneg_right e1 (abs_nonneg _)
  have q3 : eps α * |a * t - x * y| ≤ 1 / 1000 * |a * t - x * y| := mul_le_mul_of_nonneg_right e1 (abs_nonneg _)
  have q4 : eps α * |x * y| ≤ eps α * D := mul_le_mul_of_nonneg_left hxy e0
  have q5 : 0 ≤ eps α * D := _root_.mul_nonneg e0 hD
  have q6 : |p - a * t| ≤ eps α * |p - a * t| + eps α * |a * t - x * y| + eps α * |x * y| + tiny α := by
    have : eps α * (|p - a * t| + |a * t - x * y| + |x * y|) =
      eps α * |p - a * t| + eps α * |a * t - x * y| + eps α * |x * y| := by ring
    linarith
  linarith

/-- One more term in the sum. -/
theorem sum_err {s p S e s' D : ℝ} {i : Nat} (hi : i < 2 ^ 20) (hD : 0 ≤ D)
    (hs : |s - S| ≤ 2 * i * (i + 4) * (eps α * D + tiny α)) (hp : |p - e| ≤ 4 * (eps α * D + tiny α)) (hS : |S| ≤ i * D)
    (he : |e| ≤ D) (h : |s' - (s + p)| ≤ eps α * |s'|) :
    |s' - (S + e)| ≤ 2 * ((i + 1 : Nat) : ℝ) * (((i + 1 : Nat) : ℝ) + 4) * (eps α * D + tiny α) ∧
      |S + e| ≤ ((i + 1 : Nat) : ℝ) * D := by
  have e0 := eps_nonneg (α := α)
  have el := eps_le (α := α)
  have y0 := tiny_nonneg (α := α)
  set U := eps α * D + tiny α with hU
  have hU0 : 0 ≤ U := by positivity
  have hSe : |S + e| ≤ ((i + 1 : Nat) : ℝ) * D := by
    refine (abs_add_le _ _).trans ?_
    push_cast; linarith
  refine ⟨?_, hSe⟩
  have h1 : |s + p - (S + e)| ≤ 2 * i * (i + 4) * U + 4 * U := by
    have : s + p - (S + e) = (s - S) + (p - e) := by ring
    rw [this]; exact (abs_add_le _ _).trans (add_le_add hs hp)
  have h2 : |s' - (S + e)| ≤ |s' - (s + p)| + |s + p - (S + e)| := by
    have := abs_add_le (s' - (s + p)) (s + p - (S + e))
    have q : s' - (s + p) + (s + p - (S + e)) = s' - (S + e) := by ring
    rwa [q] at this
  have h3 : |s'| ≤ |s' - (S + e)| + |S + e| := by
    have := abs_add_le (s' - (S + e)) (S + e)
    rwa [sub_add_cancel] at this
  have hir : (i : ℝ) ≤ 2 ^ 20 := by exact_mod_cast hi.le
  have hi0 : (0 : ℝ) ≤ i := Nat.cast_nonneg _
  push_cast at hSe ⊢
  set δ := |s' - (S + e)| with hδ
  have h4 : eps α * |s'| ≤ eps α * δ + (i + 1) * U := by
    have a1 := mul_le_mul_of_nonneg_left h3 e0
    have a2 := mul_le_mul_of_nonneg_left hSe e0
    have a3 : eps α * ((i + 1) * D) ≤ (i + 1) * U := by
      have : (i + 1 : ℝ) * U = eps α * ((i + 1) * D) + (i + 1) * tiny α := by rw [hU]; ring
      rw [this]
      have : 0 ≤ (i + 1 : ℝ) * tiny α := by positivity
      linarith
    linarith [mul_add (eps α) δ |S + e|]
  have h5 : δ - eps α * δ ≤ (2 * (i : ℝ) ^ 2 + 9 * i + 5) * U := by nlinarith
  by_contra hc
  rw [not_le] at hc
  have h6 : eps α * δ ≤ 1 / 2 ^ 52 * δ := mul_le_mul_of_nonneg_right el (abs_nonneg _)
  have h7 : (1 - 1 / 2 ^ 52) * (2 * ((i : ℝ) + 1) * (i + 1 + 4) * U) < (1 - 1 / 2 ^ 52) * δ :=
    mul_lt_mul_of_pos_left hc (by norm_num)
  have h8 : (2 * (i : ℝ) ^ 2 + 9 * i + 5) ≤ (1 - 1 / 2 ^ 52) * (2 * ((i : ℝ) + 1) * (i + 1 + 4)) := by
    have : (i : ℝ) * i ≤ 2 ^ 20 * i := mul_le_mul_of_nonneg_right hir hi0
    norm_num at this ⊢
    nlinarith
  have h9 := mul_le_mul_of_nonneg_right h8 hU0
  have h10 : (1 - 1 / 2 ^ 52) * δ ≤ δ - eps α * δ := by linarith
  nlinarith

/-- The sum of the storage in rounded arithmetic, from the i-th front on. -/
theorem massBalGo_rounded {cum : List α} {D : ℝ} (hD : 0 ≤ D) :
    ∀ {l : List (Front α)} {sum v : α} {S : ℝ} {i : Nat}, i + l.length ≤ 2 ^ 20 →
    (∀ f ∈ l, 0 ≤ val f.theta ∧ val f.theta ≤ 1 ∧ |val f.depth - layerTop (cum.map val) f.layer| ≤ D) →
    |val sum - S| ≤ 2 * i * (i + 4) * (eps α * D + tiny α) → |S| ≤ i * D → massBalGo cum sum l = .ok v →
    |val v - (S + mass (cum.map val) (l.map frontVal))| ≤
      2 * ((i + l.length : Nat) : ℝ) * (((i + l.length : Nat) : ℝ) + 4) * (eps α * D + tiny α)
  | [], sum, v, S, i, _, _, hs, _, h => by
    simp only [massBalGo, Except.ok.injEq] at h
    subst h
    simpa [mass] using hs
  | f :: t, sum, v, S, i, hn, hf, hs, hS, h => by
    rw [List.length_cons] at hn
    obtain ⟨f1, f2, f4⟩ := hf f (by simp)
    have ft : ∀ g ∈ t, 0 ≤ val g.theta ∧ val g.theta ≤ 1 ∧ |val g.depth - layerTop (cum.map val) g.layer| ≤ D :=
      fun g hg => hf g (by simp [hg])
    have hlen : i + 1 + t.length = i + (f :: t).length := by rw [List.length_cons]; omega
    unfold massBalGo at h
    simp only [bind_ok_iff, idxPred_ok_iff] at h
    obtain ⟨b, ⟨hb1, hb2⟩, h⟩ := h
    have htop : layerTop (cum.map val) f.layer = val b := by
      simp only [layerTop, List.getD_eq_getElem?_getD, List.getElem?_map, hb2, Option.map_some, Option.getD_some]
    rw [htop] at f4
    have go : ∀ {p : α} {e : ℝ}, massBalGo cum (sum + p) t = .ok v → |val p - e| ≤ 4 * (eps α * D + tiny α) → |e| ≤ D →
        mass (cum.map val) ((f :: t).map frontVal) = e + mass (cum.map val) (t.map frontVal) →
        |val v - (S + mass (cum.map val) ((f :: t).map frontVal))| ≤
          2 * ((i + (f :: t).length : Nat) : ℝ) * (((i + (f :: t).length : Nat) : ℝ) + 4) * (eps α * D + tiny α) := by
      intro p e h hp he hm
      obtain ⟨s1, s2⟩ := sum_err (s' := val (sum + p)) (by omega) hD hs hp hS he (add_err _ _)
      have := massBalGo_rounded hD (i := i + 1) (by omega) ft s1 s2 h
      rw [hlen] at this
      rw [hm, ← add_assoc]
      exact this
    have hth : |val f.theta| ≤ 1 := by rw [abs_of_nonneg f1]; exact f2
    have hmul1 : |(val f.depth - val b) * val f.theta| ≤ D := by
      rw [abs_mul]
      calc _ ≤ D * 1 := mul_le_mul f4 hth (abs_nonneg _) hD
        _ = D := mul_one _
    have hself : |val f.theta - val f.theta| ≤ eps α * |val f.theta| := by
      rw [sub_self, abs_zero]; exact _root_.mul_nonneg eps_nonneg (abs_nonneg _)
    cases t with
    | nil =>
      simp only at h
      refine go h (e := (val f.depth - val b) * val f.theta) ?_ hmul1 ?_
      · have := mul_err f.theta (f.depth - b)
        rw [mul_comm] at this
        exact term_err hD (sub_err _ _) f4 hself hth this
      · simp only [List.map_cons, List.map_nil, mass, slab, frontVal, htop]
        ring
    | cons n t =>
      simp only at h
      obtain ⟨n1, n2, _⟩ := ft n (by simp)
      split at h
      · rename_i hl
        have hdiff : |val f.theta - val n.theta| ≤ 1 := by rw [abs_le]; constructor <;> linarith
        refine go h (e := (val f.depth - val b) * (val f.theta - val n.theta)) ?_ ?_ ?_
        · exact term_err hD (sub_err _ _) f4 (sub_err _ _) hdiff (mul_err _ _)
        · rw [abs_mul]
          calc _ ≤ D * 1 := mul_le_mul f4 hdiff (abs_nonneg _) hD
            _ = D := mul_one _
        · simp only [List.map_cons, mass, slab, frontVal, htop, hl, if_true]
      · rename_i hl
        refine go h (e := (val f.depth - val b) * val f.theta) ?_ hmul1 ?_
        · exact term_err hD (sub_err _ _) f4 hself hth (mul_err _ _)
        · simp only [List.map_cons, mass, slab, frontVal, htop, if_neg hl]

end LGAR
