import Verif.Lemmas.Rounding
import Verif.Lemmas.Giuh
/-
Rounding errors of the GIUH routing.
-/
set_option linter.unusedSectionVars false
namespace LGAR
open Rounded

variable {α : Type} [Add α] [Sub α] [Mul α] [Div α] [Neg α] [Zero α] [One α] [OfScientific α]
  [LT α] [LE α] [DecidableLT α] [DecidableLE α] [BEq α] [CMath α] [Rounded α]

/-- One entry of the queue. -/
theorem entry_err {a o r : α} {M : ℝ} (hM : 0 ≤ M) (ha : |val a| ≤ M) (hB : |val (a + o * r)| ≤ 2.01 * M) :
    |val (a + o * r) - (val a + val o * val r)| ≤ 6 * (eps α * M) + tiny α := by
  have h1 := add_err a (o * r)
  have h2 := mul_err o r
  have e0 := eps_nonneg (α := α)
  have e1 := eps_small (α := α)
  have hp : |val (o * r)| ≤ 3.1 * M := by
    have b1 : eps α * |val (a + o * r)| ≤ 1 / 1000 * |val (a + o * r)| := mul_le_mul_of_nonneg_right e1 (abs_nonneg _)
    have b2 := abs_le.mp (h1.trans b1)
    have b3 := abs_le.mp ha
    have b4 := abs_le.mp hB
    rw [abs_le]; constructor <;> linarith [b2.1, b2.2, b3.1, b3.2, b4.1, b4.2]
  have q1 := abs_le.mp (h1.trans (mul_le_mul_of_nonneg_left hB e0))
  have q2 := abs_le.mp (h2.trans (add_le_add_left (mul_le_mul_of_nonneg_left hp e0) _))
  have q0 : 0 ≤ eps α * M := _root_.mul_nonneg e0 hM
  rw [abs_le]; constructor <;> linarith [q1.1, q1.2, q2.1, q2.2]

theorem mix_err {r : α} {M : ℝ} (hM : 0 ≤ M) : ∀ {q os : List α}, q.length = os.length → (∀ a ∈ q, |val a| ≤ M) →
    (∀ a ∈ giuhMix r q os, |val a| ≤ M) →
    |sumVal (giuhMix r q os) - (sumVal q + sumVal os * val r)| ≤ q.length * (6 * (eps α * M) + tiny α)
  | [], [], _, _, _ => by simp [giuhMix, sumVal]
  | [], _ :: _, h, _, _ => by simp at h
  | _ :: _, [], h, _, _ => by simp at h
  | a :: q, o :: os, h, h1, h2 => by
    have ih := mix_err hM (q := q) (os := os) (by simpa using h) (fun b hb => h1 b (by simp [hb]))
      (fun b hb => h2 b (by simp only [giuhMix, List.zipWith_cons_cons, List.mem_cons]; right; exact hb))
    have he := entry_err (r := r) (o := o) hM (h1 a (by simp))
      ((h2 (a + o * r) (by simp [giuhMix])).trans (by linarith))
    simp only [giuhMix, sumVal, List.zipWith_cons_cons, List.map_cons, List.sum_cons, List.length_cons] at ih he ⊢
    push_cast
    have b1 := abs_le.mp ih
    have b2 := abs_le.mp he
    rw [abs_le]
    constructor <;> nlinarith [b1.1, b1.2, b2.1, b2.2]

/-- What holds between Updates. -/
structure Routed (M : ℝ) (k : Nat) (ord : List α) (s : State α) : Prop where
  ord_eq : s.giuhOrd = ord
  num : s.numGiuh = ord.length
  valid : s.p.invalidSoil = false
  queue : ∃ q, s.giuhQueue = q ++ [0] ∧ q.length = ord.length ∧ ∀ a ∈ q, |val a| ≤ M
  giuh : |val s.mb.volgiuh| ≤ M
  runoff : |val s.mb.volrunoff| ≤ M
  sum : |val s.mb.volgiuh + sumVal s.giuhQueue - val s.mb.volrunoff * sumVal ord| ≤
    k * (ord.length * (6 * (eps α * M) + tiny α) + (1 + |sumVal ord|) * (eps α * M))

theorem Routed.inputs {M : ℝ} {k : Nat} {ord : List α} {s s' : State α} (h : Routed M k ord s) (hi : Inputs s s') :
    Routed M k ord s' := by
  obtain ⟨pr, pet, temp, cal, rfl⟩ := hi
  exact ⟨h.ord_eq, h.num, h.valid, h.queue, h.giuh, h.runoff, h.sum⟩

theorem Routed.update {M : ℝ} {k : Nat} {ord : List α} {s s' : State α} {fuel : Nat} {sa : Bool} (h : Routed M k ord s)
    (hu : LGAR.update fuel sa s = .ok s') (hg : |val s'.mb.volgiuh| ≤ M) (hr : |val s'.mb.volrunoff| ≤ M)
    (hq : ∀ a ∈ s'.giuhQueue, |val a| ≤ M) : Routed M (k + 1) ord s' := by
  have hM : 0 ≤ M := le_trans (abs_nonneg _) hg
  rcases update_inv hu with ⟨hi, _⟩ | ⟨_, s1, d, v, u, h1, _, _, h2⟩
  · rw [h.valid] at hi; simp at hi
  obtain ⟨giuh, queue, hc, _, _, _, _, _, hqueue, _, hnum, hord, hpp, hmb, _⟩ := updatePost_inv h2
  obtain ⟨hpr, hpe, fs, soils, l, fc, pm, q', _, rfl, _⟩ := updatePre_inv h1
  simp only at hc hnum hord hpp hmb
  obtain ⟨q, hqe, hql, hqb⟩ := h.queue
  rw [h.num, h.ord_eq, hqe] at hc
  have hnum' : s'.numGiuh = ord.length := by rw [hnum, h.num]
  have hord' : s'.giuhOrd = ord := by rw [hord, h.ord_eq]
  have hvalid : s'.p.invalidSoil = false := by rw [hpp]; exact h.valid
  have hsum := h.sum
  rw [hqe] at hsum
  cases ord with
  | nil =>
    obtain ⟨why, e⟩ := giuhConv_zero u.runoffT [] (q ++ [0])
    simp only [List.length_nil] at hc
    rw [e] at hc; simp at hc
  | cons o os =>
    cases q with
    | nil => simp at hql
    | cons a t =>
      have htl : t.length = os.length := by simpa using hql
      have e := giuhConv_eq u.runoffT 0 a o t os htl
      rw [List.length_cons, ← htl, e, Except.ok.injEq, Prod.mk.injEq] at hc
      obtain ⟨rfl, rfl⟩ := hc
      have hg' : s'.mb.volgiuh = s.mb.volgiuh + (a + o * u.runoffT) := by rw [hmb]
      have hr' : s'.mb.volrunoff = s.mb.volrunoff + u.runoffT := by rw [hmb]
      have k1 := add_err s.mb.volgiuh (a + o * u.runoffT)
      have k2 := add_err s.mb.volrunoff u.runoffT
      rw [← hg'] at k1
      rw [← hr'] at k2
      have hout := addend_abs k1 h.giuh hg
      have he := entry_err (r := u.runoffT) (o := o) hM (hqb a (by simp)) hout
      rw [hqueue] at hq
      have hmix := mix_err (r := u.runoffT) hM htl (fun b hb => hqb b (by simp [hb]))
        (fun b hb => hq b (by simp [hb]))
      refine ⟨hord', hnum', hvalid, ⟨giuhMix u.runoffT t os ++ [0], by rw [hqueue]; simp, by
        simp [giuhMix, htl], fun b hb => hq b ?_⟩, hg, hr, ?_⟩
      · simp only [List.mem_append, List.mem_cons, List.not_mem_nil, or_false] at hb ⊢
        rcases hb with hb | hb
        · exact .inl hb
        · exact .inr (.inl hb)
      · rw [hqueue]
        have s1 : sumVal (giuhMix u.runoffT t os ++ [(0 : α), 0]) = sumVal (giuhMix u.runoffT t os) := by
          simp [sumVal, val_zero]
        have s2 : sumVal (a :: t ++ [(0 : α)]) = val a + sumVal t := by simp [sumVal, val_zero]
        have s3 : sumVal (o :: os) = val o + sumVal os := by simp [sumVal]
        rw [s2] at hsum
        rw [s1]
        rw [s3] at hsum ⊢
        set O := val o + sumVal os with hO
        have hE : 0 ≤ eps α * M := _root_.mul_nonneg eps_nonneg hM
        have c1 := abs_le.mp (k1.trans (eps_mul_le hg))
        have c2 : |val s'.mb.volrunoff * O - (val s.mb.volrunoff + val u.runoffT) * O| ≤ |O| * (eps α * M) := by
          rw [← sub_mul, abs_mul, mul_comm]
          exact mul_le_mul_of_nonneg_left (k2.trans (eps_mul_le hr)) (abs_nonneg _)
        have c2 := abs_le.mp c2
        have c3 := abs_le.mp he
        have c4 := abs_le.mp hmix
        have c5 := abs_le.mp hsum
        rw [htl] at c4
        simp only [List.length_cons] at c5 ⊢
        push_cast at c5 ⊢
        have hOe : val o * val u.runoffT + sumVal os * val u.runoffT = O * val u.runoffT := by rw [hO]; ring
        rw [add_mul] at c2
        have hT : ((os.length : ℝ) + 1) * (6 * (eps α * M) + tiny α) + (1 + |O|) * (eps α * M) =
            os.length * (6 * (eps α * M) + tiny α) + 6 * (eps α * M) + tiny α + eps α * M + |O| * (eps α * M) := by ring
        rw [add_mul (k : ℝ) 1, one_mul]
        set T := ((os.length : ℝ) + 1) * (6 * (eps α * M) + tiny α) + (1 + |O|) * (eps α * M) with hTd
        rw [abs_le]
        constructor <;> linarith [c1.1, c1.2, c2.1, c2.2, c3.1, c3.2, c4.1, c4.2, c5.1, c5.2]

theorem init_routed {env : Env α} {lines : List (List Char)} {s : State α} {M : ℝ} (hM : 0 ≤ M)
    (h : bmiInitialize env lines = .ok s) : Routed M 0 s.giuhOrd s := by
  obtain ⟨c, hc, h, _⟩ := bmiInitialize_inv h
  have hv := lgarInit_valid h
  obtain ⟨ts, file, fl, soils, cnt, thick, psi, dt, endt, wp, fc, res, ords, inv, giuh, soilZ, q, depth, vs, cs, _, _, _, _, _,
    hthick, _, _, hdt, _, _, _, hres, _, _, _, _, hq, _, hgeo, hhead, hm, hlen, _, hs⟩ := lgarInit_inv h
  have e1 : s.giuhOrd = giuh := by rw [hs]
  have e2 : s.numGiuh = giuh.length := by rw [hs]
  have e3 : s.giuhQueue = List.replicate (giuh.length + 1) 0 := by rw [hs]
  have e4 : s.mb.volgiuh = 0 := by rw [hs]
  have e5 : s.mb.volrunoff = 0 := by rw [hs]
  refine ⟨rfl, by rw [e1, e2], hv, ⟨List.replicate giuh.length 0, by rw [e3, List.replicate_succ'], by simp [e1], ?_⟩, ?_, ?_, ?_⟩
  · intro a ha
    rw [List.eq_of_mem_replicate ha, val_zero, abs_zero]; exact hM
  · rw [e4, val_zero, abs_zero]; exact hM
  · rw [e5, val_zero, abs_zero]; exact hM
  · rw [e3, e4, e5]
    simp [sumVal, val_zero]

end LGAR
