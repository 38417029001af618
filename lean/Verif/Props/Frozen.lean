import Verif.Lemmas.Safe
import Verif.Num.Real
import Verif.Spec.Samples
/-
Frozen-soil factors (C27).
-/
set_option linter.unusedSectionVars false
attribute [-instance] Rat.instOfScientific
namespace LGAR

section Exact
variable {K : Type} [Field K] [LinearOrder K] [IsStrictOrderedRing K] [CMath K] [LawfulNum K]

theorem frozenCells_inv {b : K} : ∀ {cells : List (K × K)} {sum sum' : K} {n n' : Nat} {rest : List (K × K)},
    frozenCells b sum n cells = .ok (sum', n', rest) →
    ∃ pre, cells = pre ++ rest ∧ sum' = sum + (pre.map fun c => c.2).sum ∧ n' = n + pre.length ∧ (∀ c ∈ pre, c.1 ≤ b) ∧
      ∀ c t, rest = c :: t → b < c.1
  | [], _, _, _, _, _, h => by simp [frozenCells] at h
  | (z, t) :: cells, sum, sum', n, n', rest, h => by
    unfold frozenCells at h
    split at h
    · rename_i hz
      split at h
      · rename_i he
        simp only [Except.ok.injEq, Prod.mk.injEq] at h
        obtain ⟨rfl, rfl, rfl⟩ := h
        have : cells = [] := by simpa using he
        subst this
        exact ⟨[(z, t)], by simp, by simp, by simp, by simpa using hz, by simp⟩
      · obtain ⟨pre, h1, h2, h3, h4, h5⟩ := frozenCells_inv h
        refine ⟨(z, t) :: pre, by simp [h1], by simp [h2]; ring, by simp [h3]; omega, ?_, h5⟩
        intro c hc
        rcases List.mem_cons.mp hc with rfl | hc
        · exact hz
        · exact h4 c hc
    · rename_i hz
      simp only [Except.ok.injEq, Prod.mk.injEq] at h
      obtain ⟨rfl, rfl, rfl⟩ := h
      refine ⟨[], by simp, by simp, by simp, by simp, ?_⟩
      intro c t' e
      simp only [List.cons.injEq] at e
      rw [← e.1]; exact not_le.mp hz

/-- The factor that belongs to a mean temperature. -/
def factorFor (t : K) : K := max (min (CMath.exp (-10 * (273.15 - t))) 1) 0.05

/-- Mean temperature of the cells between the depths `a` (excluded; `none`: the surface) and `b` (included). -/
def meanBetween (cells : List (K × K)) (a : Option K) (b : K) : K :=
  let sel := cells.filter fun c => decide ((∀ x, a = some x → x < c.1) ∧ c.1 ≤ b)
  (sel.map fun c => c.2).sum / sel.length

theorem frozenFactorOf_bounds (t : K) : 0.05 ≤ frozenFactorOf t ∧ frozenFactorOf t ≤ 1 := by
  unfold frozenFactorOf
  rw [fmax_eq, fmin_eq]
  exact ⟨le_max_right _ _, max_le (min_le_right _ _) (by norm_num)⟩

theorem frozenFactorOf_eq (t : K) : frozenFactorOf t = factorFor t := by
  unfold frozenFactorOf factorFor
  rw [fmax_eq, fmin_eq]
  norm_num

theorem frozenLayers_bounds : ∀ {bs : List K} {cells : List (K × K)} {fs : List K}, frozenLayers bs cells = .ok fs →
    fs.length = bs.length ∧ ∀ f ∈ fs, 0.05 ≤ f ∧ f ≤ 1
  | [], _, fs, h => by simp [frozenLayers] at h; subst h; simp
  | b :: bs, cells, fs, h => by
    unfold frozenLayers at h
    simp only [bind_ok_iff, Prod.exists, cassert_ok_iff, pure_eq_ok, Except.ok.injEq] at h
    obtain ⟨sum, n, rest, _, _, _, t, _, fs', hfs, rfl⟩ := h
    obtain ⟨ih1, ih2⟩ := frozenLayers_bounds hfs
    refine ⟨by simp [ih1], fun f hf => ?_⟩
    rcases List.mem_cons.mp hf with rfl | hf
    · exact frozenFactorOf_bounds t
    · exact ih2 f hf

/-- C27: if the computation returns, every layer has exactly one factor, between 0.05 and 1; entry 0 is as before. -/
theorem C27_bounds (cum : List K) (cells : List (K × K)) (old fs : List K) (hold : old ≠ [])
    (h : frozenFactor cum cells old = .ok fs) :
    fs.length = cum.length - 1 + 1 ∧ fs.head? = old.head? ∧ ∀ f ∈ fs.drop 1, 0.05 ≤ f ∧ f ≤ 1 := by
  unfold frozenFactor at h
  simp only [bind_ok_iff, pure_eq_ok, Except.ok.injEq] at h
  obtain ⟨r, hr, rfl⟩ := h
  obtain ⟨h1, h2⟩ := frozenLayers_bounds hr
  cases old with
  | nil => exact absurd rfl hold
  | cons o os =>
    refine ⟨by simp [h1], by simp, fun f hf => h2 f (by simpa using hf)⟩

theorem filter_split {pre rest : List (K × K)} {a : Option K} {b : K} (h1 : ∀ c ∈ pre, c.1 ≤ b)
    (h2 : ∀ c ∈ pre, ∀ x, a = some x → x < c.1) (h3 : ∀ c ∈ rest, b < c.1) :
    (pre ++ rest).filter (fun c => decide ((∀ x, a = some x → x < c.1) ∧ c.1 ≤ b)) = pre := by
  rw [List.filter_append]
  have e1 : pre.filter (fun c => decide ((∀ x, a = some x → x < c.1) ∧ c.1 ≤ b)) = pre := by
    rw [List.filter_eq_self]
    intro c hc
    rw [decide_eq_true_eq]; exact ⟨h2 c hc, h1 c hc⟩
  have e2 : rest.filter (fun c => decide ((∀ x, a = some x → x < c.1) ∧ c.1 ≤ b)) = [] := by
    rw [List.filter_eq_nil_iff]
    intro c hc
    rw [decide_eq_true_eq]
    rintro ⟨_, h⟩
    exact absurd (h3 c hc) (not_lt.mpr h)
  rw [e1, e2, List.append_nil]

/-- The layers one after another: factor of each is that of the mean temperature of the cells inside. -/
theorem frozenLayers_mean (all : List (K × K)) : ∀ {bs : List K} {done cells : List (K × K)} {fs : List K} {a : Option K},
    all = done ++ cells → all.Pairwise (fun c d => c.1 ≤ d.1) → (a :: bs.map some).Pairwise (fun x y => ∀ u v, x = some u → y = some v → u ≤ v) →
    (∀ c ∈ done, ∃ x, a = some x ∧ c.1 ≤ x) → (∀ c ∈ cells, ∀ x, a = some x → x < c.1) → frozenLayers bs cells = .ok fs →
    ∀ (i : Nat) (b : K), bs[i]? = some b → fs[i]? = some (factorFor (meanBetween all ((a :: bs.map some).getD i none) b)) := by
  intro bs
  induction bs with
  | nil => intro done cells fs a _ _ _ _ _ _ i b hb; simp at hb
  | cons b bs ih =>
    intro done cells fs a hall hs hbs hd hc h
    unfold frozenLayers at h
    simp only [bind_ok_iff, Prod.exists, cassert_ok_iff, pure_eq_ok, Except.ok.injEq] at h
    obtain ⟨sum, n, rest, hcells, _, hn, t, ht, fs', hfs, rfl⟩ := h
    obtain ⟨pre, p1, p2, p3, p4, p5⟩ := frozenCells_inv hcells
    have hrest : ∀ c ∈ rest, b < c.1 := by
      intro c hcm
      cases hr : rest with
      | nil => rw [hr] at hcm; simp at hcm
      | cons d r =>
        have hb := p5 d r hr
        rw [hr] at hcm
        rcases List.mem_cons.mp hcm with rfl | hcm
        · exact hb
        · have hp : (d :: r).Pairwise (fun c d => c.1 ≤ d.1) := by
            rw [hall, p1, ← List.append_assoc, hr] at hs
            exact (List.pairwise_append.mp hs).2.1
          exact hb.trans_le ((List.pairwise_cons.mp hp).1 c hcm)
    have hpre : ∀ c ∈ pre, ∀ x, a = some x → x < c.1 := fun c hcm => hc c (by rw [p1]; simp [hcm])
    have hsel : all.filter (fun c => decide ((∀ x, a = some x → x < c.1) ∧ c.1 ≤ b)) = pre := by
      rw [hall, p1, List.filter_append, filter_split p4 hpre hrest]
      have : done.filter (fun c => decide ((∀ x, a = some x → x < c.1) ∧ c.1 ≤ b)) = [] := by
        rw [List.filter_eq_nil_iff]
        intro c hcm
        rw [decide_eq_true_eq]
        rintro ⟨h, _⟩
        obtain ⟨x, hx, hle⟩ := hd c hcm
        exact absurd (h x hx) (not_lt.mpr hle)
      rw [this, List.nil_append]
    intro i b' hb'
    cases i with
    | zero =>
      simp only [List.getElem?_cons_zero, Option.some.injEq, List.map_cons, List.getD_cons_zero] at hb' ⊢
      subst hb'
      rw [frozenFactorOf_eq]
      congr 1
      unfold meanBetween
      simp only [hsel]
      rw [cdiv_ok, ofInt_eq] at ht
      rw [ht.2, p2, p3]
      simp
    | succ i =>
      simp only [List.getElem?_cons_succ, List.map_cons, List.getD_cons_succ] at hb' ⊢
      refine ih (done := done ++ pre) (cells := rest) (by rw [hall, p1, List.append_assoc]) hs ?_ ?_ ?_ hfs i b' hb'
      · exact (List.pairwise_cons.mp hbs).2
      · intro c hcm
        rcases List.mem_append.mp hcm with hcm | hcm
        · obtain ⟨x, hx, hle⟩ := hd c hcm
          exact ⟨b, rfl, hle.trans ((List.pairwise_cons.mp hbs).1 (some b) (by simp) x b hx rfl)⟩
        · exact ⟨b, rfl, p4 c hcm⟩
      · intro c hcm x hx
        simp only [Option.some.injEq] at hx
        subst hx; exact hrest c hcm

/-- C27: with cells and layer bottoms in increasing order, the factor of layer i + 1 is exp(-10 (273.15 - T)), cut to [0.05, 1],
for the mean temperature T of the cells between the bottom of the layer above (excluded) and its own bottom (included). -/
theorem C27_layer_mean (cum : List K) (cells : List (K × K)) (old fs : List K) (i : Nat) (b : K) (hold : old ≠ [])
    (hcells : cells.Pairwise fun c d => c.1 ≤ d.1) (hcum : cum.Pairwise (· ≤ ·))
    (h : frozenFactor cum cells old = .ok fs) (hb : cum[i + 1]? = some b) :
    fs[i + 1]? = some (factorFor (meanBetween cells (if i = 0 then none else cum[i]?) b)) := by
  unfold frozenFactor at h
  simp only [bind_ok_iff, pure_eq_ok, Except.ok.injEq] at h
  obtain ⟨r, hr, rfl⟩ := h
  cases cum with
  | nil => simp at hb
  | cons c0 cum =>
    simp only [List.drop_succ_cons, List.drop_zero] at hr
    simp only [List.getElem?_cons_succ] at hb
    have key := frozenLayers_mean cells (bs := cum) (done := []) (cells := cells) (a := none) rfl hcells ?_ (by simp) (by simp) hr i b hb
    · cases old with
      | nil => exact absurd rfl hold
      | cons o os =>
        simp only [List.take_succ_cons, List.take_zero, List.singleton_append, List.getElem?_cons_succ]
        rw [key]
        congr 3
        cases i with
        | zero => simp
        | succ i =>
          simp only [List.getD_cons_succ, Nat.add_eq_zero_iff, Nat.one_ne_zero, and_false, if_false, List.getElem?_cons_succ]
          rw [List.getD_eq_getElem?_getD, List.getElem?_map]
          cases cum[i]? <;> rfl
    · refine List.pairwise_cons.mpr ⟨by simp, ?_⟩
      rw [List.pairwise_map]
      refine (List.pairwise_cons.mp hcum).2.imp ?_
      rintro x y hxy u v hu hv
      simp only [Option.some.injEq] at hu hv
      subst hu; subst hv; exact hxy

theorem spec_frozenCells {b : K} : ∀ {cells : List (K × K)} {sum : K} {n : Nat}, cells ≠ [] →
    Spec .all (frozenCells b sum n cells) (fun r => (∀ c, cells.getLast? = some c → b < c.1 → r.2.2.getLast? = some c))
  | [], _, _, h => absurd rfl h
  | (z, t) :: cells, sum, n, _ => by
    unfold frozenCells
    refine Spec.ite (fun hz => ?_) fun hz => ?_
    · refine Spec.ite (fun he => ?_) fun he => ?_
      · have : cells = [] := by simpa using he
        subst this
        show ∀ c, _
        intro c hc hlt
        simp only [List.getLast?_singleton, Option.some.injEq] at hc
        subst hc
        exact absurd hlt (not_lt.mpr hz)
      · have hne : cells ≠ [] := by simpa using he
        have ih := spec_frozenCells (b := b) (cells := cells) (sum := sum + t) (n := n + 1) hne
        cases hx : frozenCells b (sum + t) (n + 1) cells with
        | error e => rw [hx] at ih; exact ih
        | ok r =>
          rw [hx] at ih
          intro c hc hlt
          refine ih c ?_ hlt
          rw [List.getLast?_cons] at hc
          cases hl : cells.getLast? with
          | none => exact absurd (List.getLast?_eq_none_iff.mp hl) hne
          | some d => rw [hl] at hc; simpa using hc
    · show ∀ c, _
      intro c hc _
      exact hc

theorem spec_frozenLayers : ∀ {bs : List K} {cells : List (K × K)}, (∀ c, cells.getLast? = some c → ∀ b ∈ bs.dropLast, b < c.1) →
    cells ≠ [] → Spec .all (frozenLayers bs cells) (fun _ => True)
  | [], _, _, _ => trivial
  | b :: bs, cells, h, hne => by
    unfold frozenLayers
    refine Spec.bind _ (spec_frozenCells hne) fun r _ hr => ?_
    obtain ⟨sum, n, rest⟩ := r
    simp only
    refine Spec.bindT (spec_cassert fun _ => trivial) fun _ hn => ?_
    refine Spec.bindT (spec_cdiv fun _ => trivial) fun t _ => ?_
    cases bs with
    | nil => exact trivial
    | cons b' bs' =>
      cases hl : cells.getLast? with
      | none => exact absurd (List.getLast?_eq_none_iff.mp hl) hne
      | some c =>
        have hb := h c hl b (by simp)
        have hr' := hr c hl hb
        refine Spec.bindT (spec_frozenLayers (bs := b' :: bs') (cells := rest) ?_ ?_) fun fs _ => trivial
        · intro d hd x hx
          simp only at hr'
          rw [hr', Option.some.injEq] at hd
          subst hd
          exact h c hl x (by simp at hx ⊢; exact .inr hx)
        · intro e; simp only at hr'; rw [e] at hr'; simp at hr'

/-- C27, memory: if there is a temperature cell below the bottom of every layer but the last, the computation reads only
existing cells (it may still stop with an assertion, when a layer has no cell).  Missing: other temperature grids, where it
reads behind the end (C27_reads_outside). -/
theorem C27_safe_partial (cum : List K) (cells : List (K × K)) (old : List K) (c : K × K) (hc : cells.getLast? = some c)
    (h : ∀ b ∈ (cum.drop 1).dropLast, b < c.1) (why : String) : frozenFactor cum cells old ≠ .error (.ub why) := by
  have : Spec .all (frozenFactor cum cells old) (fun _ => True) := by
    unfold frozenFactor
    refine Spec.bindT (spec_frozenLayers (fun d hd b hb => ?_) (by intro e; simp [e] at hc)) fun _ _ => trivial
    rw [hc, Option.some.injEq] at hd
    subst hd; exact h b hb
  intro e
  rw [e] at this
  exact this (by simp [Err.bad])

/-- C27 fails otherwise: two layers (10 and 30 cm), temperatures at 5 and 10 cm.  The first layer takes both; for the second one
a third, non-existing cell is read. -/
theorem C27_reads_outside : ∃ why, frozenFactor (α := ℚ) [0, 10, 30] [(5, 280), (10, 280)] [1, 1, 1] = .error (.ub why) :=
  Sample.isUb_exists (by decide +kernel)

/-- With a third cell at 20 cm all is well. -/
example : frozenFactor (α := ℚ) [0, 10, 30] [(5, 274), (10, 274), (20, 260)] [1, 1, 1] = .ok [1, 1, 1/20] := by decide +kernel

end Exact

/-- C27: a layer whose cells are all at or above freezing has factor exactly 1 (real numbers). -/
theorem C27_warm (cum : List ℝ) (cells : List (ℝ × ℝ)) (old fs : List ℝ) (i : Nat) (b : ℝ) (hold : old ≠ [])
    (hcells : cells.Pairwise fun c d => c.1 ≤ d.1) (hcum : cum.Pairwise (· ≤ ·))
    (h : frozenFactor cum cells old = .ok fs) (hb : cum[i + 1]? = some b) (hT : 273.15 ≤ meanBetween cells (if i = 0 then none else cum[i]?) b) :
    fs[i + 1]? = some 1 := by
  rw [C27_layer_mean cum cells old fs i b hold hcells hcum h hb]
  congr 1
  unfold factorFor
  have h1 : (1 : ℝ) ≤ CMath.exp (-10 * (273.15 - meanBetween cells (if i = 0 then none else cum[i]?) b)) := by
    show (1 : ℝ) ≤ Real.exp _
    rw [Real.one_le_exp_iff]
    linarith
  rw [min_eq_right h1]
  norm_num

end LGAR
