import Verif.Spec.SoilFile
import Verif.Props.Init

/-! Lemmas on reading the soil parameter file from its text. -/

namespace LGAR

theorem textLines_ne {s l : List Char} (h : l ∈ textLines s) : l ≠ [] := by
  induction s generalizing l with
  | nil => simp [textLines] at h
  | cons c s ih =>
    unfold textLines at h
    split at h
    · rcases List.mem_cons.mp h with rfl | h
      · simp
      · exact ih h
    · split at h
      · simp at h; simp [h]
      · rename_i l' ls e
        rcases List.mem_cons.mp h with rfl | h
        · simp
        · exact ih (by rw [e]; exact List.mem_cons_of_mem _ h)

theorem textLines_nil {s : List Char} (h : textLines s = []) : s = [] := by
  cases s with
  | nil => rfl
  | cons c s =>
    unfold textLines at h
    split at h
    · simp at h
    · split at h <;> simp at h

/-- If the first line fits into the buffer, one `fgets` reads exactly that line. -/
theorem fgets_line {n : Nat} : ∀ {s l : List Char} {ls : List (List Char)}, textLines s = l :: ls → l.length ≤ n →
    (fgets n s).1 = l ∧ textLines (fgets n s).2 = ls ∧ (fgets n s).2.length < s.length := by
  induction n with
  | zero =>
    intro s l ls h hl
    have : l ≠ [] := textLines_ne (s := s) (by rw [h]; simp)
    exact absurd (List.length_eq_zero_iff.mp (by omega)) this
  | succ n ih =>
    intro s l ls h hl
    cases s with
    | nil => simp [textLines] at h
    | cons c s =>
      unfold textLines at h
      unfold fgets
      by_cases hc : c = '\n'
      · rw [if_pos hc] at h ⊢
        simp only [List.cons.injEq] at h
        exact ⟨h.1, h.2, by simp⟩
      · rw [if_neg hc] at h ⊢
        cases e : textLines s with
        | nil =>
          have := textLines_nil e
          subst this
          rw [e] at h
          simp only [List.cons.injEq] at h
          obtain ⟨rfl, rfl⟩ := h
          cases n <;> simp [fgets, textLines]
        | cons l' ls' =>
          rw [e] at h
          simp only [List.cons.injEq] at h
          obtain ⟨rfl, rfl⟩ := h
          obtain ⟨h1, h2, h3⟩ := ih e (by simpa using hl)
          exact ⟨by rw [h1], h2, by simp only [List.length_cons]; omega⟩

theorem fgetsGo_lines {n : Nat} : ∀ {k : Nat} {s : List Char}, s.length ≤ k → (∀ l ∈ textLines s, l.length ≤ n) →
    fgetsGo n k s = textLines s
  | 0, s, hk, _ => by
    have : s = [] := List.length_eq_zero_iff.mp (by omega)
    subst this
    rfl
  | k + 1, s, hk, hl => by
    unfold fgetsGo
    cases e : textLines s with
    | nil => rw [textLines_nil e]; rfl
    | cons l ls =>
      have hne : s.isEmpty = false := by
        cases s with
        | nil => simp [textLines] at e
        | cons _ _ => rfl
      rw [hne]
      simp only [Bool.false_eq_true, if_false]
      obtain ⟨h1, h2, h3⟩ := fgets_line e (hl l (by rw [e]; simp))
      rw [h1, fgetsGo_lines (by omega) (by rw [h2]; exact fun l' hl' => hl l' (by rw [e]; exact List.mem_cons_of_mem _ hl')), h2]

/-- One `fgets` on a line that does not fit stores its first `n` characters. -/
theorem fgets_long : ∀ {n : Nat} {a t : List Char}, '\n' ∉ a → a.length = n → fgets n (a ++ t) = (a, t)
  | 0, a, t, _, h => by
    have := List.length_eq_zero_iff.mp h
    subst this
    rfl
  | n + 1, [], t, _, h => by simp at h
  | n + 1, c :: a, t, hn, h => by
    simp only [List.mem_cons, not_or] at hn
    show fgets (n + 1) (c :: (a ++ t)) = _
    unfold fgets
    rw [if_neg (fun e => hn.1 e.symm), fgets_long hn.2 (by simpa using h)]

theorem textLines_line {a t : List Char} (h : '\n' ∉ a) : textLines (a ++ '\n' :: t) = (a ++ ['\n']) :: textLines t := by
  induction a with
  | nil => simp [textLines]
  | cons c a ih =>
    simp only [List.mem_cons, not_or] at h
    show textLines (c :: (a ++ '\n' :: t)) = _
    rw [textLines, if_neg (fun e => h.1 e.symm), ih h.2]
    rfl

/-- The first word of a line. -/
theorem wordsOf_cons : ∀ {s w : List Char} {ws : List (List Char)}, wordsOf s = w :: ws →
    ∃ bl rest, s = bl ++ (w ++ rest) ∧ (∀ c ∈ bl, isBlank c = true) ∧ w ≠ [] ∧ (∀ c ∈ w, isBlank c = false) ∧
      (∀ c, rest.head? = some c → isBlank c = true) ∧ wordsOf rest = ws
  | [], w, ws, h => by simp [wordsOf] at h
  | c :: s, w, ws, h => by
    unfold wordsOf at h
    split at h
    · rename_i hc
      obtain ⟨bl, rest, rfl, h1, h2⟩ := wordsOf_cons h
      exact ⟨c :: bl, rest, rfl, fun d hd => by rcases List.mem_cons.mp hd with rfl | hd; exacts [hc, h1 d hd], h2⟩
    · rename_i hc
      simp only [Bool.not_eq_true] at hc
      split at h
      · simp only [List.cons.injEq] at h
        obtain ⟨rfl, rfl⟩ := h
        exact ⟨[], [], rfl, by simp, by simp, by simpa using hc, by simp, rfl⟩
      · rename_i d t
        split at h
        · rename_i hd
          simp only [List.cons.injEq] at h
          obtain ⟨rfl, rfl⟩ := h
          exact ⟨[], d :: t, rfl, by simp, by simp, by simpa using hc, by simpa using hd, rfl⟩
        · rename_i hd
          simp only [Bool.not_eq_true] at hd
          cases e : wordsOf (d :: t) with
          | nil =>
            exfalso
            clear h
            induction t generalizing d with
            | nil => simp [wordsOf, hd] at e
            | cons x t ih =>
              unfold wordsOf at e
              rw [hd] at e
              simp only [Bool.false_eq_true, if_false] at e
              split at e
              · simp at e
              · split at e <;> simp at e
          | cons w' ws' =>
            rw [e] at h
            simp only [List.cons.injEq] at h
            obtain ⟨rfl, rfl⟩ := h
            obtain ⟨bl, rest, h0, h1, h2, h3, h4, h5⟩ := wordsOf_cons e
            cases bl with
            | cons b bl =>
              simp only [List.cons_append, List.cons.injEq] at h0
              have := h1 b (by simp)
              rw [← h0.1, hd] at this
              simp at this
            | nil =>
              refine ⟨[], rest, by rw [h0]; rfl, by simp, by simp, fun x hx => ?_, h4, h5⟩
              rcases List.mem_cons.mp hx with rfl | hx
              exacts [hc, h3 x hx]

variable {α : Type} [Zero α] [One α] [Add α] [Sub α] [Mul α] [Div α] [Neg α] [LT α] [DecidableLT α] [LE α] [DecidableLE α]
  [OfScientific α] [BEq α] [CMath α]

/-- `scanLine` on a line whose first word is `w`. -/
theorem scanLine_word {scanF : List Char → Option (α × List Char)} {sp w rest : List Char} (hsp : ∀ c ∈ sp, isBlank c = true)
    (hne : w ≠ []) (hw : ∀ c ∈ w, isBlank c = false) (hrest : ∀ c, rest.head? = some c → isBlank c = true) (r : SoilRec α) :
    scanLine scanF r (sp ++ (w ++ rest)) = scanFields scanF { r with name := w } rest := by
  have d1 : (sp ++ (w ++ rest)).dropWhile isBlank = w ++ rest := by
    rw [List.dropWhile_append_of_pos hsp]
    cases hn : w with
    | nil => exact absurd hn hne
    | cons a t =>
      have := hw a (by rw [hn]; simp)
      simp [this]
  have d2 : (w ++ rest).takeWhile (fun c => !isBlank c) = w := by
    rw [List.takeWhile_append_of_pos (fun c hc => by simp [hw c hc])]
    cases rest with
    | nil => simp
    | cons a t =>
      have := hrest a rfl
      simp [this]
  unfold scanLine
  rw [d1]
  have he : (w ++ rest).isEmpty = false := by
    cases hn : w with
    | nil => exact absurd hn hne
    | cons a t => rfl
  simp only [he, Bool.false_eq_true, if_false]
  rw [d2, List.drop_left]

/-- The five values of a record. -/
def SoilRec.five (r : SoilRec α) : Five α := ⟨r.thetaR, r.thetaE, r.alpha, r.n, r.Ksat⟩

theorem soilOfRec_five {wp : α} {old p : SoilProps α} {r : SoilRec α} (h : soilOfRec wp old r = .ok p) : p.five = r.five := by
  obtain ⟨h1, h2, h3, h4, h5, _⟩ := soilOfRec_fields h
  simp only [SoilProps.five, SoilRec.five, h1, h2, h3, h4, h5]

/-- The record carried from line to line. -/
def recAfter (scanF : List Char → Option (α × List Char)) (r : SoilRec α) (lines : List (List Char)) : SoilRec α :=
  lines.foldl (scanLine scanF) r

theorem readSoilsGo_rec {scanF : List Char → Option (α × List Char)} {wp : α} {numTypes : Int} :
    ∀ {lines : List (List Char)} {soil : Nat} {count : Int} {r : SoilRec α} {soils : List (SoilProps α)}
    {x : List (SoilProps α) × Int}, readSoilsGo scanF wp numTypes lines soil count r soils = .ok x →
      ∀ (i : Nat), i < lines.length → count + i < numTypes →
        ∃ p, x.1[soil + i]? = some p ∧ p.five = (recAfter scanF r (lines.take (i + 1))).five
  | [], soil, count, r, soils, x, h => by simp
  | line :: rest, soil, count, r, soils, x, h => by
    unfold readSoilsGo at h
    simp only [bind_ok_iff] at h
    obtain ⟨old, hold, p, hp, so, hso, h⟩ := h
    obtain ⟨hlt, rfl⟩ := setIdx_ok hso
    intro i hi hc
    split at h
    · simp only [pure_eq_ok, Except.ok.injEq] at h; subst h
      obtain rfl : i = 0 := by omega
      exact ⟨p, by simp [hlt], by rw [soilOfRec_five hp]; simp [recAfter]⟩
    · cases i with
      | zero =>
        refine ⟨p, ?_, by rw [soilOfRec_five hp]; simp [recAfter]⟩
        rw [Nat.add_zero, (readSoilsGo_get h).1 soil (by omega)]; simp [hlt]
      | succ i =>
        obtain ⟨p', h1, h2⟩ := readSoilsGo_rec h i (by simpa using hi) (by push_cast at hc ⊢; omega)
        exact ⟨p', by rw [show soil + (i + 1) = soil + 1 + i by omega]; exact h1, by rw [h2]; simp [recAfter]⟩

/-- After Initialize soil type `i` has the values of the record as it stands after line `i`. -/
theorem lgarInit_rec {env : Env α} {c : Cfg α} {s : State α} (h : lgarInit env c = .ok s) {file text : List Char}
    (hf : c.soilFile = some file) (ht : env.HasText file text) {i : Nat} (hi : 1 ≤ i) (hlen : i < (fgetsAll text).length)
    (hmax : (i : Int) ≤ s.p.numSoilTypes) :
    ∃ p, s.soils[i]? = some p ∧ p.five = (recAfter env.scanF env.junkRec (((fgetsAll text).drop 1).take i)).five := by
  obtain ⟨ts', file', fl', soils, cnt, thick', psi, dt, endt, wp, fc, res, ords, inv, giuh, soilZ, q, depth, vs, cs, _, a1, _, a2, hsoil,
    _, _, _, _, _, _, _, _, _, _, _, _, _, _, _, _, _, _, _, hs⟩ := lgarInit_inv h
  rw [hf, Option.some.injEq] at a1
  subst a1
  rw [ht, Option.some.injEq] at a2
  subst a2
  have e1 : s.soils = soils := by rw [hs]
  have e2 : s.p.numSoilTypes = c.numTypes.getD 15 := by rw [hs]
  obtain ⟨j, rfl⟩ : ∃ j, i = 1 + j := ⟨i - 1, by omega⟩
  obtain ⟨p, h1, h2⟩ := readSoilsGo_rec hsoil j (by simp; omega) (by rw [e2] at hmax; push_cast at hmax ⊢; omega)
  exact ⟨p, by rw [e1]; exact h1, by rw [h2, Nat.add_comm]⟩

theorem recAfter_succ {scanF : List Char → Option (α × List Char)} {r : SoilRec α} {lines : List (List Char)} {i : Nat} {l : List Char}
    (h : lines[i]? = some l) : recAfter scanF r (lines.take (i + 1)) = scanLine scanF (recAfter scanF r (lines.take i)) l := by
  rw [List.take_add_one, h]
  simp [recAfter]

/-- A line of a one-word name and five numerals: the record takes their values. -/
theorem scanLine_six {scanF : List Char → Option (α × List Char)} {conv : ℚ → α} (hs : ReadsDecimals scanF conv) {l : List Char}
    {v : Five ℚ} (h6 : (wordsOf l).length = 6) (hv : lineSays l = some v) (r : SoilRec α) : (scanLine scanF r l).five = v.conv conv := by
  match e : wordsOf l, h6 with
  | [w0, w1, w2, w3, w4, w5], _ =>
    unfold lineSays at hv
    rw [e] at hv
    simp only [List.reverse_cons, List.reverse_nil, List.nil_append, List.cons_append, Option.bind_eq_bind,
      Option.bind_eq_some_iff, Option.some.injEq] at hv
    obtain ⟨tr, h1, te, h2, a, h3, n, h4, k, h5, rfl⟩ := hv
    obtain ⟨b0, r0, rfl, p0, q0, s0, t0, e⟩ := wordsOf_cons e
    obtain ⟨b1, r1, rfl, p1, q1, s1, t1, e⟩ := wordsOf_cons e
    obtain ⟨b2, r2, rfl, p2, q2, s2, t2, e⟩ := wordsOf_cons e
    obtain ⟨b3, r3, rfl, p3, q3, s3, t3, e⟩ := wordsOf_cons e
    obtain ⟨b4, r4, rfl, p4, q4, s4, t4, e⟩ := wordsOf_cons e
    obtain ⟨b5, r5, rfl, p5, q5, s5, t5, e⟩ := wordsOf_cons e
    rw [scanLine_word p0 q0 s0 t0]
    unfold scanFields
    rw [hs.num b1 w1 _ tr p1 h1 s1 t1]
    simp only
    rw [hs.num b2 w2 _ te p2 h2 s2 t2]
    simp only
    rw [hs.num b3 w3 _ a p3 h3 s3 t3]
    simp only
    rw [hs.num b4 w4 _ n p4 h4 s4 t4]
    simp only
    rw [hs.num b5 w5 _ k p5 h5 s5 t5]
    rfl

/-- A line whose second word begins with a letter: none of the five values changes. -/
theorem scanLine_two {scanF : List Char → Option (α × List Char)} {conv : ℚ → α} (hs : ReadsDecimals scanF conv) {l w : List Char}
    {c : Char} {t : List Char} {ws : List (List Char)} (he : wordsOf l = w :: (c :: t) :: ws) (hc : isNumberFree c) (r : SoilRec α) :
    (scanLine scanF r l).five = r.five := by
  obtain ⟨b0, r0, rfl, p0, q0, s0, t0, e⟩ := wordsOf_cons he
  obtain ⟨b1, r1, rfl, p1, q1, s1, t1, e⟩ := wordsOf_cons e
  rw [scanLine_word p0 q0 s0 t0]
  unfold scanFields
  rw [show b1 ++ (c :: t ++ r1) = b1 ++ c :: (t ++ r1) by simp, hs.letter b1 _ c p1 hc]
  rfl

end LGAR
