import Verif.Lemmas.Output
import Verif.Props.Table

/-!
# C84: what can be read from the two output files
-/
set_option linter.unusedSectionVars false
namespace LGAR

section Text

/-- Items with commas between them. -/
def joined : List (List Char) → List Char
  | [] => []
  | [x] => x
  | x :: y :: xs => x ++ ',' :: joined (y :: xs)

theorem csvItems_joined : ∀ {xs : List (List Char)}, xs ≠ [] → csvItems xs = joined xs ++ ['\n']
  | [], h => absurd rfl h
  | [x], _ => rfl
  | x :: y :: xs, _ => by
    rw [csvItems, csvItems_joined (by simp), joined]
    · simp
    · simp

theorem joined_split : ∀ {xs : List (List Char)}, xs ≠ [] → (∀ x ∈ xs, ',' ∉ x) → (joined xs).splitOn ',' = xs
  | [], h, _ => absurd rfl h
  | [x], _, h => by rw [joined, List.splitOn_eq_singleton (h x (by simp))]
  | x :: y :: xs, _, h => by
    rw [joined, List.splitOn_append_cons_of_beq _ _ (by simp), List.splitOn_eq_singleton (h x (by simp)),
      joined_split (by simp) (fun z hz => h z (by simp only [List.mem_cons] at hz ⊢; exact .inr hz))]
    rfl

theorem joined_mem {c : Char} (hc : c ≠ ',') : ∀ {xs : List (List Char)}, c ∈ joined xs → ∃ x ∈ xs, c ∈ x
  | [], h => by simp [joined] at h
  | [x], h => ⟨x, by simp, h⟩
  | x :: y :: xs, h => by
    rw [joined, List.mem_append, List.mem_cons] at h
    rcases h with h | rfl | h
    · exact ⟨x, by simp, h⟩
    · exact absurd rfl hc
    · obtain ⟨z, hz, h⟩ := joined_mem hc h
      exact ⟨z, List.mem_cons_of_mem _ hz, h⟩

theorem fileText_split : ∀ {ls : List (List Char)}, (∀ l ∈ ls, '\n' ∉ l) → (fileText ls).splitOn '\n' = ls ++ [[]]
  | [], _ => rfl
  | l :: ls, h => by
    rw [fileText, List.splitOn_append_cons_of_beq _ _ (by simp), List.splitOn_eq_singleton (h l (by simp)),
      fileText_split (fun x hx => h x (List.mem_cons_of_mem _ hx))]
    rfl

theorem linesOf_fileText {ls : List (List Char)} (h : ∀ l ∈ ls, '\n' ∉ l) : linesOf (fileText ls) = some ls := by
  unfold linesOf
  rw [fileText_split h]
  simp

theorem fileText_append (a b : List (List Char)) : fileText (a ++ b) = fileText a ++ fileText b := by
  induction a with
  | nil => rfl
  | cons x a ih => simp [fileText, ih]

theorem mapM_forall₂ {A B : Type} {f : A → Option B} {l : List A} {m : List B} (h : List.Forall₂ (fun a b => f a = some b) l m) :
    l.mapM f = some m := by
  induction h with
  | nil => rfl
  | cons h _ ih => simp [List.mapM_cons, h, ih]

theorem splitAt1_fst {c x : Char} : ∀ {l : List Char}, x ∈ (splitAt1 c l).1 → x ∈ l ∧ x ≠ c
  | [], h => by simp [splitAt1] at h
  | y :: l, h => by
    unfold splitAt1 at h
    by_cases e : y = c
    · simp [e] at h
    · simp only [beq_iff_eq, e, if_false, List.mem_cons] at h
      rcases h with rfl | h
      · exact ⟨by simp, e⟩
      · obtain ⟨h1, h2⟩ := splitAt1_fst h
        exact ⟨List.mem_cons_of_mem _ h1, h2⟩

theorem splitAt1_snd {c x : Char} : ∀ {l r : List Char}, (splitAt1 c l).2 = some r → x ∈ r → x ∈ l
  | [], r, h, _ => by simp [splitAt1] at h
  | y :: l, r, h, hx => by
    unfold splitAt1 at h
    by_cases e : y = c
    · simp only [e, beq_self_eq_true, if_true, Option.some.injEq] at h
      subst h; exact List.mem_cons_of_mem _ hx
    · simp only [beq_iff_eq, e, if_false] at h
      exact List.mem_cons_of_mem _ (splitAt1_snd h hx)

theorem cells_clean : ∀ (fuel : Nat) (l t : List Char), t ∈ cells fuel l → ',' ∉ t ∧ ∀ x ∈ t, x ∈ l
  | 0, l, t, h => by simp [cells] at h
  | fuel + 1, [], t, h => by simp [cells] at h
  | fuel + 1, c :: cs, t, h => by
    have hc : ∀ x ∈ (splitAt1 ',' (c :: cs)).1, x ∈ c :: cs ∧ x ≠ ',' := fun x hx => splitAt1_fst hx
    unfold cells at h
    cases hs : splitAt1 ',' (c :: cs) with
    | mk a r =>
      rw [hs] at hc
      simp only [hs] at h
      cases r with
      | none =>
        simp only [List.mem_singleton] at h
        subst h
        exact ⟨fun hx => (hc _ hx).2 rfl, fun x hx => (hc x hx).1⟩
      | some r =>
        simp only [List.mem_cons] at h
        rcases h with rfl | h
        · exact ⟨fun hx => (hc _ hx).2 rfl, fun x hx => (hc x hx).1⟩
        · obtain ⟨h1, h2⟩ := cells_clean fuel r t h
          exact ⟨h1, fun x hx => splitAt1_snd (by rw [hs]) (h2 x hx)⟩

theorem getline_clean {st st' : IStream} {old line : List Char} (ho : '\n' ∉ old) (h : getline st old = (st', line)) : '\n' ∉ line := by
  unfold getline at h
  have hc : ∀ x ∈ (splitAt1 '\n' st.rest).1, x ∈ st.rest ∧ x ≠ '\n' := fun x hx => splitAt1_fst hx
  split at h
  · simp only [Prod.mk.injEq] at h
    rw [← h.2]; exact ho
  · split at h <;> rename_i hs <;> simp only [Prod.mk.injEq] at h <;> obtain ⟨_, rfl⟩ := h <;> rw [hs] at hc
    · exact fun hx => (hc _ hx).2 rfl
    · simp
    · exact fun hx => (hc _ hx).2 rfl

end Text

section Forcing
variable {α : Type} [Add α] [Sub α] [Mul α] [Div α] [Neg α] [Zero α] [One α] [OfScientific α]
  [LT α] [LE α] [DecidableLT α] [DecidableLE α] [BEq α] [CMath α]

/-- No comma or newline in a time. -/
def CleanTimes (f : Forcing α) : Prop := ∀ t ∈ f.time, ',' ∉ t ∧ '\n' ∉ t

theorem forcingLine_clean {env : Env α} {f f' : Forcing α} {line : List Char} (hf : CleanTimes f) (hl : '\n' ∉ line)
    (h : forcingLine env f line = .ok f') : CleanTimes f' := by
  have key : ∀ t r, cells (line.length + 1) line = t :: r → ∀ u ∈ f.time ++ [t], ',' ∉ u ∧ '\n' ∉ u := by
    intro t r e u hu
    rw [List.mem_append, List.mem_singleton] at hu
    rcases hu with hu | rfl
    · exact hf u hu
    · obtain ⟨a, b⟩ := cells_clean (line.length + 1) line u (by rw [e]; simp)
      exact ⟨a, fun hx => hl (b _ hx)⟩
  unfold forcingLine at h
  split at h <;> rename_i e
  · simp only [Except.ok.injEq] at h; subst h; exact hf
  · simp only [Except.ok.injEq] at h; subst h; exact key _ _ e
  · simp only [bind_ok_iff, pure_eq_ok, Except.ok.injEq] at h
    obtain ⟨_, _, rfl⟩ := h; exact key _ _ e
  · simp only [bind_ok_iff, pure_eq_ok, Except.ok.injEq] at h
    obtain ⟨_, _, _, _, rfl⟩ := h; exact key _ _ e

theorem forcingLoop_clean {env : Env α} : ∀ {fuel : Nat} {st : IStream} {line : List Char} {f f' : Forcing α}, CleanTimes f →
    '\n' ∉ line → forcingLoop env fuel st line f = .ok f' → CleanTimes f'
  | 0, _, _, _, _, _, _, h => by simp [forcingLoop] at h
  | fuel + 1, st, line, f, f', hf, hl, h => by
    unfold forcingLoop at h
    split at h
    · simp only [Except.ok.injEq] at h; subst h; exact hf
    · cases hg : getline st line with
      | mk st' line' =>
        simp only [hg, bind_ok_iff] at h
        obtain ⟨f1, h1, h2⟩ := h
        have hl' := getline_clean hl hg
        exact forcingLoop_clean (forcingLine_clean hf hl' h1) hl' h2

theorem readForcing_clean {env : Env α} {text : List Char} {f : Forcing α} (h : readForcing env text = .ok f) : CleanTimes f := by
  unfold readForcing at h
  cases hg : getline { rest := text } [] with
  | mk st line =>
    simp only [hg] at h
    exact forcingLoop_clean (by intro t ht; simp at ht) (getline_clean (by simp) hg) h

end Forcing

section Exact
variable {K : Type} [Field K] [LinearOrder K] [IsStrictOrderedRing K] [CMath K] [LawfulNum K] [CPrint K] [LawfulPrint K]

theorem numChar_not {c : Char} (h : numChar c) : c ≠ ',' ∧ c ≠ '\n' ∧ c ≠ '|' ∧ c ≠ '(' ∧ c ≠ ')' ∧ c ≠ '[' ∧ c ≠ ']' := by
  have key : ∀ d : Char, ¬ ('0' ≤ d ∧ d ≤ '9') → d ≠ '-' → d ≠ '.' → c ≠ d := by
    rintro d h1 h2 h3 rfl
    rcases h with h | h | h
    exacts [h1 h, h2 h, h3 h]
  refine ⟨?_, ?_, ?_, ?_, ?_, ?_, ?_⟩ <;> exact key _ (by decide) (by decide) (by decide)

/-- A printed number is read back up to half a unit of the last printed decimal. -/
def Shown (p : Nat) (x y : K) : Prop := |y - x| ≤ 1 / 2 / 10 ^ p

/-- What data_layers.csv shows of a front: depth and capillary head in mm and moisture, to 6 decimals. -/
structure FrontShown (c : Front K) (r : FrontRec K) : Prop where
  depth : Shown 6 (c.depth * 10) r.depthMm
  theta : Shown 6 c.theta r.theta
  layer : r.layer = c.layer
  front : r.front = c.front
  psi : Shown 6 (c.psi * 10) r.psiMm

theorem frontText_clean (c : Front K) {x : Char} (hx : x ∈ frontText c) : x ≠ '\n' ∧ x ≠ '|' ∧ x ≠ '[' ∧ x ≠ ']' := by
  have hn : ∀ {y : Char}, numChar y → y ≠ '\n' ∧ y ≠ '|' ∧ y ≠ '[' ∧ y ≠ ']' := fun h =>
    ⟨(numChar_not h).2.1, (numChar_not h).2.2.1, (numChar_not h).2.2.2.2.2.1, (numChar_not h).2.2.2.2.2.2⟩
  unfold frontText at hx
  simp only [List.mem_cons, List.mem_append, List.not_mem_nil, or_false] at hx
  rcases hx with rfl | hx | rfl | hx | rfl | hx | rfl | hx | rfl | hx | rfl
  · decide
  · exact hn (LawfulPrint.chars _ _ _ hx)
  · decide
  · exact hn (LawfulPrint.chars _ _ _ hx)
  · decide
  · exact hn (.inl (natChars_chars hx))
  · decide
  · exact hn (intChars_chars hx)
  · decide
  · exact hn (LawfulPrint.chars _ _ _ hx)
  · decide

theorem frontText_read (c : Front K) : ∃ r : FrontRec K, readFront (frontText c) = some r ∧ FrontShown c r := by
  obtain ⟨d, hd, bd⟩ := LawfulPrint.read 6 (c.depth * 10.0) (by omega)
  obtain ⟨t, ht, bt⟩ := LawfulPrint.read 6 c.theta (by omega)
  obtain ⟨p, hp, bp⟩ := LawfulPrint.read 6 (c.psi * 10.0) (by omega)
  have l10 : (10.0 : K) = 10 := by norm_num
  rw [l10] at bd bp
  refine ⟨⟨d, t, c.layer, c.front, p⟩, ?_, ⟨bd, bt, rfl, rfl, bp⟩⟩
  have hno : ∀ (q : Nat) (x : K), ',' ∉ CPrint.fixed q x := fun q x h => (numChar_not (LawfulPrint.chars q x _ h)).1 rfl
  have e : inside '(' ')' (frontText c) = some (joined [CPrint.fixed 6 (c.depth * 10.0), CPrint.fixed 6 c.theta, natChars c.layer,
      intChars c.front, CPrint.fixed 6 (c.psi * 10.0)]) := by
    have : frontText c = '(' :: (joined [CPrint.fixed 6 (c.depth * 10.0), CPrint.fixed 6 c.theta, natChars c.layer,
      intChars c.front, CPrint.fixed 6 (c.psi * 10.0)] ++ [')']) := by
      simp [frontText, joined]
    rw [this]
    simp [inside]
  unfold readFront
  rw [e, Option.bind_some, joined_split (by simp)]
  · simp only [hd, ht, hp, natChars_int, intChars_read]
    rfl
  · intro x hx
    simp only [List.mem_cons, List.not_mem_nil, or_false] at hx
    rcases hx with rfl | rfl | rfl | rfl | rfl
    · exact hno _ _
    · exact hno _ _
    · exact fun h => (numChar_not (.inl (natChars_chars h))).1 rfl
    · exact fun h => (numChar_not (intChars_chars h)).1 rfl
    · exact hno _ _

theorem fronts_split : ∀ (c : Front K) (cs : List (Front K)),
    (frontText c ++ barFronts cs).splitOn '|' = frontText c :: cs.map frontText
  | c, [] => by
    rw [barFronts, List.append_nil, List.splitOn_eq_singleton (fun h => (frontText_clean c h).2.1 rfl)]
    rfl
  | c, d :: cs => by
    rw [barFronts, List.splitOn_append_cons_of_beq _ _ (by simp), List.splitOn_eq_singleton (fun h => (frontText_clean c h).2.1 rfl),
      fronts_split d cs]
    rfl

theorem barFronts_mem {x : Char} (hx : x ≠ '|') : ∀ {cs : List (Front K)}, x ∈ barFronts cs → ∃ c ∈ cs, x ∈ frontText c
  | [], h => by simp [barFronts] at h
  | c :: cs, h => by
    rw [barFronts, List.mem_cons, List.mem_append] at h
    rcases h with rfl | h | h
    · exact absurd rfl hx
    · exact ⟨c, by simp, h⟩
    · obtain ⟨d, hd, h⟩ := barFronts_mem hx h
      exact ⟨d, List.mem_cons_of_mem _ hd, h⟩

/-- A line of fronts and what is read from it. -/
theorem writeState_read {l : List (Front K)} (hne : l ≠ []) : ∃ line, writeState l = line ++ ['\n'] ∧ '\n' ∉ line ∧
    ∃ recs : List (FrontRec K), readFronts line = some recs ∧ List.Forall₂ FrontShown l recs := by
  obtain ⟨c, cs, rfl⟩ := List.exists_cons_of_ne_nil hne
  refine ⟨'[' :: (frontText c ++ barFronts cs ++ [']']), by simp [writeState], ?_, ?_⟩
  · intro h
    simp only [List.mem_cons, List.mem_append, List.not_mem_nil, or_false] at h
    rcases h with h | (h | h) | h
    · simp at h
    · exact (frontText_clean c h).1 rfl
    · obtain ⟨d, _, h⟩ := barFronts_mem (by decide) h
      exact (frontText_clean d h).1 rfl
    · simp at h
  · have e : inside '[' ']' ('[' :: (frontText c ++ barFronts cs ++ [']'])) = some (frontText c ++ barFronts cs) := by
      simp [inside]
    have key : ∀ l : List (Front K), ∃ recs : List (FrontRec K), List.Forall₂ (fun a b => readFront a = some b) (l.map frontText) recs ∧
        List.Forall₂ FrontShown l recs := by
      intro l
      induction l with
      | nil => exact ⟨[], .nil, .nil⟩
      | cons a l ih =>
        obtain ⟨r, h1, h2⟩ := frontText_read a
        obtain ⟨rs, h3, h4⟩ := ih
        exact ⟨r :: rs, .cons h1 h3, .cons h2 h4⟩
    obtain ⟨recs, h1, h2⟩ := key (c :: cs)
    refine ⟨recs, ?_, h2⟩
    unfold readFronts
    rw [e, Option.bind_some, fronts_split]
    exact mapM_forall₂ h1


/-- What data_variables.csv shows of a row: its time, and every number to 15 decimals. -/
def RowShown (r : Row K) (t : List Char × List K) : Prop :=
  t.1 = r.time ∧ List.Forall₂ (fun v y => ∃ x, v = .dbls [x] ∧ Shown 15 x y) r.vals t.2

theorem numbers_read : ∀ xs : List K, ∃ ys : List K, List.Forall₂ (fun a b => readDec a = some b) (xs.map (CPrint.fixed 15)) ys ∧
    List.Forall₂ (Shown 15) xs ys
  | [] => ⟨[], .nil, .nil⟩
  | x :: xs => by
    obtain ⟨y, h1, h2⟩ := LawfulPrint.read 15 x (by omega)
    obtain ⟨ys, h3, h4⟩ := numbers_read xs
    exact ⟨y :: ys, .cons h1 h3, .cons h2 h4⟩

/-- The numbers of a row. -/
def rowNums (s : State K) : List K :=
  [s.conv.precip, s.conv.pet, s.conv.aet, s.conv.runoff, s.conv.giuh, s.conv.storage, s.conv.Q, s.conv.infil, s.conv.rech,
    s.conv.Qgw, s.conv.massBalance]

theorem rowText_eq {r : Row K} {s : State K} (h : RowOf r s) :
    rowText r = .ok ((r.time ++ ',' :: joined ((rowNums s).map (CPrint.fixed 15))) ++ ['\n']) := by
  unfold RowOf at h
  have e : r.vals.mapM Data.value = (Except.ok (rowNums s) : Res (List K)) := by rw [h]; rfl
  unfold rowText
  rw [e, ok_bind, csvItems_joined (by simp [rowNums])]
  simp [pure_eq_ok]

theorem rowText_read {r : Row K} {s : State K} (h : RowOf r s) (h1 : ',' ∉ r.time) (h2 : '\n' ∉ r.time) :
    '\n' ∉ r.time ++ ',' :: joined ((rowNums s).map (CPrint.fixed 15)) ∧
      ∃ t, readRow (r.time ++ ',' :: joined ((rowNums s).map (CPrint.fixed 15))) = some t ∧ RowShown r t := by
  have hno : ∀ x ∈ (rowNums s).map (CPrint.fixed 15), ',' ∉ x ∧ '\n' ∉ x := by
    intro x hx
    obtain ⟨y, _, rfl⟩ := List.mem_map.mp hx
    exact ⟨fun h => (numChar_not (LawfulPrint.chars _ _ _ h)).1 rfl, fun h => (numChar_not (LawfulPrint.chars _ _ _ h)).2.1 rfl⟩
  constructor
  · intro hx
    rw [List.mem_append, List.mem_cons] at hx
    rcases hx with hx | hx | hx
    · exact h2 hx
    · simp at hx
    · obtain ⟨x, hx1, hx2⟩ := joined_mem (by decide) hx
      exact (hno x hx1).2 hx2
  · obtain ⟨ys, k1, k2⟩ := numbers_read (rowNums s)
    refine ⟨(r.time, ys), ?_, rfl, ?_⟩
    · unfold readRow
      rw [List.splitOn_append_cons_of_beq _ _ (by simp), List.splitOn_eq_singleton h1,
        joined_split (by simp [rowNums]) (fun x hx => (hno x hx).1)]
      simp only [List.singleton_append]
      rw [mapM_forall₂ k1]
      rfl
    · have hv : r.vals = (rowNums s).map fun x => .dbls [x] := h
      rw [hv, List.forall₂_map_left_iff]
      exact k2.imp fun x y hxy => ⟨x, rfl, hxy⟩

/-- The line before the fronts of step `i`: the step number and the time. -/
def StepLine (i : Nat) (t line : List Char) : Prop :=
  ∃ n, readNat n = some i ∧ line = "# Timestep = ".toList ++ (n ++ (", ".toList ++ (t ++ [' '])))

/-- A line from which the fronts of `s` can be read. -/
def FrontsLine (s : State K) (line : List Char) : Prop :=
  ∃ recs : List (FrontRec K), readFronts line = some recs ∧ List.Forall₂ FrontShown s.head recs

/-- The lines of data_layers.csv from step `i`: two for each row. -/
inductive LayerLines : Nat → List (Row K) → List (State K) → List (List Char) → Prop
  | nil (i : Nat) : LayerLines i [] [] []
  | cons {i : Nat} {r : Row K} {rows : List (Row K)} {x : State K} {hist : List (State K)} {a b : List Char}
      {ls : List (List Char)} : StepLine i r.time a → FrontsLine x b → LayerLines (i + 1) rows hist ls →
      LayerLines i (r :: rows) (x :: hist) (a :: b :: ls)

theorem step_text {p1 n p2 t p3 w fl : List Char} {ll : List (List Char)} (h : w = fl ++ ['\n']) (e : p3 = [' ', '\n']) :
    p1 ++ (n ++ (p2 ++ (t ++ p3))) ++ (w ++ fileText ll) = fileText ((p1 ++ (n ++ (p2 ++ (t ++ [' '])))) :: fl :: ll) := by
  subst h e
  simp [fileText]

theorem layers_text {l : List (Front K)} {i : Nat} {t fl : List Char} {ll : List (List Char)} (h : writeState l = fl ++ ['\n']) :
    stepText i t ++ (writeState l ++ fileText ll) =
      fileText (("# Timestep = ".toList ++ (natChars i ++ (", ".toList ++ (t ++ [' '])))) :: fl :: ll) :=
  step_text h (by decide +kernel)

theorem filesLoop_spec {fuel : Nat} {sa : Bool} {f : Forcing K} {env : Env K} {lines : List (List Char)} {s0 : State K}
    (h0 : bmiInitialize env lines = .ok s0) (hf : CleanTimes f) :
    ∀ {n i : Nat} {s s' : State K} {hist : List (State K)} {data layers : List Char}, Run s0 hist s →
      filesLoop fuel sa f n i s = .ok (s', data, layers) →
      ∃ rows hist' dl ll, driverLoop fuel sa f n i s = .ok (s', rows) ∧ Run s0 (hist ++ hist') s' ∧ List.Forall₂ RowOf rows hist' ∧
        data = fileText dl ∧ (∀ l ∈ dl, '\n' ∉ l) ∧
        (∃ tab, List.Forall₂ (fun a b => readRow a = some b) dl tab ∧ List.Forall₂ RowShown rows tab) ∧
        layers = fileText ll ∧ (∀ l ∈ ll, '\n' ∉ l) ∧ LayerLines i rows hist' ll
  | 0, i, s, s', hist, data, layers, hr, h => by
    simp only [filesLoop, Except.ok.injEq, Prod.mk.injEq] at h
    obtain ⟨rfl, rfl, rfl⟩ := h
    exact ⟨[], [], [], [], rfl, by simpa using hr, .nil, rfl, by simp, ⟨[], .nil, .nil⟩, rfl, by simp, .nil _⟩
  | n + 1, i, s, s', hist, data, layers, hr, h => by
    simp only [filesLoop, bind_ok_iff, Prod.exists, pure_eq_ok, Except.ok.injEq, Prod.mk.injEq] at h
    obtain ⟨s1, r, h1, line, hl, s2, d2, l2, h2, rfl, rfl, rfl⟩ := h
    have h1' := h1
    unfold driverStep at h1
    simp only [bind_ok_iff, idx_ok_iff, set_precip, set_pet, Except.ok.injEq, exists_eq_left', pure_eq_ok, Prod.mk.injEq] at h1
    obtain ⟨p, hp, e, he, t, ht, s1', hu, _, _, _, _, vals, hv, rfl, rfl⟩ := h1
    have hrow : RowOf (⟨t, vals⟩ : Row K) s1' := by
      rw [getAll_driver, Except.ok.injEq] at hv
      exact hv.symm
    have hr1 : Run s0 (hist ++ [s1']) s1' := .step hr ⟨p, e, s.p.soilTemp, s.calib, rfl⟩ hu
    obtain ⟨c1, c2⟩ := hf t (List.mem_of_getElem? ht)
    obtain ⟨rows, hist', dl, ll, a1, a2, a3, rfl, a5, ⟨tab, a6, a7⟩, rfl, a9, a10⟩ := filesLoop_spec h0 hf hr1 h2
    rw [rowText_eq hrow, Except.ok.injEq] at hl
    obtain ⟨b1, tr, b2, b3⟩ := rowText_read hrow c1 c2
    have hne : s1'.head ≠ [] := by
      obtain ⟨g, hg, _⟩ := (run_sound h0 hr1).1.last
      intro e
      rw [e] at hg
      simp at hg
    obtain ⟨fl, w1, w2, w3⟩ := writeState_read hne
    refine ⟨⟨t, vals⟩ :: rows, s1' :: hist', (t ++ ',' :: joined ((rowNums s1').map (CPrint.fixed 15))) :: dl,
      ("# Timestep = ".toList ++ (natChars i ++ (", ".toList ++ (t ++ [' '])))) :: fl :: ll, ?_, by simpa using a2, .cons hrow a3, ?_, ?_,
      ⟨tr :: tab, .cons b2 a6, .cons b3 a7⟩, ?_, ?_, .cons ⟨_, natChars_read i, rfl⟩ w3 a10⟩
    · simp only [driverLoop, h1', ok_bind, a1, pure_eq_ok]
    · rw [← hl, fileText]; simp
    · intro l hl
      rcases List.mem_cons.mp hl with rfl | hl
      exacts [b1, a5 l hl]
    · exact layers_text w1
    · intro l hl
      rw [List.mem_cons, List.mem_cons] at hl
      rcases hl with rfl | rfl | hl
      · intro hx
        simp only [List.mem_append] at hx
        rcases hx with hx | hx | hx | hx | hx
        · revert hx; decide
        · exact (numChar_not (.inl (natChars_chars hx))).2.1 rfl
        · revert hx; decide
        · exact c2 hx
        · revert hx; decide
      · exact w2
      · exact a9 l hl

theorem LayerLines.get {i : Nat} {rows : List (Row K)} {hist : List (State K)} {ls : List (List Char)} (h : LayerLines i rows hist ls) :
    ls.length = 2 * hist.length ∧ ∀ (k : Nat) (r : Row K) (x : State K), rows[k]? = some r → hist[k]? = some x →
      ∃ a b, ls[2 * k]? = some a ∧ ls[2 * k + 1]? = some b ∧ StepLine (i + k) r.time a ∧ FrontsLine x b := by
  induction h with
  | nil i => exact ⟨rfl, fun k r x hr => by simp at hr⟩
  | cons h1 h2 _ ih =>
    refine ⟨by simp [ih.1]; omega, fun k r x hr hx => ?_⟩
    cases k with
    | zero =>
      simp only [List.getElem?_cons_zero, Option.some.injEq] at hr hx
      subst hr; subst hx
      exact ⟨_, _, rfl, rfl, h1, h2⟩
    | succ k =>
      simp only [List.getElem?_cons_succ] at hr hx
      obtain ⟨a, b, ha, hb, h3, h4⟩ := ih.2 k r x hr hx
      refine ⟨a, b, ?_, ?_, by rw [Nat.add_right_comm] at h3; exact h3, h4⟩
      · rw [show 2 * (k + 1) = 2 * k + 1 + 1 by omega]; simpa using ha
      · rw [show 2 * (k + 1) + 1 = 2 * k + 1 + 1 + 1 by omega]; simpa using hb

theorem driverFiles_spec {fuel : Nat} {sa : Bool} {env : Env K} {config : List (List Char)} {contents : List Char → Option (List Char)}
    {s : State K} {data layers : List Char} (h : driverFiles fuel sa env config contents = .ok (s, data, layers)) :
    ∃ s0 rows hist dl ll, driver fuel sa env config contents = .ok (s, rows) ∧ bmiInitialize env config = .ok s0 ∧ Run s0 hist s ∧
      List.Forall₂ RowOf rows hist ∧ data = headerText ++ fileText dl ∧ (∀ l ∈ dl, '\n' ∉ l) ∧
      (∃ tab, List.Forall₂ (fun a b => readRow a = some b) dl tab ∧ List.Forall₂ RowShown rows tab) ∧
      layers = fileText ll ∧ (∀ l ∈ ll, '\n' ∉ l) ∧ LayerLines 0 rows hist ll := by
  unfold driverFiles at h
  simp only [bind_ok_iff] at h
  obtain ⟨s0, h0, q, hq, h⟩ := h
  unfold driver
  rw [h0, ok_bind, hq, ok_bind]
  cases hf : findForcing config with
  | none => simp [hf, error_bind] at h
  | some file =>
    simp only [hf, ok_bind] at h ⊢
    cases hc : contents file with
    | none => simp [hc, error_bind] at h
    | some text =>
      simp only [hc, ok_bind, bind_ok_iff] at h ⊢
      obtain ⟨f, hr, u, hle, h⟩ := h
      simp only [Prod.exists, pure_eq_ok, Except.ok.injEq, Prod.mk.injEq] at h
      obtain ⟨s', d, l, h, rfl, rfl, rfl⟩ := h
      obtain ⟨rows, hist, dl, ll, a1, a2, a3, a4, a5, a6, a7, a8, a9⟩ := filesLoop_spec h0 (readForcing_clean hr) .nil h
      exact ⟨s0, rows, hist, dl, ll, ⟨f, hr, u, hle, a1⟩, rfl, by simpa using a2, a3, by rw [a4], a5, a6, a7, a8, a9⟩

/-- The column names of data_variables.csv. -/
def columnNames : List (List Char) := "Time".toList :: driverOutputs.map String.toList

theorem header_eq : headerText = joined columnNames ++ ['\n'] := by decide +kernel

theorem header_clean : (∀ x ∈ columnNames, ',' ∉ x ∧ '\n' ∉ x) := by decide +kernel

/-- C84: data_variables.csv of a driver run that ends is read back as one table: the column names, and one line for every step with
the time of the forcing row and the eleven outputs to 15 decimals. -/
theorem C84_table (fuel : Nat) (sa : Bool) (env : Env K) (config : List (List Char)) (contents : List Char → Option (List Char))
    (s : State K) (data layers : List Char) (h : driverFiles fuel sa env config contents = .ok (s, data, layers)) :
    ∃ rows tab, driver fuel sa env config contents = .ok (s, rows) ∧ readTable data = some (columnNames, tab) ∧
      List.Forall₂ RowShown rows tab := by
  obtain ⟨s0, rows, hist, dl, ll, a1, a2, a3, a4, rfl, a6, ⟨tab, a7, a8⟩, _⟩ := driverFiles_spec h
  refine ⟨rows, tab, a1, ?_, a8⟩
  have hh : '\n' ∉ joined columnNames := by
    intro hx
    obtain ⟨x, h1, h2⟩ := joined_mem (by decide) hx
    exact (header_clean x h1).2 h2
  have e : headerText ++ fileText dl = fileText (joined columnNames :: dl) := by rw [header_eq]; simp [fileText]
  unfold readTable
  rw [e, linesOf_fileText (by
    intro l hl
    rcases List.mem_cons.mp hl with rfl | hl
    exacts [hh, a6 l hl])]
  simp only [mapM_forall₂ a7, Option.map_some, joined_split (show columnNames ≠ [] by simp [columnNames]) (fun x hx => (header_clean x hx).1)]

/-- C84: data_layers.csv has two lines for every step: step number and time, and a list from which the wetting fronts after this
step are read: depth and head in mm and moisture to 6 decimals, layer and front number; the front numbers are 1, 2, 3, ... -/
theorem C84_layers (fuel : Nat) (sa : Bool) (env : Env K) (config : List (List Char)) (contents : List Char → Option (List Char))
    (s : State K) (data layers : List Char) (h : driverFiles fuel sa env config contents = .ok (s, data, layers)) :
    ∃ s0 rows hist ls, driver fuel sa env config contents = .ok (s, rows) ∧ bmiInitialize env config = .ok s0 ∧ Run s0 hist s ∧
      List.Forall₂ RowOf rows hist ∧ linesOf layers = some ls ∧ ls.length = 2 * rows.length ∧
      ∀ (k : Nat) (r : Row K) (x : State K), rows[k]? = some r → hist[k]? = some x →
        ∃ a b recs, ls[2 * k]? = some a ∧ StepLine k r.time a ∧ ls[2 * k + 1]? = some b ∧ readFronts b = some recs ∧
          List.Forall₂ FrontShown x.head recs ∧ ∀ (j : Nat) (e : FrontRec K), recs[j]? = some e → e.front = j + 1 := by
  obtain ⟨s0, rows, hist, dl, ll, a1, a2, a3, a4, rfl, a6, _, rfl, a9, a10⟩ := driverFiles_spec h
  obtain ⟨l1, l2⟩ := a10.get
  refine ⟨s0, rows, hist, ll, a1, a2, a3, a4, linesOf_fileText a9, by rw [l1, a4.length_eq], fun k r x hr hx => ?_⟩
  obtain ⟨a, b, ha, hb, h1, recs, h2, h3⟩ := l2 k r x hr hx
  rw [Nat.zero_add] at h1
  refine ⟨a, b, recs, ha, h1, hb, h2, h3, fun j e he => ?_⟩
  obtain ⟨y, hy, _⟩ := a3.prefix (k + 1) (by have := (List.getElem?_eq_some_iff.mp hx).1; omega)
  have hyx : y = x := by
    have : (hist.take (k + 1)).getLast? = some x := by
      rw [List.getLast?_take, if_neg (by omega)]
      simp [hx]
    clear * - hy this
    generalize hist.take (k + 1) = g at *
    cases hy with
    | nil => simp at this
    | step => simpa using this
  subst hyx
  have hnum := (numFrom_iff 1 _).mp (run_sound a2 hy).1.num
  have hlen := h3.length_eq
  have hj := (List.getElem?_eq_some_iff.mp he).1
  have := (List.forall₂_iff_get.mp h3).2 j (by omega) hj
  have hf := this.front
  rw [List.get_eq_getElem, List.get_eq_getElem, hnum j (by omega)] at hf
  rw [(List.getElem?_eq_some_iff.mp he).2] at hf
  omega


theorem filesLoop_total {fuel : Nat} {sa : Bool} {f : Forcing K} : ∀ {n i : Nat} {s s' : State K} {rows : List (Row K)},
    driverLoop fuel sa f n i s = .ok (s', rows) → ∃ data layers, filesLoop fuel sa f n i s = .ok (s', data, layers)
  | 0, i, s, s', rows, h => by
    simp only [driverLoop, Except.ok.injEq, Prod.mk.injEq] at h
    obtain ⟨rfl, rfl⟩ := h
    exact ⟨_, _, rfl⟩
  | n + 1, i, s, s', rows, h => by
    simp only [driverLoop, bind_ok_iff, Prod.exists, pure_eq_ok, Except.ok.injEq, Prod.mk.injEq] at h
    obtain ⟨s1, r, h1, s2, rs, h2, rfl, rfl⟩ := h
    obtain ⟨d, l, h3⟩ := filesLoop_total h2
    have hrow : RowOf r s1 := by
      have h1' := h1
      unfold driverStep at h1'
      simp only [bind_ok_iff, idx_ok_iff, set_precip, set_pet, Except.ok.injEq, exists_eq_left', pure_eq_ok, Prod.mk.injEq] at h1'
      obtain ⟨p, hp, e, he, t, ht, s1', hu, _, _, _, _, vals, hv, rfl, rfl⟩ := h1'
      rw [getAll_driver, Except.ok.injEq] at hv
      exact hv.symm
    refine ⟨(r.time ++ ',' :: joined ((rowNums s1).map (CPrint.fixed 15))) ++ ['\n'] ++ d,
      stepText i r.time ++ (writeState s1.head ++ l), ?_⟩
    simp only [filesLoop, h1, ok_bind, rowText_eq hrow, h3, pure_eq_ok]

/-- C84: every driver run that ends writes both files. -/
theorem C84_written (fuel : Nat) (sa : Bool) (env : Env K) (config : List (List Char)) (contents : List Char → Option (List Char))
    (s : State K) (rows : List (Row K)) (h : driver fuel sa env config contents = .ok (s, rows)) :
    ∃ data layers, driverFiles fuel sa env config contents = .ok (s, data, layers) := by
  unfold driver at h
  simp only [bind_ok_iff] at h
  obtain ⟨s0, h0, q, hq, h⟩ := h
  unfold driverFiles
  rw [h0, ok_bind, hq, ok_bind]
  cases hf : findForcing config with
  | none => simp [hf, error_bind] at h
  | some file =>
    simp only [hf, ok_bind] at h ⊢
    cases hc : contents file with
    | none => simp [hc, error_bind] at h
    | some text =>
      simp only [hc, ok_bind, bind_ok_iff] at h ⊢
      obtain ⟨f, hr, u, hle, h⟩ := h
      obtain ⟨d, l, h⟩ := filesLoop_total h
      exact ⟨_, _, f, hr, u, hle, _, h, rfl⟩

/-- Sum of column `k` of the table that was read. -/
def readSum (k : Nat) (tab : List (List Char × List K)) : K := (tab.map fun t => t.2.getD k 0).sum

/-- Last entry of column `k` of the table that was read. -/
def readLast (k : Nat) (tab : List (List Char × List K)) : K := (tab.map fun t => t.2.getD k 0).getLastD 0

theorem RowShown.num {r : Row K} {t : List Char × List K} (h : RowShown r t) {k : Nat} (hk : k < r.vals.length) :
    |t.2.getD k 0 - r.num k| ≤ 1 / 2 / 10 ^ 15 := by
  have hlen := h.2.length_eq
  obtain ⟨x, hx, hs⟩ := (List.forall₂_iff_get.mp h.2).2 k hk (by omega)
  unfold Row.num
  rw [List.getElem?_eq_getElem hk]
  rw [List.get_eq_getElem] at hx hs
  rw [hx]
  rw [List.getD_eq_getElem?_getD, List.getElem?_eq_getElem (by omega)]
  exact hs

theorem readSum_close {rows : List (Row K)} {tab : List (List Char × List K)} (h : List.Forall₂ RowShown rows tab)
    (hr : Rectangular rows) {k : Nat} (hk : k < 11) : |readSum k tab - colSum k rows| ≤ rows.length * (1 / 2 / 10 ^ 15) := by
  induction h with
  | nil => simp [readSum, colSum]
  | @cons r t rows tab h1 _ ih =>
    have i1 := ih (fun x hx => hr x (List.mem_cons_of_mem _ hx))
    have i2 := h1.num (k := k) (by rw [(hr r (by simp)).1]; exact hk)
    have e1 : readSum k (t :: tab) = t.2.getD k 0 + readSum k tab := by simp [readSum]
    have e2 : colSum k (r :: rows) = r.num k + colSum k rows := by simp [colSum]
    rw [e1, e2, List.length_cons]
    push_cast
    rw [abs_le] at *
    constructor <;> linarith [i1.1, i1.2, i2.1, i2.2]

theorem readLast_close {rows : List (Row K)} {tab : List (List Char × List K)} (h : List.Forall₂ RowShown rows tab)
    (hr : Rectangular rows) {k : Nat} (hk : k < 11) : |readLast k tab - lastOf k rows| ≤ 1 / 2 / 10 ^ 15 := by
  induction h with
  | nil => simp [readLast, lastOf]; positivity
  | @cons r t rows tab h1 h2 ih =>
    cases h2 with
    | nil =>
      have := h1.num (k := k) (by rw [(hr r (by simp)).1]; exact hk)
      simpa [readLast, lastOf] using this
    | cons h3 h4 =>
      have := ih (fun x hx => hr x (List.mem_cons_of_mem _ hx))
      simpa [readLast, lastOf] using this

/-- C84: the numbers read from data_variables.csv close by themselves, after every row, without ponding and calibration: to 1e-4 cm
per sub-timestep and half of the 15th decimal for each number. -/
theorem C84_closes (fuel : Nat) (sa : Bool) (env : Env K) (config : List (List Char)) (contents : List Char → Option (List Char))
    (c : Cfg K) (s : State K) (data layers : List Char) (hc : readConfig env {} config = .ok c) (hcal : c.calib = false)
    (hpond : c.pondMax.getD 0 = 0) (h : driverFiles fuel sa env config contents = .ok (s, data, layers)) :
    ∃ s0 tab, bmiInitialize env config = .ok s0 ∧ readTable data = some (columnNames, tab) ∧
      ∀ m, 0 < m → m ≤ tab.length → ∃ hist x, Run s0 hist x ∧ hist.length = m ∧
        |water s0.p.cum s0.head / 100 + readSum colPrecip (tab.take m) - readSum colRunoff (tab.take m) - readSum colAet (tab.take m) -
          readSum colPerc (tab.take m) - readLast colStorage (tab.take m)| ≤
            (x.p.timesteps : K) * (1e-4 + 1e-12) / 100 + (4 * m + 1) * (1 / 2 / 10 ^ 15) ∧
        |readSum colPrecip (tab.take m) - readSum colInfil (tab.take m) - readSum colRunoff (tab.take m)| ≤
          3 * m * (1 / 2 / 10 ^ 15) := by
  obtain ⟨rows, tab, hd, ht, hsh⟩ := C84_table fuel sa env config contents s data layers h
  obtain ⟨_, s0, _, _, h0, _⟩ := driver_run hd
  refine ⟨s0, tab, h0, ht, fun m hm hle => ?_⟩
  have hlen := hsh.length_eq
  obtain ⟨s0', hist, x, h0', hr, hl, b1, b2⟩ := C82_closes_alone fuel sa env config contents c s rows hc hcal hpond hd m hm (by omega)
  obtain rfl : s0 = s0' := by rw [h0, Except.ok.injEq] at h0'; exact h0'
  have hrect := (C82_closes fuel sa env config contents s rows hd m hm (by omega)).1
  have hrect' : Rectangular (rows.take m) := fun r hr => hrect r (List.mem_of_mem_take hr)
  have hsh' := List.forall₂_take m hsh
  have hml : (rows.take m).length = m := by rw [List.length_take]; omega
  have c1 := readSum_close hsh' hrect' (k := colPrecip) (by decide)
  have c2 := readSum_close hsh' hrect' (k := colRunoff) (by decide)
  have c3 := readSum_close hsh' hrect' (k := colAet) (by decide)
  have c4 := readSum_close hsh' hrect' (k := colPerc) (by decide)
  have c5 := readLast_close hsh' hrect' (k := colStorage) (by decide)
  have c6 := readSum_close hsh' hrect' (k := colInfil) (by decide)
  rw [hml] at c1 c2 c3 c4 c6
  generalize (1 / 2 / 10 ^ 15 : K) = d at *
  refine ⟨hist, x, hr, hl, ?_, ?_⟩
  · rw [abs_le] at *
    constructor <;> linarith [c1.1, c1.2, c2.1, c2.2, c3.1, c3.2, c4.1, c4.2, c5.1, c5.2, b1.1, b1.2]
  · rw [abs_le] at *
    constructor <;> linarith [c1.1, c1.2, c2.1, c2.2, c6.1, c6.2]

end Exact

/-- C84, a case: two rows with rain and runoff, no ponding and no calibration. -/
example : ∃ (env : Env Grid) (config : List (List Char)) (contents : List Char → Option (List Char)) (c : Cfg Grid) (s : State Grid)
    (rows : List (Row Grid)) (data layers : List Char), readConfig env {} config = .ok c ∧ c.calib = false ∧ c.pondMax.getD 0 = 0 ∧
    driver 5000 true env config contents = .ok (s, rows) ∧ driverFiles 5000 true env config contents = .ok (s, data, layers) ∧
    rows.length = 2 ∧ 0 < colSum colRunoff rows := by
  obtain ⟨c, hc, hc1, hc2⟩ := Sample.tableRead
  obtain ⟨⟨s', rows⟩, hd, hd1, hd2, _⟩ := Sample.tableRun
  obtain ⟨data, layers, h⟩ := C84_written _ _ _ _ _ _ _ hd
  exact ⟨_, _, _, c, s', rows, data, layers, hc, hc1, hc2, hd, h, hd1, hd2⟩

/-- C84, printing: 15 decimals, ties to even, sign. -/
example : (exactFixed 6 (-1234.5 : Grid)) = "-1234.500000".toList ∧ (exactFixed 1 (0.25 : Grid)) = "0.2".toList ∧
    (readDec "-1234.500000".toList : Option ℚ) = some (-1234.5) := by decide +kernel

end LGAR
