import Verif.Lemmas.Config
import Verif.Spec.SampleRun
/-
Reading the configuration file (C47-C50).
-/
set_option linter.unusedSectionVars false
namespace LGAR

section Free
variable {α : Type} [Add α] [Sub α] [Mul α] [Div α] [Neg α] [Zero α] [One α] [OfScientific α]
  [LT α] [LE α] [DecidableLT α] [DecidableLE α] [BEq α] [CMath α]

theorem filter_perm_short {β : Type} {p : β → Bool} {l l' : List β} (hp : l.Perm l') (h : (l.filter p).length ≤ 1) :
    l.filter p = l'.filter p := by
  have := hp.filter p
  match hl : l.filter p, h with
  | [], _ => rw [hl] at this; exact (List.nil_perm.mp this).symm
  | [x], _ => rw [hl] at this; exact List.singleton_perm.mp this

/-- The text before the first '='. -/
def keyText (line : List Char) : List Char := line.takeWhile (· ≠ '=')

theorem paramKey_eq (line : List Char) : paramKey line = keyText line := by
  unfold paramKey keyText
  induction line with
  | nil => rfl
  | cons x xs ih =>
    unfold findChar
    by_cases hx : x = '='
    · simp [hx]
    · simp only [beq_iff_eq, hx, if_false, List.takeWhile_cons, ne_eq, not_false_eq_true, decide_true, if_true]
      cases hf : findChar '=' xs with
      | none => rw [hf] at ih; exact congrArg (x :: ·) ih
      | some i => rw [hf] at ih; exact congrArg (x :: ·) ih

theorem keyOf_inj {a b : List Char} {k : Key} (ha : keyOf a = some k) (hb : keyOf b = some k) : a = b := by
  have key : ∀ x : List Char, keyOf x = some k → ∃ e ∈ keyTable, e.2 = k ∧ x = e.1 := by
    intro x hx
    unfold keyOf at hx
    rw [Option.map_eq_some_iff] at hx
    obtain ⟨e, he, hk⟩ := hx
    exact ⟨e, List.mem_of_find?_eq_some he, hk, by simpa using List.find?_some he⟩
  have hn : ∀ e ∈ keyTable, ∀ f ∈ keyTable, e.2 = f.2 → e.1 = f.1 := by decide
  obtain ⟨e, he, h1, rfl⟩ := key a ha
  obtain ⟨f, hf, h2, rfl⟩ := key b hb
  exact hn e he f hf (h1.trans h2.symm)

/-- C49: permuting the lines of a configuration file in which no key text occurs twice gives the same configuration (and the same
state after Initialize). -/
theorem C49_order (env : Env α) (lines lines' : List (List Char)) (hp : lines.Perm lines') (hn : (lines.map keyText).Nodup)
    (c : Cfg α) (s : State α) :
    (readConfig env {} lines = .ok c ↔ readConfig env {} lines' = .ok c) ∧
      (bmiInitialize env lines = .ok s ↔ bmiInitialize env lines' = .ok s) := by
  have hf : ∀ k, lines.filter (fun l => decide (lineKey l = some k)) = lines'.filter (fun l => decide (lineKey l = some k)) := by
    intro k
    refine filter_perm_short hp ?_
    by_contra hlen
    have hs : ∃ a b t, lines.filter (fun l => decide (lineKey l = some k)) = a :: b :: t := by
      match hl : lines.filter (fun l => decide (lineKey l = some k)) with
      | [] => rw [hl] at hlen; simp at hlen
      | [a] => rw [hl] at hlen; simp at hlen
      | a :: b :: t => exact ⟨a, b, t, rfl⟩
    obtain ⟨a, b, t, hl⟩ := hs
    have hsub : (a :: b :: t).Sublist lines := by rw [← hl]; exact List.filter_sublist
    have hnd := hn.sublist (hsub.map keyText)
    have ha : lineKey a = some k := by
      have : a ∈ lines.filter (fun l => decide (lineKey l = some k)) := by rw [hl]; simp
      simpa using (List.mem_filter.mp this).2
    have hb : lineKey b = some k := by
      have : b ∈ lines.filter (fun l => decide (lineKey l = some k)) := by rw [hl]; simp
      simpa using (List.mem_filter.mp this).2
    have e := keyOf_inj ha hb
    rw [paramKey_eq, paramKey_eq] at e
    simp [e] at hnd
  have h1 : ∀ c : Cfg α, readConfig env {} lines = .ok c ↔ readConfig env {} lines' = .ok c := by
    intro c
    rw [readConfig_iff, readConfig_iff]
    simp only [hf]
  refine ⟨h1 c, ?_⟩
  unfold bmiInitialize
  simp only [bind_ok_iff, h1]

/-- C49: if a key occurs several times, the last line counts (for all keys but endtime, where a last line with an unknown unit is
ignored). -/
theorem C49_last_line (env : Env α) (lines : List (List Char)) (c : Cfg α) (h : readConfig env {} lines = .ok c) (k : Key)
    (hk : k ≠ .endtime) (line : List Char)
    (hl : (lines.filter fun l => decide (keyOf (keyText l) = some k)).getLast? = some line) (old : k.Val α) :
    parseKey env (paramValue line) (paramUnit line) k old = .ok (c.get k) := by
  have hc := readConfig_iff.mp h k
  have hind : ∀ v u (x y : k.Val α), parseKey env v u k x = parseKey env v u k y := by
    intro v u x y
    cases k <;> first | rfl | exact absurd rfl hk
  have e : (fun l : List Char => decide (keyOf (keyText l) = some k)) = fun l => decide (lineKey l = some k) := by
    funext l; rw [← paramKey_eq]; rfl
  rw [e] at hl
  generalize lines.filter (fun l => decide (lineKey l = some k)) = ls at hl hc
  generalize (({} : Cfg α).get k) = x at hc
  induction ls generalizing x with
  | nil => simp at hl
  | cons a t ih =>
    unfold chain at hc
    simp only [bind_ok_iff] at hc
    obtain ⟨y, hy, hc⟩ := hc
    cases t with
    | nil =>
      simp only [List.getLast?_singleton, Option.some.injEq] at hl
      subst hl
      simp only [chain, Except.ok.injEq] at hc
      rw [hind _ _ old x, hy, hc]
    | cons b t' => exact ih (by rwa [List.getLast?_cons_cons] at hl) y hc

/-- The keys without which a run makes no sense. -/
def required : List String :=
  ["layer_thickness", "layer_soil_type", "soil_params_file", "initial_psi", "timestep", "endtime", "wilting_point_psi",
   "field_capacity_psi", "forcing_resolution", "giuh_ordinates"]

theorem field_unset {env : Env α} {lines : List (List Char)} {c : Cfg α} {k : Key} (h : readConfig env {} lines = .ok c)
    (hk : ∀ line ∈ lines, lineKey line ≠ some k) : c.get k = ({} : Cfg α).get k := by
  have hc := readConfig_iff.mp h k
  have : lines.filter (fun l => decide (lineKey l = some k)) = [] := by
    rw [List.filter_eq_nil_iff]
    intro l hl
    simpa using hk l hl
  rw [this] at hc
  simp only [chain, Except.ok.injEq] at hc
  exact hc.symm

theorem lineKey_ne {line : List Char} {t : List Char} {k : Key} (hk : keyOf t = some k) (h : keyText line ≠ t) :
    lineKey line ≠ some k := by
  intro e
  rw [lineKey, paramKey_eq] at e
  exact h (keyOf_inj e hk)

/-- C47: Initialize never returns normally if one of the required keys is missing, nor if frozen-soil coupling is on and soil_z is
missing. -/
theorem C47_refused (env : Env α) (lines : List (List Char)) (s : State α) :
    (∀ name ∈ required, (∀ line ∈ lines, keyText line ≠ name.toList) → bmiInitialize env lines ≠ .ok s) ∧
      ((∀ line ∈ lines, keyText line ≠ "soil_z".toList) → bmiInitialize env lines = .ok s → s.p.sftCoupled = false) := by
  have base : bmiInitialize env lines = .ok s → ∃ c, readConfig env {} lines = .ok c ∧ lgarInit env c = .ok s := by
    intro h
    unfold bmiInitialize at h
    simpa only [bind_ok_iff] using h
  constructor
  · intro name hname hno h
    obtain ⟨c, hc, hi⟩ := base h
    obtain ⟨ts, file, fl, soils, cnt, thick, psi, dt, endt, wp, fc, res, ords, inv, giuh, soilZ, q, depth, vs, cs, a1, a2, _, _, _,
      a3, _, a4, a5, a6, a7, a8, a9, a10, _, _, _, _, _, _, _, _, _, _, hs⟩ := lgarInit_inv hi
    have un : ∀ k, keyOf name.toList = some k → c.get k = ({} : Cfg α).get k := fun k hk =>
      field_unset hc fun line hl => lineKey_ne hk (hno line hl)
    simp only [required, List.mem_cons, List.not_mem_nil, or_false] at hname
    rcases hname with rfl | rfl | rfl | rfl | rfl | rfl | rfl | rfl | rfl | rfl
    · have := un .thick (by decide); simp [Cfg.get, a3] at this
    · have := un .soilType (by decide); simp [Cfg.get, a1] at this
    · have := un .soilFile (by decide); simp [Cfg.get, a2] at this
    · have := un .initialPsi (by decide); simp [Cfg.get, a4] at this
    · have := un .timestep (by decide); simp [Cfg.get, a5] at this
    · have := un .endtime (by decide); simp [Cfg.get, a6] at this
    · have := un .wp (by decide); simp [Cfg.get, a7] at this
    · have := un .fc (by decide); simp [Cfg.get, a8] at this
    · have := un .forcingRes (by decide); simp [Cfg.get, a9] at this
    · have := un .giuh (by decide); simp [Cfg.get, a10] at this
  · intro hno h
    obtain ⟨c, hc, hi⟩ := base h
    obtain ⟨ts, file, fl, soils, cnt, thick, psi, dt, endt, wp, fc, res, ords, inv, giuh, soilZ, q, depth, vs, cs, a1, a2, _, _, _,
      a3, _, a4, a5, a6, a7, a8, a9, a10, _, _, hz, _, _, _, _, _, _, _, hs⟩ := lgarInit_inv hi
    have := field_unset (k := .soilZ) hc fun line hl => lineKey_ne (by decide) (hno line hl)
    simp only [Cfg.get] at this
    have e : s.p.sftCoupled = c.sft := by rw [hs]
    rw [e]
    by_contra hsf
    simp only [Bool.not_eq_false] at hsf
    rw [hsf, this] at hz
    simp at hz

theorem initialize_missing {env : Env α} {c : Cfg α} {s : State α} (h : lgarInit env c = .ok s) :
    ∀ k ∈ [Key.soilType, .soilFile, .initialPsi, .timestep, .endtime, .wp, .fc, .forcingRes, .giuh],
      ∃ why, lgarInit env (c.put k (({} : Cfg α).get k)) = .error (.throw why) := by
  obtain ⟨ts, file, fl, soils, cnt, thick, psi, dt, endt, wp, fc, res, ords, inv, giuh, soilZ, q, depth, vs, cs, a1, a2, a3, a4, a5,
    a6, a7, a8, a9, a10, a11, a12, a13, a14, _⟩ := lgarInit_inv h
  have a3' : (if c.numTypes.getD 15 + 1 < 0 then none else some ()) = some () := if_neg a3
  intro k hk
  simp only [List.mem_cons, List.not_mem_nil, or_false] at hk
  rcases hk with rfl | rfl | rfl | rfl | rfl | rfl | rfl | rfl | rfl <;>
    simp only [lgarInit, Cfg.put, Cfg.get, a1, a2, a3', a4, a5, a6, a7, a8, a9, a10, a11, a12, a13, need, ok_bind, error_bind] <;>
    exact ⟨_, rfl⟩

/-- C47: take any configuration that initialises and drop all lines of one required key.  Then Initialize throws.  Missing:
layer_thickness, where the code reads the unset number of layers before it comes to its test (C47_thickness_ub), and soil_z
(C47_soil_z_ub). -/
theorem C47_throws_partial (env : Env α) (lines : List (List Char)) (s : State α) (h : bmiInitialize env lines = .ok s)
    (name : String) (hname : name ∈ required) (hthick : name ≠ "layer_thickness") :
    ∃ why, bmiInitialize env (lines.filter fun l => decide (keyText l ≠ name.toList)) = .error (.throw why) := by
  unfold bmiInitialize at h
  simp only [bind_ok_iff] at h
  obtain ⟨c, hc, hi⟩ := h
  have main : ∀ k : Key, keyOf name.toList = some k →
      k ∈ [Key.soilType, .soilFile, .initialPsi, .timestep, .endtime, .wp, .fc, .forcingRes, .giuh] →
      ∃ why, bmiInitialize env (lines.filter fun l => decide (keyText l ≠ name.toList)) = .error (.throw why) := by
    intro k hk hm
    obtain ⟨why, hw⟩ := initialize_missing hi k hm
    refine ⟨why, ?_⟩
    have hr : readConfig env {} (lines.filter fun l => decide (keyText l ≠ name.toList)) = .ok (c.put k (({} : Cfg α).get k)) := by
      rw [readConfig_iff]
      intro j
      rw [List.filter_filter]
      by_cases hj : j = k
      · subst hj
        have : (lines.filter fun a => decide (lineKey a = some j) && decide (keyText a ≠ name.toList)) = [] := by
          rw [List.filter_eq_nil_iff]
          intro l _
          simp only [Bool.and_eq_true, decide_eq_true_eq, not_and]
          intro h1 h2
          exact lineKey_ne hk h2 h1
        rw [this, Cfg.get_put]; rfl
      · rw [Cfg.get_put_ne _ _ _ _ hj]
        have : (lines.filter fun a => decide (lineKey a = some j) && decide (keyText a ≠ name.toList)) =
            lines.filter fun a => decide (lineKey a = some j) := by
          apply List.filter_congr
          intro l _
          by_cases h1 : lineKey l = some j
          · have h2 : keyText l ≠ name.toList := by
              intro e
              rw [lineKey, paramKey_eq, e, hk, Option.some.injEq] at h1
              exact hj h1.symm
            simp [h1, h2]
          · simp [h1]
        rw [this]
        exact readConfig_iff.mp hc j
    unfold bmiInitialize
    rw [hr, ok_bind, hw]
  simp only [required, List.mem_cons, List.not_mem_nil, or_false] at hname
  rcases hname with rfl | rfl | rfl | rfl | rfl | rfl | rfl | rfl | rfl | rfl
  · exact absurd rfl hthick
  · exact main .soilType (by decide) (by decide)
  · exact main .soilFile (by decide) (by decide)
  · exact main .initialPsi (by decide) (by decide)
  · exact main .timestep (by decide) (by decide)
  · exact main .endtime (by decide) (by decide)
  · exact main .wp (by decide) (by decide)
  · exact main .fc (by decide) (by decide)
  · exact main .forcingRes (by decide) (by decide)
  · exact main .giuh (by decide) (by decide)

/-- C47 fails for layer_thickness: instead of the exception, the number of layers is used uninitialised. -/
theorem C47_thickness_ub : ∃ why, bmiInitialize Sample.env (Sample.cfg.filter fun l => decide (keyText l ≠ "layer_thickness".toList)) =
    .error (.ub why) := Sample.isUb_exists (by decide +kernel)

/-- C47 fails for soil_z with frozen-soil coupling: the number of temperature cells is used uninitialised. -/
theorem C47_soil_z_ub : ∃ why, bmiInitialize Sample.env ("sft_coupled=true".toList :: Sample.cfg) = .error (.ub why) :=
  Sample.isUb_exists (by decide +kernel)

/-- Case for C47 and C49: the sample configuration initialises and its keys are distinct. -/
example : (∃ s, bmiInitialize Sample.env Sample.cfg = .ok s ∧ s.p.numLayers = 2) ∧ (Sample.cfg.map keyText).Nodup :=
  ⟨Sample.okAnd_exists (by decide +kernel), by decide⟩

/-! ## Texts -/

theorem findChar_append {c : Char} {a b : List Char} (h : c ∉ a) : findChar c (a ++ c :: b) = some a.length := by
  induction a with
  | nil => simp [findChar]
  | cons x xs ih =>
    simp only [List.mem_cons, not_or] at h
    simp [findChar, ih h.2, Ne.symm h.1]

theorem findChar_none {c : Char} {a : List Char} (h : c ∉ a) : findChar c a = none := by
  induction a with
  | nil => rfl
  | cons x xs ih =>
    simp only [List.mem_cons, not_or] at h
    simp [findChar, ih h.2, Ne.symm h.1]

/-- A line `key=value[unit]`. -/
def lineOf (key v u : List Char) : List Char := key ++ '=' :: (v ++ '[' :: (u ++ [']']))

theorem lineOf_parts {key v u : List Char} (k1 : '=' ∉ key) (k2 : '[' ∉ key) (k3 : ']' ∉ key) (v1 : '[' ∉ v) (v2 : ']' ∉ v) (u2 : ']' ∉ u) :
    paramKey (lineOf key v u) = key ∧ paramValue (lineOf key v u) = v ∧ paramUnit (lineOf key v u) = '[' :: (u ++ [']']) := by
  have f1 : findChar '=' (lineOf key v u) = some key.length := findChar_append k1
  have f2 : findChar '[' (lineOf key v u) = some (key.length + 1 + v.length) := by
    have e : lineOf key v u = (key ++ '=' :: v) ++ '[' :: (u ++ [']']) := by simp [lineOf]
    rw [e, findChar_append (by simp [k2, v1])]
    simp; omega
  have f3 : findChar ']' (lineOf key v u) = some (key.length + 1 + v.length + 1 + u.length) := by
    have e : lineOf key v u = (key ++ '=' :: (v ++ '[' :: u)) ++ ']' :: [] := by simp [lineOf]
    rw [e, findChar_append (by simp [k3, v2, u2])]
    simp; omega
  refine ⟨?_, ?_, ?_⟩
  · unfold paramKey; rw [f1]; simp [lineOf]
  · unfold paramValue locEq
    rw [f1, f2]
    simp only
    rw [if_pos (by omega)]
    have e : lineOf key v u = (key ++ ['=']) ++ (v ++ '[' :: (u ++ [']'])) := by simp [lineOf]
    have l1 : key.length + 1 = (key ++ ['=']).length := by simp
    rw [e, l1, List.drop_left]
    have l2 : (key ++ ['=']).length + v.length - (key ++ ['=']).length = v.length := by omega
    rw [l2, List.take_left]
  · unfold paramUnit
    rw [f2, f3]
    simp only
    have e : lineOf key v u = (key ++ '=' :: v) ++ ('[' :: (u ++ [']'])) := by simp [lineOf]
    have l1 : key.length + 1 + v.length = (key ++ '=' :: v).length := by simp; omega
    rw [e, l1, List.drop_left, List.take_of_length_le]
    simp

theorem plain_parts {key v : List Char} (k1 : '=' ∉ key) (k2 : '[' ∉ key) (v1 : '[' ∉ v) :
    paramKey (key ++ '=' :: v) = key ∧ paramValue (key ++ '=' :: v) = v ∧ paramUnit (key ++ '=' :: v) = [] := by
  have f1 : findChar '=' (key ++ '=' :: v) = some key.length := findChar_append k1
  have f2 : findChar '[' (key ++ '=' :: v) = none := findChar_none (by simp [k2, v1])
  refine ⟨?_, ?_, ?_⟩
  · unfold paramKey; rw [f1]; simp
  · unfold paramValue locEq; rw [f1, f2]
    have e : key ++ '=' :: v = (key ++ ['=']) ++ v := by simp
    have l1 : key.length + 1 = (key ++ ['=']).length := by simp
    simp only
    rw [e, l1, List.drop_left]
  · unfold paramUnit; rw [f2]

/-- C50: parsing the comma-joined text of one or more numbers returns exactly these numbers in order. -/
theorem C50_vector (env : Env α) (ts : List (List Char)) (xs : List α) (hne : ts ≠ []) (hc : ∀ t ∈ ts, ',' ∉ t)
    (hs : ts.map env.stod = xs.map some) : readVector env (List.intercalate [','] ts) = .ok xs := by
  have loop : ∀ (ts : List (List Char)) (xs : List α) (fuel : Nat), 2 ≤ ts.length → ts.length ≤ fuel → (∀ t ∈ ts, ',' ∉ t) →
      ts.map env.stod = xs.map some → readVecLoop env fuel (List.intercalate [','] ts) = .ok xs := by
    intro ts
    induction ts with
    | nil => intro xs fuel h; simp at h
    | cons t ts ih =>
      intro xs fuel h2 hf hc hs
      match fuel, hf with
      | fuel + 1, hf =>
      match ts, xs, h2, hs with
      | t' :: ts, x :: xs, _, hs =>
        simp only [List.map_cons, List.cons.injEq] at hs
        obtain ⟨hx, hs⟩ := hs
        have e : List.intercalate [','] (t :: t' :: ts) = t ++ ',' :: List.intercalate [','] (t' :: ts) := by
          simp [List.intercalate]
        have ht : ',' ∉ t := hc t (by simp)
        unfold readVecLoop
        rw [e, findChar_append ht]
        simp only [List.take_left]
        have hd : (t ++ ',' :: List.intercalate [','] (t' :: ts)).drop (t.length + 1) = List.intercalate [','] (t' :: ts) := by
          have e2 : t ++ ',' :: List.intercalate [','] (t' :: ts) = (t ++ [',']) ++ List.intercalate [','] (t' :: ts) := by simp
          have l : t.length + 1 = (t ++ [',']).length := by simp
          rw [e2, l, List.drop_left]
        rw [hd]
        have hst : cstod env t = .ok x := by unfold cstod; rw [hx]
        rw [hst, ok_bind]
        cases ts with
        | nil =>
          have ht' : ',' ∉ t' := hc t' (by simp)
          have e3 : List.intercalate [','] [t'] = t' := by simp [List.intercalate]
          rw [e3, if_pos (findChar_none ht')]
          match xs, hs with
          | x' :: xs, hs =>
            simp only [List.map_cons, List.map_nil, List.cons.injEq] at hs
            have hst' : cstod env t' = .ok x' := by unfold cstod; rw [hs.1]
            rw [hst', ok_bind]
            have : xs = [] := by have := hs.2.symm; simpa using this
            rw [this]; rfl
        | cons t'' ts =>
          have hsome : ¬ findChar ',' (List.intercalate [','] (t' :: t'' :: ts)) = none := by
            have e3 : List.intercalate [','] (t' :: t'' :: ts) = t' ++ ',' :: List.intercalate [','] (t'' :: ts) := by
              simp [List.intercalate]
            rw [e3, findChar_append (hc t' (by simp))]; simp
          rw [if_neg hsome, ih xs fuel (by simp) (by simpa using hf) (fun t ht => hc t (List.mem_cons_of_mem _ ht)) hs, ok_bind]
          rfl
      | t' :: ts, [], _, hs => simp at hs
      | [], _, h2, _ => simp at h2
  unfold readVector
  match ts, hne with
  | [t], _ =>
    match xs, hs with
    | [], hs => simp at hs
    | x :: xs, hs =>
      simp only [List.map_cons, List.map_nil, List.cons.injEq] at hs
      have ht : ',' ∉ t := hc t (by simp)
      have e : List.intercalate [','] [t] = t := by simp [List.intercalate]
      rw [e, if_pos (findChar_none ht)]
      have : xs = [] := by have := hs.2.symm; simpa using this
      unfold cstod
      rw [hs.1, this]; rfl
  | t :: t' :: ts, _ =>
    have e : List.intercalate [','] (t :: t' :: ts) = t ++ ',' :: List.intercalate [','] (t' :: ts) := by
      simp [List.intercalate]
    have hsome : ¬ findChar ',' (List.intercalate [','] (t :: t' :: ts)) = none := by
      rw [e, findChar_append (hc t (by simp))]; simp
    rw [if_neg hsome]
    refine loop _ xs _ (by simp) ?_ hc hs
    have : ∀ ts : List (List Char), ts.length ≤ (List.intercalate [','] ts).length + 1 := by
      intro ts
      induction ts with
      | nil => simp
      | cons a ts ih =>
        cases ts with
        | nil => simp
        | cons b ts =>
          have e : List.intercalate [','] (a :: b :: ts) = a ++ ',' :: List.intercalate [','] (b :: ts) := by
            simp [List.intercalate]
          rw [e]; simp at ih ⊢; omega
    exact this _

/-- A comma after the last number makes the code convert the empty text, which throws. -/
theorem C50_trailing_comma (env : Env α) (t : List Char) (x : α) (ht : ',' ∉ t) (h : env.stod t = some x) (h0 : env.stod [] = none) :
    readVector env (t ++ [',']) = .error (.throw "stod") := by
  unfold readVector
  have f : findChar ',' (t ++ ',' :: []) = some t.length := findChar_append ht
  rw [f, if_neg (by simp)]
  unfold readVecLoop
  rw [f]
  have e : (t ++ [',']).drop (t.length + 1) = [] := by simp
  simp only [List.take_left, e]
  unfold cstod
  rw [h, ok_bind]
  simp [findChar, h0, error_bind]

/-- Case for C50: "10,20" in the sample environment. -/
example : readVector Sample.env "10,20".toList = .ok [10, 20] := by
  have := C50_vector Sample.env ["10".toList, "20".toList] [10, 20] (by simp) (by decide) (by decide +kernel)
  simpa [List.intercalate] using this

/-- C48 fails for timestep and forcing_resolution: any unknown unit is silently taken to be hours. -/
theorem C48_unknown_unit (env : Env α) (c : Cfg α) (v u : List Char) (x : α) (v1 : '[' ∉ v) (v2 : ']' ∉ v) (u2 : ']' ∉ u)
    (hv : env.stod v = some x) (hx : 0 < x) (hu : String.ofList u ∉ ["s", "sec", "min", "minute", "h", "hr"]) :
    configLine env c (lineOf "timestep".toList v u) = .ok { c with timestep := some x } ∧
      configLine env c (lineOf "forcing_resolution".toList v u) = .ok { c with forcingRes := some x } := by
  have hu' : ∀ t ∈ ["s", "sec", "min", "minute", "h", "hr"], u ≠ t.toList := by
    intro t ht e
    apply hu
    rw [e, String.ofList_toList]; exact ht
  have hh : toHours ('[' :: (u ++ [']'])) x = x := by
    simp only [List.mem_cons, List.not_mem_nil, or_false, forall_eq_or_imp, forall_eq] at hu'
    have nb : ∀ t : List Char, u ≠ t → ¬ ('[' :: (u ++ [']']) = '[' :: (t ++ [']'])) := by
      intro t ht e
      simp only [List.cons.injEq, List.append_cancel_right_eq, true_and] at e
      exact ht e
    obtain ⟨h1, h2, h3, h4, h5, h6⟩ := hu'
    have n1 := nb _ h1; have n2 := nb _ h2; have n3 := nb _ h3; have n4 := nb _ h4; have n5 := nb _ h5; have n6 := nb _ h6
    have b : ∀ a b : List Char, ¬ a = b → (a == b) = false := fun a b h => by simpa using h
    have c1 := b _ _ n1; have c2 := b _ _ n2; have c3 := b _ _ n3; have c4 := b _ _ n4; have c5 := b _ _ n5; have c6 := b _ _ n6
    have e1 : "[s]".toList = '[' :: ("s".toList ++ [']']) := by decide
    have e2 : "[sec]".toList = '[' :: ("sec".toList ++ [']']) := by decide
    have e3 : "[min]".toList = '[' :: ("min".toList ++ [']']) := by decide
    have e4 : "[minute]".toList = '[' :: ("minute".toList ++ [']']) := by decide
    have e5 : "[h]".toList = '[' :: ("h".toList ++ [']']) := by decide
    have e6 : "[hr]".toList = '[' :: ("hr".toList ++ [']']) := by decide
    unfold toHours isSec isMin isHour
    rw [e1, e2, e3, e4, e5, e6, c1, c2, c3, c4, c5, c6]
    simp
  constructor
  · obtain ⟨p1, p2, p3⟩ := lineOf_parts (key := "timestep".toList) (by decide) (by decide) (by decide) v1 v2 u2
    unfold configLine
    rw [p1, p2, p3]
    have : keyOf "timestep".toList = some .timestep := by decide
    rw [this]
    simp only [applyKey, cstod, hv, hh, ok_bind, cassert, hx, if_true, pure_eq_ok]
  · obtain ⟨p1, p2, p3⟩ := lineOf_parts (key := "forcing_resolution".toList) (by decide) (by decide) (by decide) v1 v2 u2
    unfold configLine
    rw [p1, p2, p3]
    have : keyOf "forcing_resolution".toList = some .forcingRes := by decide
    rw [this]
    simp only [applyKey, cstod, hv, hh, ok_bind, cassert, hx, if_true, pure_eq_ok]

/-- C48: a time step of one day is read as one hour; a blank after the unit (here of 300 seconds) makes the unit unknown, and the
time step 300 hours. -/
theorem C48_wrong_values : (∃ c, configLine Sample.env {} "timestep=1[d]".toList = .ok c ∧ c.timestep = some 1) ∧
    (∃ c, configLine Sample.env {} "timestep=300[sec]".toList = .ok c ∧ c.timestep = some (1/12)) ∧
    ∃ c, configLine Sample.env {} "timestep=300[sec] ".toList = .ok c ∧ c.timestep = some 300 :=
  ⟨Sample.okAnd_exists (by decide +kernel), Sample.okAnd_exists (by decide +kernel), Sample.okAnd_exists (by decide +kernel)⟩

/-- C48 fails for endtime: with an unknown unit the test reads the variable that was never set. -/
theorem C48_endtime_unknown (env : Env α) (c : Cfg α) (v u : List Char) (v1 : '[' ∉ v) (v2 : ']' ∉ v) (u2 : ']' ∉ u)
    (hu : String.ofList u ∉ ["s", "sec", "min", "minute", "h", "hr", "d", "day"]) (hc : c.endtime = none) :
    ∃ why, configLine env c (lineOf "endtime".toList v u) = .error (.ub why) := by
  have hu' : ∀ t ∈ ["s", "sec", "min", "minute", "h", "hr", "d", "day"], ('[' :: (u ++ [']']) == '[' :: (t.toList ++ [']'])) = false := by
    intro t ht
    rw [beq_eq_false_iff_ne]
    intro e
    simp only [List.cons.injEq, List.append_cancel_right_eq, true_and] at e
    apply hu
    rw [e, String.ofList_toList]; exact ht
  simp only [List.mem_cons, List.not_mem_nil, or_false, forall_eq_or_imp, forall_eq] at hu'
  obtain ⟨c1, c2, c3, c4, c5, c6, c7, c8⟩ := hu'
  obtain ⟨p1, p2, p3⟩ := lineOf_parts (key := "endtime".toList) (by decide) (by decide) (by decide) v1 v2 u2
  unfold configLine
  rw [p1, p2, p3]
  have : keyOf "endtime".toList = some .endtime := by decide
  rw [this]
  have e1 : "[s]".toList = '[' :: ("s".toList ++ [']']) := by decide
  have e2 : "[sec]".toList = '[' :: ("sec".toList ++ [']']) := by decide
  have e3 : "[min]".toList = '[' :: ("min".toList ++ [']']) := by decide
  have e4 : "[minute]".toList = '[' :: ("minute".toList ++ [']']) := by decide
  have e5 : "[h]".toList = '[' :: ("h".toList ++ [']']) := by decide
  have e6 : "[hr]".toList = '[' :: ("hr".toList ++ [']']) := by decide
  have e7 : "[d]".toList = '[' :: ("d".toList ++ [']']) := by decide
  have e8 : "[day]".toList = '[' :: ("day".toList ++ [']']) := by decide
  refine ⟨"endtime_s uninitialised", ?_⟩
  simp only [applyKey]
  unfold setEndtime isSec isMin isHour isDay
  rw [e1, e2, e3, e4, e5, e6, e7, e8, c1, c2, c3, c4, c5, c6, c7, c8, hc]
  simp

end Free

section Exact
variable {K : Type} [Field K] [LinearOrder K] [IsStrictOrderedRing K] [CMath K] [LawfulNum K]

/-- Hours per unit (specification). -/
def hoursPer : List (String × K) := [("s", 1/3600), ("sec", 1/3600), ("min", 1/60), ("minute", 1/60), ("h", 1), ("hr", 1)]
/-- Seconds per unit (specification). -/
def secondsPer : List (String × K) :=
  [("s", 1), ("sec", 1), ("min", 60), ("minute", 60), ("h", 3600), ("hr", 3600), ("d", 86400), ("day", 86400)]

/-- C48: with a known unit, timestep and forcing_resolution are the number times the unit, in hours; values that are not positive
are refused.  Missing: unknown units are accepted (C48_unknown_unit). -/
theorem C48_hours_partial (env : Env K) (c : Cfg K) (v : List Char) (u : String) (f x : K) (v1 : '[' ∉ v) (v2 : ']' ∉ v)
    (hv : env.stod v = some x) (hu : (u, f) ∈ hoursPer) :
    (0 < x → configLine env c (lineOf "timestep".toList v u.toList) = .ok { c with timestep := some (x * f) } ∧
      configLine env c (lineOf "forcing_resolution".toList v u.toList) = .ok { c with forcingRes := some (x * f) }) ∧
    (x ≤ 0 → (∃ why, configLine env c (lineOf "timestep".toList v u.toList) = .error (.assertFail why)) ∧
      ∃ why, configLine env c (lineOf "forcing_resolution".toList v u.toList) = .error (.assertFail why)) := by
  have hf : 0 < f ∧ ']' ∉ u.toList ∧ toHours ('[' :: (u.toList ++ [']'])) x = x * f := by
    simp only [hoursPer, List.mem_cons, List.not_mem_nil, or_false, Prod.mk.injEq] at hu
    rcases hu with ⟨rfl, rfl⟩ | ⟨rfl, rfl⟩ | ⟨rfl, rfl⟩ | ⟨rfl, rfl⟩ | ⟨rfl, rfl⟩ | ⟨rfl, rfl⟩
    all_goals refine ⟨by norm_num, by decide, ?_⟩
    · have : isSec ('[' :: ("s".toList ++ [']'])) = true := by decide
      simp only [toHours, this, if_true]; norm_num [div_eq_mul_inv]
    · have : isSec ('[' :: ("sec".toList ++ [']'])) = true := by decide
      simp only [toHours, this, if_true]; norm_num [div_eq_mul_inv]
    · have h1 : isSec ('[' :: ("min".toList ++ [']'])) = false := by decide
      have h2 : isMin ('[' :: ("min".toList ++ [']'])) = true := by decide
      simp only [toHours, h1, h2, if_true]; norm_num [div_eq_mul_inv]
    · have h1 : isSec ('[' :: ("minute".toList ++ [']'])) = false := by decide
      have h2 : isMin ('[' :: ("minute".toList ++ [']'])) = true := by decide
      simp only [toHours, h1, h2, if_true]; norm_num [div_eq_mul_inv]
    · have h1 : isSec ('[' :: ("h".toList ++ [']'])) = false := by decide
      have h2 : isMin ('[' :: ("h".toList ++ [']'])) = false := by decide
      have h3 : isHour ('[' :: ("h".toList ++ [']'])) = true := by decide
      simp only [toHours, h1, h2, h3, if_true]; norm_num
    · have h1 : isSec ('[' :: ("hr".toList ++ [']'])) = false := by decide
      have h2 : isMin ('[' :: ("hr".toList ++ [']'])) = false := by decide
      have h3 : isHour ('[' :: ("hr".toList ++ [']'])) = true := by decide
      simp only [toHours, h1, h2, h3, if_true]; norm_num
  obtain ⟨hf0, hu2, hh⟩ := hf
  obtain ⟨p1, p2, p3⟩ := lineOf_parts (key := "timestep".toList) (by decide) (by decide) (by decide) v1 v2 hu2
  obtain ⟨q1, q2, q3⟩ := lineOf_parts (key := "forcing_resolution".toList) (by decide) (by decide) (by decide) v1 v2 hu2
  have k1 : keyOf "timestep".toList = some .timestep := by decide
  have k2 : keyOf "forcing_resolution".toList = some .forcingRes := by decide
  unfold configLine
  rw [p1, p2, p3, q1, q2, q3, k1, k2]
  simp only [applyKey, cstod, hv, hh, ok_bind, cassert, pure_eq_ok]
  constructor
  · intro hx
    have : 0 < x * f := mul_pos hx hf0
    simp [this, ok_bind]
  · intro hx
    have : ¬ 0 < x * f := not_lt.mpr (mul_nonpos_of_nonpos_of_nonneg hx hf0.le)
    simp [this, error_bind]

/-- C48: endtime with a known unit is the number times the unit, in seconds.  Missing: unknown units (C48_endtime_unknown). -/
theorem C48_endtime_partial (env : Env K) (c : Cfg K) (v : List Char) (u : String) (f x : K) (v1 : '[' ∉ v) (v2 : ']' ∉ v)
    (hv : env.stod v = some x) (hu : (u, f) ∈ secondsPer) (hx : 0 < x) :
    configLine env c (lineOf "endtime".toList v u.toList) = .ok { c with endtime := some (x * f) } := by
  have hf : 0 < f ∧ ']' ∉ u.toList ∧ toSeconds ('[' :: (u.toList ++ [']'])) x = some (x * f) ∧
      (isSec ('[' :: (u.toList ++ [']'])) || isMin ('[' :: (u.toList ++ [']'])) || isHour ('[' :: (u.toList ++ [']'])) ||
        isDay ('[' :: (u.toList ++ [']']))) = true := by
    simp only [secondsPer, List.mem_cons, List.not_mem_nil, or_false, Prod.mk.injEq] at hu
    rcases hu with ⟨rfl, rfl⟩ | ⟨rfl, rfl⟩ | ⟨rfl, rfl⟩ | ⟨rfl, rfl⟩ | ⟨rfl, rfl⟩ | ⟨rfl, rfl⟩ | ⟨rfl, rfl⟩ | ⟨rfl, rfl⟩
    all_goals refine ⟨by norm_num, by decide, ?_, by decide⟩
    · have : isSec ('[' :: ("s".toList ++ [']'])) = true := by decide
      simp only [toSeconds, this, if_true]; norm_num
    · have : isSec ('[' :: ("sec".toList ++ [']'])) = true := by decide
      simp only [toSeconds, this, if_true]; norm_num
    · have h1 : isSec ('[' :: ("min".toList ++ [']'])) = false := by decide
      have h2 : isMin ('[' :: ("min".toList ++ [']'])) = true := by decide
      simp only [toSeconds, h1, h2, if_true]; norm_num
    · have h1 : isSec ('[' :: ("minute".toList ++ [']'])) = false := by decide
      have h2 : isMin ('[' :: ("minute".toList ++ [']'])) = true := by decide
      simp only [toSeconds, h1, h2, if_true]; norm_num
    · have h1 : isSec ('[' :: ("h".toList ++ [']'])) = false := by decide
      have h2 : isMin ('[' :: ("h".toList ++ [']'])) = false := by decide
      have h3 : isHour ('[' :: ("h".toList ++ [']'])) = true := by decide
      simp only [toSeconds, h1, h2, h3, if_true]; norm_num
    · have h1 : isSec ('[' :: ("hr".toList ++ [']'])) = false := by decide
      have h2 : isMin ('[' :: ("hr".toList ++ [']'])) = false := by decide
      have h3 : isHour ('[' :: ("hr".toList ++ [']'])) = true := by decide
      simp only [toSeconds, h1, h2, h3, if_true]; norm_num
    · have h1 : isSec ('[' :: ("d".toList ++ [']'])) = false := by decide
      have h2 : isMin ('[' :: ("d".toList ++ [']'])) = false := by decide
      have h3 : isHour ('[' :: ("d".toList ++ [']'])) = false := by decide
      have h4 : isDay ('[' :: ("d".toList ++ [']'])) = true := by decide
      simp only [toSeconds, h1, h2, h3, h4, if_true]; norm_num
    · have h1 : isSec ('[' :: ("day".toList ++ [']'])) = false := by decide
      have h2 : isMin ('[' :: ("day".toList ++ [']'])) = false := by decide
      have h3 : isHour ('[' :: ("day".toList ++ [']'])) = false := by decide
      have h4 : isDay ('[' :: ("day".toList ++ [']'])) = true := by decide
      simp only [toSeconds, h1, h2, h3, h4, if_true]; norm_num
  obtain ⟨hf0, hu2, hh, hd⟩ := hf
  obtain ⟨p1, p2, p3⟩ := lineOf_parts (key := "endtime".toList) (by decide) (by decide) (by decide) v1 v2 hu2
  have k1 : keyOf "endtime".toList = some .endtime := by decide
  unfold configLine
  rw [p1, p2, p3, k1]
  simp only [applyKey]
  unfold setEndtime
  rw [hd]
  simp only [if_true, cstod, hv, hh, ok_bind, cassert, pure_eq_ok]
  have : 0 < x * f := mul_pos hx hf0
  simp [this, ok_bind]

end Exact
end LGAR
