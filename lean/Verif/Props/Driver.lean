import Verif.Model.Driver
import Verif.Props.Bmi
import Verif.Spec.SampleRun
/-
The stand-alone driver (C57).
-/
set_option linter.unusedSectionVars false
namespace LGAR

section Free
variable {α : Type} [Add α] [Sub α] [Mul α] [Div α] [Neg α] [Zero α] [One α] [OfScientific α]
  [LT α] [LE α] [DecidableLT α] [DecidableLE α] [BEq α] [CMath α]

theorem set_precip (s : State α) (x : α) : setValue s "precipitation_rate" (.dbls [x]) = .ok { s with precipMm := x } := rfl

theorem set_pet (s : State α) (x : α) : setValue s "potential_evapotranspiration_rate" (.dbls [x]) = .ok { s with petMm := x } := rfl

/-- What one step of the driver has to be: Update number i (from 0) sees row i of the forcing, and line i of the output carries the
time of row i and the outputs after that Update. -/
def StepOf (fuel : Nat) (sa : Bool) (f : Forcing α) (i : Nat) (s s' : State α) (r : Row α) : Prop :=
  ∃ p e, f.precip[i]? = some p ∧ f.pet[i]? = some e ∧ f.time[i]? = some r.time ∧
    update fuel sa { s with precipMm := p, petMm := e } = .ok s' ∧
    r.vals.length = driverOutputs.length ∧ ∀ (k : Nat) (n : String), driverOutputs[k]? = some n → ∃ v, r.vals[k]? = some v ∧ getValue s' n = .ok v

theorem getAll_inv {s : State α} : ∀ {ns : List String} {vs : List (Data α)}, getAll s ns = .ok vs →
    vs.length = ns.length ∧ ∀ (k : Nat) (n : String), ns[k]? = some n → ∃ v, vs[k]? = some v ∧ getValue s n = .ok v
  | [], vs, h => by
    simp only [getAll, Except.ok.injEq] at h
    subst h
    exact ⟨rfl, fun k n hk => by simp at hk⟩
  | n :: ns, vs, h => by
    simp only [getAll, bind_ok_iff, pure_eq_ok, Except.ok.injEq] at h
    obtain ⟨v, hv, r, hr, rfl⟩ := h
    obtain ⟨h1, h2⟩ := getAll_inv hr
    refine ⟨by simp [h1], fun k m hk => ?_⟩
    cases k with
    | zero =>
      simp only [List.getElem?_cons_zero, Option.some.injEq] at hk
      subst hk
      exact ⟨v, rfl, hv⟩
    | succ k => exact h2 k m (by simpa using hk)

theorem driverStep_inv {fuel : Nat} {sa : Bool} {f : Forcing α} {i : Nat} {s s' : State α} {r : Row α}
    (h : driverStep fuel sa f i s = .ok (s', r)) : StepOf fuel sa f i s s' r := by
  unfold driverStep at h
  simp only [bind_ok_iff, idx_ok_iff, set_precip, set_pet, Except.ok.injEq, exists_eq_left', pure_eq_ok, Prod.mk.injEq] at h
  obtain ⟨p, hp, e, he, t, ht, s2, hu, _, _, _, _, vals, hv, rfl, rfl⟩ := h
  exact ⟨p, e, hp, he, ht, hu, getAll_inv hv⟩

theorem driverLoop_inv {fuel : Nat} {sa : Bool} {f : Forcing α} : ∀ {n i : Nat} {s s' : State α} {rows : List (Row α)},
    driverLoop fuel sa f n i s = .ok (s', rows) →
    rows.length = n ∧ ∃ st : List (State α), st.length = n + 1 ∧ st[0]? = some s ∧ st[n]? = some s' ∧
      ∀ (k : Nat) (a b : State α) (r : Row α), st[k]? = some a → st[k + 1]? = some b → rows[k]? = some r → StepOf fuel sa f (i + k) a b r
  | 0, i, s, s', rows, h => by
    simp only [driverLoop, Except.ok.injEq, Prod.mk.injEq] at h
    obtain ⟨rfl, rfl⟩ := h
    exact ⟨rfl, [s], rfl, rfl, rfl, fun k a b r _ _ h3 => by simp at h3⟩
  | n + 1, i, s, s', rows, h => by
    simp only [driverLoop, bind_ok_iff, Prod.exists, pure_eq_ok, Except.ok.injEq, Prod.mk.injEq] at h
    obtain ⟨s1, r, h1, s2, rs, h2, rfl, rfl⟩ := h
    obtain ⟨l, st, l1, l2, l3, l4⟩ := driverLoop_inv h2
    refine ⟨by simp [l], s :: st, by simp [l1], rfl, by simpa using l3, ?_⟩
    intro k a b r' ha hb hr
    cases k with
    | zero =>
      simp only [List.getElem?_cons_zero, Option.some.injEq, List.getElem?_cons_succ] at ha hb hr
      rw [l2, Option.some.injEq] at hb
      subst ha; subst hb; subst hr
      exact driverStep_inv h1
    | succ k =>
      have := l4 k a b r' (by simpa using ha) (by simpa using hb) (by simpa using hr)
      rwa [show i + (k + 1) = i + 1 + k by omega]

/-- C57: a driver run that ends performs n = int(endtime / timestep) Updates and writes n lines; Update i is given row i of the
forcing vectors, and there are at least n PET values. -/
theorem C57_steps (fuel : Nat) (sa : Bool) (env : Env α) (config : List (List Char)) (contents : List Char → Option (List Char))
    (s : State α) (rows : List (Row α)) (h : driver fuel sa env config contents = .ok (s, rows)) :
    ∃ s0 q file text f, bmiInitialize env config = .ok s0 ∧ cdiv s0.p.endtimeS (s0.p.forcingResH * 3600.0) = .ok q ∧
      findForcing config = some file ∧ contents file = some text ∧ readForcing env text = .ok f ∧
      rows.length = (CMath.toInt q).toNat ∧ rows.length ≤ f.pet.length ∧
      ∃ st : List (State α), st.length = rows.length + 1 ∧ st[0]? = some s0 ∧ st[rows.length]? = some s ∧
        ∀ (k : Nat) (a b : State α) (r : Row α), st[k]? = some a → st[k + 1]? = some b → rows[k]? = some r → StepOf fuel sa f k a b r := by
  unfold driver at h
  simp only [bind_ok_iff] at h
  obtain ⟨s0, h0, q, hq, h⟩ := h
  cases hf : findForcing config with
  | none => simp [hf, error_bind] at h
  | some file =>
    simp only [hf, ok_bind] at h
    cases hc : contents file with
    | none => simp [hc, error_bind] at h
    | some text =>
      simp only [hc, ok_bind, bind_ok_iff, cassert_ok_iff] at h
      obtain ⟨f, hr, _, hle, h⟩ := h
      obtain ⟨l, st, l1, l2, l3, l4⟩ := driverLoop_inv h
      refine ⟨s0, q, file, text, f, h0, hq, rfl, hc, hr, l, by omega, st, by omega, l2, by rw [l]; exact l3, fun k a b r h1 h2 h3 => ?_⟩
      have := l4 k a b r h1 h2 h3
      rwa [Nat.zero_add] at this

/-- C57: with fewer PET values than steps the driver stops at its assertion before the first Update. -/
theorem C57_refuses (fuel : Nat) (sa : Bool) (env : Env α) (config : List (List Char)) (contents : List Char → Option (List Char))
    (s0 : State α) (q : α) (file text : List Char) (f : Forcing α) (h0 : bmiInitialize env config = .ok s0)
    (hq : cdiv s0.p.endtimeS (s0.p.forcingResH * 3600.0) = .ok q) (hf : findForcing config = some file)
    (hc : contents file = some text) (hr : readForcing env text = .ok f) (hfew : (f.pet.length : Int) < CMath.toInt q) :
    ∃ m, driver fuel sa env config contents = .error (.assertFail m) := by
  unfold driver
  rw [h0, ok_bind]
  unfold endTime timeStep
  rw [hq, ok_bind]
  simp only [hf, ok_bind, hc, hr]
  unfold cassert
  rw [if_neg (by omega), error_bind]
  exact ⟨_, rfl⟩

/-- A data line of the forcing file: time, precipitation and PET, comma separated; more columns are ignored. -/
structure IsRow (env : Env α) (line t : List Char) (p e : α) : Prop where
  nonl : '\n' ∉ line
  parts : ∃ ps es rest, line = t ++ ',' :: (ps ++ ',' :: (es ++ rest)) ∧ ',' ∉ t ∧ ',' ∉ ps ∧ ',' ∉ es ∧
    (rest = [] ∧ es ≠ [] ∨ rest.head? = some ',') ∧ env.stod ps = some p ∧ env.stod es = some e

theorem splitAt1_sep {c : Char} : ∀ {a b : List Char}, c ∉ a → splitAt1 c (a ++ c :: b) = (a, some b)
  | [], b, _ => by simp [splitAt1]
  | x :: a, b, h => by
    have hx : (x == c) = false := by
      simp only [List.mem_cons, not_or] at h
      simpa using fun e => h.1 e.symm
    have := splitAt1_sep (c := c) (a := a) (b := b) (by simp only [List.mem_cons, not_or] at h; exact h.2)
    simp [splitAt1, hx, this]

theorem splitAt1_none {c : Char} : ∀ {a : List Char}, c ∉ a → splitAt1 c a = (a, none)
  | [], _ => rfl
  | x :: a, h => by
    have hx : (x == c) = false := by
      simp only [List.mem_cons, not_or] at h
      simpa using fun e => h.1 e.symm
    have := splitAt1_none (c := c) (a := a) (by simp only [List.mem_cons, not_or] at h; exact h.2)
    simp [splitAt1, hx, this]

theorem cells_sep {fuel : Nat} {a b : List Char} (h : ',' ∉ a) : cells (fuel + 1) (a ++ ',' :: b) = a :: cells fuel b := by
  cases a with
  | nil => simp [cells, splitAt1]
  | cons x t =>
    have := splitAt1_sep (c := ',') (a := x :: t) (b := b) h
    rw [List.cons_append] at this ⊢
    simp only [cells, this]

theorem cells_last {fuel : Nat} {a : List Char} (h : ',' ∉ a) (hne : a ≠ []) : cells (fuel + 1) a = [a] := by
  cases a with
  | nil => exact absurd rfl hne
  | cons x t =>
    have := splitAt1_none (c := ',') (a := x :: t) h
    simp only [cells, this]

theorem forcingLine_row {env : Env α} {line t : List Char} {p e : α} (h : IsRow env line t p e) (f : Forcing α) :
    forcingLine env f line = .ok { time := f.time ++ [t], precip := f.precip ++ [p], pet := f.pet ++ [e] } := by
  obtain ⟨_, ps, es, rest, rfl, ht, hps, hes, hrest, hp, he⟩ := h
  have hcells : ∃ more, cells ((t ++ ',' :: (ps ++ ',' :: (es ++ rest))).length + 1) (t ++ ',' :: (ps ++ ',' :: (es ++ rest))) =
      t :: ps :: es :: more := by
    rw [cells_sep ht]
    obtain ⟨m, hm⟩ : ∃ m, (t ++ ',' :: (ps ++ ',' :: (es ++ rest))).length = m + 2 :=
      ⟨(t ++ ',' :: (ps ++ ',' :: (es ++ rest))).length - 2, by simp; omega⟩
    rw [hm, cells_sep hps]
    rcases hrest with ⟨rfl, hne⟩ | hr
    · rw [List.append_nil, cells_last hes hne]
      exact ⟨[], rfl⟩
    · cases rest with
      | nil => simp at hr
      | cons c r =>
        simp only [List.head?_cons, Option.some.injEq] at hr
        subst hr
        rw [cells_sep hes]
        exact ⟨_, rfl⟩
  obtain ⟨more, hcells⟩ := hcells
  unfold forcingLine
  rw [hcells]
  simp only [cstod, hp, he, ok_bind]
  rfl

/-- A data line with its meaning. -/
structure RowSpec (α : Type) where
  line : List Char
  t : List Char
  p : α
  e : α

/-- The text of a file of these lines, each ended by a newline. -/
def fileText : List (List Char) → List Char
  | [] => []
  | l :: ls => l ++ '\n' :: fileText ls

theorem fileText_length : ∀ ls : List (List Char), ls.length ≤ (fileText ls).length
  | [] => Nat.le_refl 0
  | l :: ls => by
    have := fileText_length ls
    simp only [fileText, List.length_append, List.length_cons]
    omega

/-- Reading the complete lines of a file; what follows them is `rest`. -/
theorem forcingLoop_rows {env : Env α} : ∀ {rs : List (RowSpec α)}, (∀ r ∈ rs, IsRow env r.line r.t r.p r.e) →
    ∀ {fuel : Nat} (rest old : List Char) (f : Forcing α),
    forcingLoop env (fuel + rs.length) { rest := fileText (rs.map fun r => r.line) ++ rest } old f =
      forcingLoop env fuel { rest := rest } ((rs.getLast?.map fun r => r.line).getD old)
        { time := f.time ++ rs.map fun r => r.t, precip := f.precip ++ rs.map fun r => r.p, pet := f.pet ++ rs.map fun r => r.e }
  | [], _, fuel, rest, old, f => by simp [fileText]
  | r :: rs, h, fuel, rest, old, f => by
    have hr := h r (by simp)
    have hg : getline { rest := fileText ((r :: rs).map fun r => r.line) ++ rest } old =
        ({ rest := fileText (rs.map fun r => r.line) ++ rest }, r.line) := by
      unfold getline
      simp only [List.map_cons, fileText, List.append_assoc, List.cons_append, Bool.or_self, Bool.false_eq_true, if_false,
        splitAt1_sep hr.nonl]
    rw [show fuel + (r :: rs).length = (fuel + rs.length) + 1 by simp; omega]
    conv_lhs => unfold forcingLoop
    simp only [Bool.false_eq_true, if_false, hg, forcingLine_row hr, ok_bind]
    rw [forcingLoop_rows (fun x hx => h x (List.mem_cons_of_mem _ hx))]
    congr 1
    · cases rs with
      | nil => rfl
      | cons a t => simp [List.getLast?_cons]
    · simp

/-- C57, reading: a header line and rows, each ended by a newline: the vectors hold exactly the rows, in order.
Missing: last line without newline (C57_no_newline_fails), rows with missing values (C57_missing_cell_fails). -/
theorem C57_rows_partial (env : Env α) (header : List Char) (rs : List (RowSpec α)) (hh : '\n' ∉ header)
    (hr : ∀ r ∈ rs, IsRow env r.line r.t r.p r.e) :
    readForcing env (fileText (header :: rs.map fun r => r.line)) =
      .ok { time := rs.map fun r => r.t, precip := rs.map fun r => r.p, pet := rs.map fun r => r.e } := by
  unfold readForcing
  have hg : getline { rest := fileText (header :: rs.map fun r => r.line) } [] =
      ({ rest := fileText (rs.map fun r => r.line) }, header) := by
    unfold getline
    simp only [fileText, Bool.or_self, Bool.false_eq_true, if_false, splitAt1_sep hh]
  simp only [hg]
  have hlen := fileText_length (rs.map fun r => r.line)
  rw [List.length_map] at hlen
  obtain ⟨k, hk⟩ : ∃ k, (fileText (header :: rs.map fun r => r.line)).length + 3 = (k + 2) + rs.length := by
    refine ⟨(fileText (header :: rs.map fun r => r.line)).length + 1 - rs.length, ?_⟩
    simp only [fileText, List.length_append, List.length_cons]
    omega
  rw [hk]
  have := forcingLoop_rows hr (fuel := k + 2) [] header {}
  rw [List.append_nil] at this
  rw [this]
  simp [forcingLoop, getline, splitAt1, forcingLine, cells, ok_bind]

/-- C57 fails if the last line of the file has no newline: this row is in the vectors twice, so a file that is one row too short
is accepted and its last row applied twice. -/
theorem C57_no_newline_fails (env : Env α) (header : List Char) (rs : List (RowSpec α)) (r : RowSpec α) (hh : '\n' ∉ header)
    (hr : ∀ x ∈ rs, IsRow env x.line x.t x.p x.e) (hl : IsRow env r.line r.t r.p r.e) :
    readForcing env (fileText (header :: rs.map fun r => r.line) ++ r.line) =
      .ok { time := (rs ++ [r, r]).map fun r => r.t, precip := (rs ++ [r, r]).map fun r => r.p, pet := (rs ++ [r, r]).map fun r => r.e } := by
  unfold readForcing
  have hg : getline { rest := fileText (header :: rs.map fun r => r.line) ++ r.line } [] =
      ({ rest := fileText (rs.map fun r => r.line) ++ r.line }, header) := by
    unfold getline
    simp only [fileText, List.append_assoc, List.cons_append, Bool.or_self, Bool.false_eq_true, if_false, splitAt1_sep hh]
  simp only [hg]
  have hlen := fileText_length (rs.map fun r => r.line)
  rw [List.length_map] at hlen
  obtain ⟨k, hk⟩ : ∃ k, (fileText (header :: rs.map fun r => r.line) ++ r.line).length + 3 = (k + 3) + rs.length := by
    refine ⟨(fileText (header :: rs.map fun r => r.line) ++ r.line).length - rs.length, ?_⟩
    simp only [fileText, List.length_append, List.length_cons]
    omega
  rw [hk, forcingLoop_rows hr]
  have hne : r.line ≠ [] := by
    obtain ⟨_, ps, es, rest, he, _⟩ := hl
    rw [he]; simp
  have hg2 : ∀ old, getline { rest := r.line } old = ({ rest := [], eof := true, fail := false }, r.line) := by
    intro old
    unfold getline
    simp only [Bool.or_self, Bool.false_eq_true, if_false, splitAt1_none hl.nonl]
  have hg3 : getline { rest := [], eof := true, fail := false } r.line = ({ rest := [], eof := true, fail := true }, r.line) := rfl
  simp only [forcingLoop, Bool.false_eq_true, if_false, hg2, hg3, forcingLine_row hl, ok_bind, if_true]
  simp

/-- C57 fails if a row lacks its PET value: the PET of the following rows are applied one step early. -/
theorem C57_missing_cell_fails : ∃ f, readForcing Sample.env "Time,P,PET\na,1,0.1\nb,2\nc,3,0.3\nd,4,0.4\n".toList = .ok f ∧
    f.time = ["a".toList, "b".toList, "c".toList, "d".toList] ∧ f.precip = [1, 2, 3, 4] ∧ f.pet = [1/10, 3/10, 2/5] :=
  Sample.okAnd_exists (by decide +kernel)

/-- The sample configuration for a driver run of two hours. -/
def driverCfg : List (List Char) :=
  ["layer_thickness=10,20[cm]".toList, "layer_soil_type=1,2".toList, "soil_params_file=x".toList,
   "max_valid_soil_types=2".toList, "initial_psi=100[cm]".toList, "timestep=60[min]".toList, "endtime=2[hr]".toList,
   "forcing_resolution=60[min]".toList, "ponded_depth_max=2[cm]".toList, "use_closed_form_G=true".toList,
   "wilting_point_psi=15495.0[cm]".toList, "field_capacity_psi=340.9[cm]".toList, "giuh_ordinates=0.7,0.3".toList,
   "forcing_file=f".toList]

/-- Case for C57_steps: two rows, two steps. -/
example : ∃ a, driver 1000 true Sample.env driverCfg (fun _ => some "Time,P,PET\na,0,0\nb,0,0.1\n".toList) = .ok a ∧
    (a.2.map fun r => r.time) = ["a".toList, "b".toList] := Sample.okAnd_exists (by decide +kernel)

/-- C57 fails: two steps, one row (without newline), not refused; the row is used twice. -/
theorem C57_short_accepted : ∃ a, driver 1000 true Sample.env driverCfg (fun _ => some "Time,P,PET\na,0,0".toList) = .ok a ∧
    (a.2.map fun r => r.time) = ["a".toList, "a".toList] := Sample.okAnd_exists (by decide +kernel)

/-- Case for C57_rows_partial. -/
example : IsRow Sample.env "2016-10-01 00:00:00,1.5,0.25,7".toList "2016-10-01 00:00:00".toList (3/2) (1/4) :=
  ⟨by decide, "1.5".toList, "0.25".toList, ",7".toList, by decide, by decide, by decide, by decide, .inr (by decide), by decide +kernel,
    by decide +kernel⟩

end Free
end LGAR
