import Verif.Spec.Table
import Verif.Lemmas.Table
import Verif.Props.Books
import Verif.Props.Runs

/-!
# C82: the output table of the stand-alone program closes
-/
set_option linter.unusedSectionVars false
namespace LGAR

section Free
variable {α : Type} [Add α] [Sub α] [Mul α] [Div α] [Neg α] [Zero α] [One α] [OfScientific α]
  [LT α] [LE α] [DecidableLT α] [DecidableLE α] [BEq α] [CMath α]

theorem forcingLine_nested {env : Env α} {f f' : Forcing α} {line : List Char} (h : forcingLine env f line = .ok f')
    (hf : f.pet.length ≤ f.precip.length ∧ f.precip.length ≤ f.time.length) :
    f'.pet.length ≤ f'.precip.length ∧ f'.precip.length ≤ f'.time.length := by
  unfold forcingLine at h
  split at h
  · simp only [Except.ok.injEq] at h; subst h; exact hf
  · simp only [Except.ok.injEq] at h; subst h
    simp only [List.length_append, List.length_singleton]; omega
  · simp only [bind_ok_iff, pure_eq_ok, Except.ok.injEq] at h
    obtain ⟨_, _, rfl⟩ := h
    simp only [List.length_append, List.length_singleton]; omega
  · simp only [bind_ok_iff, pure_eq_ok, Except.ok.injEq] at h
    obtain ⟨_, _, _, _, rfl⟩ := h
    simp only [List.length_append, List.length_singleton]; omega

theorem forcingLoop_nested {env : Env α} : ∀ {fuel : Nat} {st : IStream} {line : List Char} {f f' : Forcing α},
    forcingLoop env fuel st line f = .ok f' → (f.pet.length ≤ f.precip.length ∧ f.precip.length ≤ f.time.length) →
    f'.pet.length ≤ f'.precip.length ∧ f'.precip.length ≤ f'.time.length
  | 0, _, _, _, _, h, _ => by simp [forcingLoop] at h
  | fuel + 1, st, line, f, f', h, hf => by
    unfold forcingLoop at h
    split at h
    · simp only [Except.ok.injEq] at h; subst h; exact hf
    · simp only [bind_ok_iff] at h
      obtain ⟨f1, h1, h⟩ := h
      exact forcingLoop_nested h (forcingLine_nested h1 hf)

/-- C57: only the number of PET values is checked, but with any text of the forcing file, well-formed or not, this is enough: the
loop never reads beyond the end of the precipitation or of the times. -/
theorem C57_no_overrun (env : Env α) (text : List Char) (f : Forcing α) (h : readForcing env text = .ok f) (i : Nat)
    (hi : i < f.pet.length) : (∃ p, idx f.precip i = .ok p) ∧ (∃ e, idx f.pet i = .ok e) ∧ ∃ t, idx f.time i = .ok t := by
  have := forcingLoop_nested (f := {}) h ⟨Nat.le_refl _, Nat.le_refl _⟩
  refine ⟨⟨f.precip[i], ?_⟩, ⟨f.pet[i], ?_⟩, f.time[i], ?_⟩ <;> rw [idx_ok_iff] <;> exact List.getElem?_eq_getElem _

example : ∃ f, readForcing Sample.env "Time,P,PET\na,1,0.1\nb,2\nc\nd,4,0.4\n".toList = .ok f ∧ 1 < f.pet.length ∧
    f.precip.length = 3 ∧ f.time.length = 4 := Sample.okAnd_exists (by decide +kernel)

end Free

section Exact
variable {K : Type} [Field K] [LinearOrder K] [IsStrictOrderedRing K] [CMath K] [LawfulNum K]

theorem colSum_hist {k : Nat} {f : State K → K} (hf : ∀ r s, RowOf r s → Row.num k r = f s) :
    ∀ {rows : List (Row K)} {hist : List (State K)}, List.Forall₂ RowOf rows hist → rows.map (Row.num k) = hist.map f := by
  intro rows hist h
  induction h with
  | nil => rfl
  | cons h _ ih => rw [List.map_cons, List.map_cons, ih, hf _ _ h]

theorem total_colSum {k : Nat} {f : Conv K → K} (hf : ∀ r s, RowOf r s → Row.num k r = f s.conv)
    {rows : List (Row K)} {hist : List (State K)} (h : List.Forall₂ RowOf rows hist) : total f hist = colSum k rows * 100 := by
  unfold total colSum
  rw [colSum_hist (f := fun s => f s.conv) hf h]
  exact List.sum_map_mul_right _ _ _

theorem RowOf.num {r : Row K} {s : State K} (h : RowOf r s) : Row.num colPrecip r = s.conv.precip ∧ Row.num colPet r = s.conv.pet ∧
    Row.num colAet r = s.conv.aet ∧ Row.num colRunoff r = s.conv.runoff ∧ Row.num colGiuh r = s.conv.giuh ∧
    Row.num colStorage r = s.conv.storage ∧ Row.num colDischarge r = s.conv.Q ∧ Row.num colInfil r = s.conv.infil ∧
    Row.num colPerc r = s.conv.rech := by
  unfold RowOf at h
  simp only [Row.num, h]
  exact ⟨rfl, rfl, rfl, rfl, rfl, rfl, rfl, rfl, rfl⟩

/-- The books of one run against the columns written for it. -/
theorem table_core {env : Env K} {config : List (List Char)} {s0 s : State K} {hist : List (State K)} {rows : List (Row K)} {pm : K}
    {cf : Bool} (h0 : bmiInitialize env config = .ok s0) (hr : Run s0 hist s) (hrow : List.Forall₂ RowOf rows hist) (hne : rows ≠ [])
    (hpm : 0 ≤ pm) (hq : ∀ x ∈ hist, Unset pm cf x) :
    |water s0.p.cum s0.head / 100 + colSum colPrecip rows - colSum colRunoff rows - colSum colAet rows - colSum colPerc rows -
        lastOf colStorage rows - s.mb.volon / 100 + s.mb.volcalib / 100| ≤ (s.p.timesteps : K) * (1e-4 + 1e-12) / 100 ∧
      colSum colPrecip rows = colSum colInfil rows + colSum colRunoff rows + s.mb.volon / 100 ∧ 0 ≤ s.mb.volon ∧
      (∃ left, giuhLeft s.giuhQueue (s.numGiuh + 1) 0 0 = .ok left ∧
        colSum colGiuh rows + left / 100 = colSum colRunoff rows * s0.giuhOrd.sum) ∧
      colSum colDischarge rows = colSum colGiuh rows ∧
      (pm = 0 → s.mb.volon = 0) ∧ (cf = false → s.mb.volcalib = 0) := by
  have hne' : hist ≠ [] := by
    rintro rfl
    cases hrow
    exact hne rfl
  have hp : ∀ x ∈ hist, 0 ≤ x.p.pondMax := fun x hx => by rw [(hq x hx).pond]; exact hpm
  obtain ⟨b1, b2, b3⟩ := C01_global_balance env config s0 s hist h0 hr hne' hp
  obtain ⟨b4, b5⟩ := C61_surface_balance env config s0 s hist h0 hr hne' hp
  obtain ⟨c1, c2, c3, c4, c5, c6, c7, c8⟩ := C02_cumulative env config s0 s hist h0 hr
  obtain ⟨left, g1, g2⟩ := C32_run env config s0 s hist h0 hr
  rw [total_colSum (fun r s h => h.num.1) hrow] at c1
  rw [total_colSum (fun r s h => h.num.2.2.2.2.2.2.2.1) hrow] at c2
  rw [total_colSum (fun r s h => h.num.2.2.1) hrow] at c3
  rw [total_colSum (fun r s h => h.num.2.2.2.2.2.2.2.2) hrow] at c4
  rw [total_colSum (fun r s h => h.num.2.2.2.1) hrow] at c5
  rw [total_colSum (fun r s h => h.num.2.2.2.2.2.2.1) hrow] at c6
  rw [total_colSum (fun r s h => h.num.2.2.2.2.1) hrow] at c7
  obtain ⟨hist1, hlast⟩ : ∃ hist1, hist = hist1 ++ [s] := by
    cases hr with
    | nil => exact absurd rfl hne'
    | step _ _ _ => exact ⟨_, rfl⟩
  have hmem : s ∈ hist := by rw [hlast]; simp
  have hfix : ∀ x ∈ hist, x.conv.storage * 100 = x.mb.volend ∧ x.mb.volon = x.mb.volonT ∧ x.conv.Q = x.conv.giuh := by
    clear * - h0 hr
    obtain ⟨c, _, hi, _⟩ := bmiInitialize_inv h0
    have hv := lgarInit_valid hi
    have key : s.p.invalidSoil = false ∧ ∀ x ∈ hist, x.conv.storage * 100 = x.mb.volend ∧ x.mb.volon = x.mb.volonT ∧
        x.conv.Q = x.conv.giuh := by
      clear hi h0
      induction hr with
      | nil => exact ⟨hv, by simp⟩
      | @step hist s s1 s2 fuel sa hr hin hu ih =>
        obtain ⟨i1, i2⟩ := ih
        obtain ⟨a, b, c, d, rfl⟩ := hin
        refine ⟨?_, fun x hx => ?_⟩
        · rcases update_inv hu with ⟨hi, _⟩ | ⟨_, s1, d, v, u, h1, _, _, h2⟩
          · exact absurd hi (by rw [show (State.p _).invalidSoil = s.p.invalidSoil from rfl, i1]; simp)
          obtain ⟨_, _, _, _, _, _, _, _, _, _, _, _, hp, _⟩ := updatePost_inv h2
          obtain ⟨_, _, _, _, _, _, _, _, _, e1, _⟩ := updatePre_inv h1
          subst e1
          rw [hp]; exact i1
        · rcases List.mem_append.mp hx with hx | hx
          · exact i2 x hx
          · rw [List.mem_singleton.mp hx]
            exact update_tail (by exact i1) hu
    exact key.2
  have hst : lastOf colStorage rows * 100 = s.mb.volend := by
    unfold lastOf
    rw [colSum_hist (f := fun s => s.conv.storage) (fun r s h => h.num.2.2.2.2.2.1) hrow, hlast]
    simpa using (hfix s hmem).1
  have hQ : colSum colDischarge rows = colSum colGiuh rows := by
    unfold colSum
    rw [colSum_hist (f := fun s => s.conv.Q) (fun r s h => h.num.2.2.2.2.2.2.1) hrow,
      colSum_hist (f := fun s => s.conv.giuh) (fun r s h => h.num.2.2.2.2.1) hrow]
    exact congrArg List.sum (List.map_congr_left fun x hx => (hfix x hx).2.2)
  refine ⟨?_, ?_, b5, ⟨left, g1, ?_⟩, hQ, fun e => ?_, (hq s hmem).calib⟩
  · rw [b2, c1, c5, c3, c4, ← hst] at b1
    rw [le_div_iff₀ (by norm_num), ← abs_of_pos (show (0 : K) < 100 by norm_num), ← abs_mul, abs_of_pos (show (0 : K) < 100 by norm_num)]
    refine le_of_eq_of_le (congrArg _ ?_) b1
    ring
  · rw [c1, c2, c5] at b4
    linear_combination b4 / 100
  · rw [c7, c5] at g2
    linear_combination g2 / 100
  · rw [(hfix s hmem).2.1]
    exact C04_run_zero env config s0 s hist h0 hr (fun x hx => by rw [(hq x hx).pond, e]) s hmem

/-- C82: the table that the stand-alone program writes closes, after every row. From any configuration, forcing file and number of
rows: the water in the soil before the first row, plus all the rain written, minus runoff, actual ET and percolation written, minus
the storage in the last row, minus the water still ponded, plus what calibration changed, is zero up to 1e-4 cm per
sub-timestep; rain is exactly infiltration plus runoff plus ponded water; and the routed runoff, together with what is still in
the queue, is the runoff times the sum of the ordinates. All columns are in metres, the state is in centimetres. -/
theorem C82_closes (fuel : Nat) (sa : Bool) (env : Env K) (config : List (List Char)) (contents : List Char → Option (List Char))
    (s : State K) (rows : List (Row K)) (h : driver fuel sa env config contents = .ok (s, rows)) (m : Nat) (hm : 0 < m)
    (hle : m ≤ rows.length) :
    Rectangular rows ∧ ∃ s0 hist x, bmiInitialize env config = .ok s0 ∧ Run s0 hist x ∧ hist.length = m ∧ (m = rows.length → x = s) ∧
      |water s0.p.cum s0.head / 100 + colSum colPrecip (rows.take m) - colSum colRunoff (rows.take m) - colSum colAet (rows.take m) -
        colSum colPerc (rows.take m) - lastOf colStorage (rows.take m) - x.mb.volon / 100 + x.mb.volcalib / 100| ≤
          (x.p.timesteps : K) * (1e-4 + 1e-12) / 100 ∧
      colSum colPrecip (rows.take m) = colSum colInfil (rows.take m) + colSum colRunoff (rows.take m) + x.mb.volon / 100 ∧
      0 ≤ x.mb.volon ∧
      (∃ left, giuhLeft x.giuhQueue (x.numGiuh + 1) 0 0 = .ok left ∧
        colSum colGiuh (rows.take m) + left / 100 = colSum colRunoff (rows.take m) * s0.giuhOrd.sum) ∧
      colSum colDischarge (rows.take m) = colSum colGiuh (rows.take m) := by
  obtain ⟨c, s0, hist, hc, h0, hr, hrow, hq⟩ := driver_run h
  have hlen := hrow.length_eq
  obtain ⟨x, hx, hxs⟩ := hr.prefix m (by omega)
  refine ⟨?_, s0, hist.take m, x, h0, hx, by rw [List.length_take]; omega, fun e => hxs (by omega), ?_⟩
  · clear * - hrow
    intro r hr
    induction hrow with
    | nil => simp at hr
    | cons h _ ih =>
      rcases List.mem_cons.mp hr with rfl | hr
      · unfold RowOf at h
        rw [h]
        refine ⟨rfl, fun v hv => ?_⟩
        simp only [List.mem_cons, List.not_mem_nil, or_false] at hv
        rcases hv with rfl | rfl | rfl | rfl | rfl | rfl | rfl | rfl | rfl | rfl | rfl <;> exact ⟨_, rfl⟩
      · exact ih hr
  · obtain ⟨a1, a2, a3, a4, a5, _⟩ := table_core h0 hx (List.forall₂_take m hrow)
      (by intro e; have := congrArg List.length e; rw [List.length_take, List.length_nil] at this; omega)
      (readConfig_pond hc) (fun y hy => hq y (List.mem_cons_of_mem _ (List.mem_of_mem_take hy)))
    exact ⟨a1, a2, a3, a4, a5⟩

/-- C82, for a configuration without calibration and without ponding: the table and the initial storage close by themselves. -/
theorem C82_closes_alone (fuel : Nat) (sa : Bool) (env : Env K) (config : List (List Char))
    (contents : List Char → Option (List Char)) (c : Cfg K) (s : State K) (rows : List (Row K))
    (hc : readConfig env {} config = .ok c) (hcal : c.calib = false) (hpond : c.pondMax.getD 0 = 0)
    (h : driver fuel sa env config contents = .ok (s, rows)) (m : Nat) (hm : 0 < m) (hle : m ≤ rows.length) :
    ∃ s0 hist x, bmiInitialize env config = .ok s0 ∧ Run s0 hist x ∧ hist.length = m ∧
      |water s0.p.cum s0.head / 100 + colSum colPrecip (rows.take m) - colSum colRunoff (rows.take m) - colSum colAet (rows.take m) -
        colSum colPerc (rows.take m) - lastOf colStorage (rows.take m)| ≤ (x.p.timesteps : K) * (1e-4 + 1e-12) / 100 ∧
      colSum colPrecip (rows.take m) = colSum colInfil (rows.take m) + colSum colRunoff (rows.take m) := by
  obtain ⟨c', s0, hist, hc', h0, hr, hrow, hq⟩ := driver_run h
  obtain rfl : c = c' := by rw [hc, Except.ok.injEq] at hc'; exact hc'
  have hlen := hrow.length_eq
  obtain ⟨x, hx, hxs⟩ := hr.prefix m (by omega)
  refine ⟨s0, hist.take m, x, h0, hx, by rw [List.length_take]; omega, ?_⟩
  obtain ⟨a1, a2, a3, a4, a5, a6, a7⟩ := table_core h0 hx (List.forall₂_take m hrow)
    (by intro e; have := congrArg List.length e; rw [List.length_take, List.length_nil] at this; omega)
    (readConfig_pond hc) (fun y hy => hq y (List.mem_cons_of_mem _ (List.mem_of_mem_take hy)))
  rw [a6 hpond, a7 hcal] at a1
  rw [a6 hpond] at a2
  exact ⟨by simpa using a1, by simpa using a2⟩

end Exact

namespace Sample

/-- Two rows of forcing: one with rain, one with rain and PET. -/
def tableText : List Char := "Time,P,PET\na,60,0\nb,5,1\n".toList

def tableCfg (pond : String) : List (List Char) :=
  ["layer_thickness=10,20[cm]".toList, "layer_soil_type=1,2".toList, "soil_params_file=x".toList,
   "max_valid_soil_types=2".toList, "initial_psi=100[cm]".toList, "timestep=60[min]".toList, "endtime=2[hr]".toList,
   "forcing_resolution=60[min]".toList, pond.toList, "use_closed_form_G=true".toList,
   "wilting_point_psi=15495.0[cm]".toList, "field_capacity_psi=340.9[cm]".toList, "giuh_ordinates=0.7,0.3".toList,
   "forcing_file=f".toList]

theorem tablePond : ∃ a, driver 5000 true env (tableCfg "ponded_depth_max=2[cm]") (fun _ => some tableText) = .ok a ∧
    (a.2.length = 2 ∧ 0 < colSum colRunoff a.2 ∧ 0 < colSum colAet a.2 ∧ 0 < a.1.mb.volon) :=
  okAnd_exists (by decide +kernel)

theorem tableRun : ∃ a, driver 5000 true env (tableCfg "ponded_depth_max=0[cm]") (fun _ => some tableText) = .ok a ∧
    (a.2.length = 2 ∧ 0 < colSum colRunoff a.2 ∧ 0 < colSum colAet a.2) := okAnd_exists (by decide +kernel)

theorem tableRead : ∃ c, readConfig env {} (tableCfg "ponded_depth_max=0[cm]") = .ok c ∧
    (c.calib = false ∧ c.pondMax.getD 0 = 0) := okAnd_exists (by decide +kernel)

end Sample

/-- C82, a case meeting the hypotheses: two rows, with rain, runoff and AET, with ponding. -/
example : ∃ (env : Env Grid) (config : List (List Char)) (contents : List Char → Option (List Char)) (s : State Grid)
    (rows : List (Row Grid)), driver 5000 true env config contents = .ok (s, rows) ∧ 0 < 2 ∧ 2 ≤ rows.length ∧
    0 < colSum colRunoff rows ∧ 0 < colSum colAet rows ∧ 0 < s.mb.volon := by
  obtain ⟨⟨s, rows⟩, h1, h2, h3, h4, h5⟩ := Sample.tablePond
  exact ⟨_, _, _, s, rows, h1, by decide, h2.ge, h3, h4, h5⟩

/-- The same without ponding. -/
example : ∃ (env : Env Grid) (config : List (List Char)) (contents : List Char → Option (List Char)) (c : Cfg Grid) (s : State Grid)
    (rows : List (Row Grid)), readConfig env {} config = .ok c ∧ c.calib = false ∧ c.pondMax.getD 0 = 0 ∧
    driver 5000 true env config contents = .ok (s, rows) ∧ 0 < 2 ∧ 2 ≤ rows.length ∧
    0 < colSum colRunoff rows ∧ 0 < colSum colAet rows := by
  obtain ⟨⟨s, rows⟩, h1, h2, h3, h4⟩ := Sample.tableRun
  obtain ⟨c, h5, h6, h7⟩ := Sample.tableRead
  exact ⟨_, _, _, c, s, rows, h5, h6, h7, h1, by decide, h2.ge, h3, h4⟩

end LGAR
