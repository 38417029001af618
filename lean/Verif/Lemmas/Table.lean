import Verif.Props.Driver
import Verif.Props.Routing
import Verif.Props.Pond
import Verif.Lemmas.Config

/-! Lemmas on the output table of the stand-alone program. -/
set_option linter.unusedSectionVars false
namespace LGAR

section Free
variable {α : Type} [Add α] [Sub α] [Mul α] [Div α] [Neg α] [Zero α] [One α] [OfScientific α]
  [LT α] [LE α] [DecidableLT α] [DecidableLE α] [BEq α] [CMath α]

/-- The row belongs to the state: its values are the outputs in the order of `driverOutputs`. -/
def RowOf (r : Row α) (s : State α) : Prop :=
  r.vals = [.dbls [s.conv.precip], .dbls [s.conv.pet], .dbls [s.conv.aet], .dbls [s.conv.runoff], .dbls [s.conv.giuh],
    .dbls [s.conv.storage], .dbls [s.conv.Q], .dbls [s.conv.infil], .dbls [s.conv.rech], .dbls [s.conv.Qgw], .dbls [s.conv.massBalance]]

theorem getAll_driver (s : State α) : getAll s driverOutputs = .ok
    [.dbls [s.conv.precip], .dbls [s.conv.pet], .dbls [s.conv.aet], .dbls [s.conv.runoff], .dbls [s.conv.giuh],
    .dbls [s.conv.storage], .dbls [s.conv.Q], .dbls [s.conv.infil], .dbls [s.conv.rech], .dbls [s.conv.Qgw], .dbls [s.conv.massBalance]] :=
  rfl

end Free

section Exact
variable {K : Type} [Field K] [LinearOrder K] [IsStrictOrderedRing K] [CMath K] [LawfulNum K]

/-- What the driver leaves alone: calibration values; the ponding limit; no calibration, no storage change booked for it. -/
structure Unset (pm : K) (cf : Bool) (s : State K) : Prop where
  valid : s.p.invalidSoil = false
  cal : s.calib.pondMax = pm
  pond : s.p.pondMax = pm
  flag : s.p.calibFlag = true → cf = true
  calib : cf = false → s.mb.volcalib = 0

theorem Unset.update {pm : K} {cf : Bool} {s s' : State K} {fuel : Nat} {sa : Bool} {p e : K} (h : Unset pm cf s)
    (hu : update fuel sa { s with precipMm := p, petMm := e } = .ok s') : Unset pm cf s' := by
  rcases update_inv hu with ⟨hi, _⟩ | ⟨_, s1, d, v, u, h1, _, _, h2⟩
  · exact absurd hi (by rw [show ({ s with precipMm := p, petMm := e } : State K).p = s.p from rfl, h.valid]; simp)
  obtain ⟨_, _, _, _, _, _, _, _, _, hc, _, _, hp, hm, _⟩ := updatePost_inv h2
  obtain ⟨_, _, fs, soils, l, fc, pm', q, _, e1, _, hcal⟩ := updatePre_inv h1
  subst e1
  have hpm : pm' = pm := by
    rcases hcal with ⟨_, _, e, _⟩ | ⟨_, _, e, _⟩
    · rw [e]; exact h.cal
    · rw [e]; exact h.pond
  refine ⟨by rw [hp]; exact h.valid, by rw [hc]; exact h.cal, by rw [hp]; exact hpm, by rw [hp]; simp, fun hcf => ?_⟩
  rw [hm]
  show s.mb.volcalib + d = 0
  rcases hcal with ⟨e, _⟩ | ⟨_, _, _, _, _, e⟩
  · have := h.flag e
    rw [hcf] at this
    simp at this
  · rw [e, h.calib hcf, add_zero]

/-- After an Update on supported soils the outputs in metres are the last values of the books. -/
theorem update_tail {fuel : Nat} {sa : Bool} {s s' : State K} (hv : s.p.invalidSoil = false) (hu : update fuel sa s = .ok s') :
    s'.conv.storage * 100 = s'.mb.volend ∧ s'.mb.volon = s'.mb.volonT ∧ s'.conv.Q = s'.conv.giuh := by
  rcases update_inv hu with ⟨hi, _⟩ | ⟨_, s1, d, v, u, _, _, _, h2⟩
  · rw [hv] at hi; simp at hi
  obtain ⟨_, _, _, _, _, _, _, _, _, _, _, _, _, hm, hc⟩ := updatePost_inv h2
  rw [hm, hc]
  refine ⟨?_, rfl, rfl⟩
  show u.volend * 0.01 * 100 = u.volend
  norm_num [mul_assoc]

theorem Run.prefix {s0 s : State K} {hist : List (State K)} (h : Run s0 hist s) :
    ∀ m, m ≤ hist.length → ∃ x, Run s0 (hist.take m) x ∧ (m = hist.length → x = s) := by
  induction h with
  | nil => intro m hm; exact ⟨s0, by simpa using .nil, fun _ => rfl⟩
  | @step hist s s1 s2 fuel sa hr hi hu ih =>
    intro m hm
    by_cases e : m = (hist ++ [s2]).length
    · exact ⟨s2, by rw [e, List.take_length]; exact .step hr hi hu, fun _ => rfl⟩
    · rw [List.length_append, List.length_singleton] at hm e
      obtain ⟨x, hx, _⟩ := ih m (by omega)
      exact ⟨x, by rwa [List.take_append_of_le_length (by omega)], fun e' => absurd (by simpa using e') e⟩

theorem driverLoop_run {fuel : Nat} {sa : Bool} {f : Forcing K} {s0 : State K} {pm : K} {cf : Bool} :
    ∀ {n i : Nat} {s s' : State K} {hist : List (State K)} {rows : List (Row K)}, Run s0 hist s → Unset pm cf s →
      driverLoop fuel sa f n i s = .ok (s', rows) →
      ∃ hist', Run s0 (hist ++ hist') s' ∧ Unset pm cf s' ∧ (∀ x ∈ hist', Unset pm cf x) ∧ List.Forall₂ RowOf rows hist'
  | 0, i, s, s', hist, rows, hr, hq, h => by
    simp only [driverLoop, Except.ok.injEq, Prod.mk.injEq] at h
    obtain ⟨rfl, rfl⟩ := h
    exact ⟨[], by simpa using hr, hq, by simp, .nil⟩
  | n + 1, i, s, s', hist, rows, hr, hq, h => by
    simp only [driverLoop, bind_ok_iff, Prod.exists, pure_eq_ok, Except.ok.injEq, Prod.mk.injEq] at h
    obtain ⟨s1, r, h1, s2, rs, h2, rfl, rfl⟩ := h
    unfold driverStep at h1
    simp only [bind_ok_iff, idx_ok_iff, set_precip, set_pet, Except.ok.injEq, exists_eq_left', pure_eq_ok, Prod.mk.injEq] at h1
    obtain ⟨p, hp, e, he, t, ht, s1', hu, _, _, _, _, vals, hv, rfl, rfl⟩ := h1
    have hq1 := hq.update hu
    have hr1 : Run s0 (hist ++ [s1']) s1' := .step hr ⟨p, e, s.p.soilTemp, s.calib, rfl⟩ hu
    obtain ⟨hist', a1, a2, a3, a4⟩ := driverLoop_run hr1 hq1 h2
    refine ⟨s1' :: hist', by simpa using a1, a2, fun x hx => ?_, .cons ?_ a4⟩
    · rcases List.mem_cons.mp hx with rfl | hx
      exacts [hq1, a3 x hx]
    · rw [getAll_driver, Except.ok.injEq] at hv
      exact hv.symm

theorem chain_keeps {env : Env K} {k : Key} {P : k.Val K → Prop}
    (hp : ∀ v u x y, P x → parseKey env v u k x = .ok y → P y) : ∀ {ls : List (List Char)} {x y : k.Val K}, P x →
    chain env k ls x = .ok y → P y
  | [], x, y, hx, h => by simp only [chain, Except.ok.injEq] at h; rwa [← h]
  | l :: ls, x, y, hx, h => by
    simp only [chain, bind_ok_iff] at h
    obtain ⟨z, hz, h⟩ := h
    exact chain_keeps hp (hp _ _ _ _ hx hz) h

/-- A negative ponding depth in the file is clipped. -/
theorem readConfig_pond {env : Env K} {lines : List (List Char)} {c : Cfg K} (h : readConfig env {} lines = .ok c) :
    0 ≤ c.pondMax.getD 0 := by
  rw [readConfig_iff] at h
  have : ∀ t, c.pondMax = some t → 0 ≤ t := by
    refine chain_keeps (k := .pondMax) (P := fun x => ∀ t, x = some t → 0 ≤ t) ?_ (by intro t ht; cases ht) (h .pondMax)
    intro v u x y _ hy
    have hy' : (cstod env v).map (fun x => some (CMath.fmax x 0)) = .ok (show Option K from y) := hy
    rw [map_ok_iff'] at hy'
    obtain ⟨z, _, hy'⟩ := hy'
    intro t ht
    have e : some (CMath.fmax z 0) = some t := hy'.trans ht
    rw [Option.some.injEq, fmax_eq] at e
    rw [← e]; exact le_max_right _ _
  cases hc : c.pondMax with
  | none => simp
  | some t => simpa using this t hc

/-- A driver run is a run of Updates; its rows are the outputs after each. -/
theorem driver_run {fuel : Nat} {sa : Bool} {env : Env K} {config : List (List Char)} {contents : List Char → Option (List Char)}
    {s : State K} {rows : List (Row K)} (h : driver fuel sa env config contents = .ok (s, rows)) :
    ∃ c s0 hist, readConfig env {} config = .ok c ∧ bmiInitialize env config = .ok s0 ∧ Run s0 hist s ∧ List.Forall₂ RowOf rows hist ∧
      ∀ x ∈ s :: hist, Unset (c.pondMax.getD 0) c.calib x := by
  unfold driver at h
  simp only [bind_ok_iff] at h
  obtain ⟨s0, h0, q, hq, h⟩ := h
  obtain ⟨f, h⟩ : ∃ f, driverLoop fuel sa f (CMath.toInt q).toNat 0 s0 = .ok (s, rows) := by
    cases hf : findForcing config with
    | none => simp [hf, error_bind] at h
    | some file =>
      simp only [hf, ok_bind] at h
      cases hc : contents file with
      | none => simp [hc, error_bind] at h
      | some text =>
        simp only [hc, ok_bind, bind_ok_iff, cassert_ok_iff] at h
        obtain ⟨f, _, _, _, h⟩ := h
        exact ⟨f, h⟩
  obtain ⟨c, hc, hi, _⟩ := bmiInitialize_inv h0
  have hv := lgarInit_valid hi
  have hquiet : Unset (c.pondMax.getD 0) c.calib s0 := by
    obtain ⟨ts, file, fl, soils, cnt, thick, psi, dt, endt, wp, fc, res, ords, inv, giuh, soilZ, q, depth, vs, cs, _, _, _, _, _,
      _, _, _, _, _, _, _, _, _, _, _, _, _, _, _, _, _, _, _, hs⟩ := lgarInit_inv hi
    refine ⟨hv, ?_, ?_, ?_, ?_⟩ <;> rw [hs]
    · exact id
    · exact fun _ => rfl
  obtain ⟨hist, a1, a2, a3, a4⟩ := driverLoop_run .nil hquiet h
  exact ⟨c, s0, hist, hc, h0, by simpa using a1, a4, fun x hx => by
    rcases List.mem_cons.mp hx with rfl | hx
    exacts [a2, a3 x hx]⟩

end Exact
end LGAR
