import Verif.Lemmas.RestRun
import Verif.Lemmas.Config
import Verif.Props.Cut
import Verif.Lemmas.Init
import Verif.Spec.SampleReal
/-
C76: without rain and without evaporative demand the model stays in its initial state.
-/
namespace LGAR

theorem calibInit_get {g : Geo ℝ} : ∀ {n layer : Nat} {cs : List (SoilProps ℝ)}, calibInit g n layer = .ok cs →
    ∀ k, layer ≤ k → k < layer + n → ∀ {so : SoilProps ℝ}, g.soil k = .ok so → cs[k - layer]? = some so
  | 0, layer, cs, _, k, h1, h2, _, _ => by omega
  | n + 1, layer, cs, h, k, h1, h2, so, hso => by
    unfold calibInit at h
    simp only [bind_ok_iff, pure_eq_ok, Except.ok.injEq] at h
    obtain ⟨s, hs, r, hr, rfl⟩ := h
    rcases Nat.lt_or_ge layer k with hlt | hge
    · have := calibInit_get hr k (by omega) (by omega) hso
      rw [show k - layer = k - (layer + 1) + 1 by omega, List.getElem?_cons_succ]
      exact this
    · obtain rfl : k = layer := by omega
      rw [hs, Except.ok.injEq] at hso
      simp [hso]

/-- Initialize leaves the column at rest at the configured head. -/
theorem initialize_still {env : Env ℝ} {lines : List (List Char)} {s : State ℝ} (h : bmiInitialize env lines = .ok s)
    (hp : PhysGeo s.geo) (ht : ∀ x ∈ s.p.layerThickness.drop 1, 0 < x) (hpsi : 0 ≤ s.p.initialPsi) (hpond : 0 ≤ s.p.pondMax)
    (hdt : 0 < s.p.timestepH) (hres : 0 < s.p.forcingResH) (hord : s.giuhOrd ≠ []) : Still s.p.initialPsi s := by
  obtain ⟨c, _, hi, hne⟩ := bmiInitialize_inv h
  have hval := lgarInit_valid hi
  obtain ⟨ts, file, fl, soils, cnt, thick, psi, dt, endt, wp, fc, res, ords, inv, giuh, soilZ, q, depth, vs, cs, _, _, _, _, _,
    hthick, _, _, _, _, _, _, _, _, _, _, _, _, _, hgeo, hhead, _, hlen, hcs, hs⟩ := lgarInit_inv hi
  have hpos : 0 < thick.length := by
    cases thick with
    | nil => exact absurd hthick hne
    | cons => simp
  have ethick : s.p.layerThickness = 0 :: thick := by rw [hs]
  have epsi : s.p.initialPsi = psi := by rw [hs]
  have eN : s.geo.numLayers = thick.length := by rw [hgeo]
  have ecum : s.geo.cum = cumThickness thick := by rw [hgeo]
  have efr : s.geo.frozen = List.replicate (thick.length + 1) 1 := by rw [hgeo]
  rw [ethick] at ht
  rw [epsi] at hpsi ⊢
  have hsoil : ∀ k, 1 ≤ k → k ≤ s.geo.numLayers → ∃ so, s.geo.soil k = .ok so ∧ so.Physical := by
    intro k h1 h2
    obtain ⟨so, hso⟩ := calibInit_soil hcs k h1 (by rw [eN] at h2; omega)
    exact ⟨so, hso, hp k so h1 hso⟩
  have hg : Ground s.geo := by
    refine ⟨by rw [eN]; exact hpos, hsoil, ?_, ?_, ?_⟩
    · intro k _ hk
      refine ⟨1, ?_, zero_le_one⟩
      rw [efr, List.getElem?_replicate, if_pos (by rw [eN] at hk; omega)]
    · rw [ecum]; rfl
    · intro k hk
      rw [eN] at hk
      rw [ecum, cumThickness_get _ _ (by omega), cumThickness_get _ _ (by omega)]
      refine ⟨_, _, rfl, rfl, ?_⟩
      rw [List.take_succ_eq_append_getElem hk, List.foldl_append]
      simp only [List.foldl_cons, List.foldl_nil]
      have := ht thick[k] (by simp)
      linarith
  obtain ⟨l1, l2, l3⟩ := initFronts_inv hhead
  have hr : Rest s.geo psi s.head := by
    refine ⟨l1, fun i f hf => ?_⟩
    obtain ⟨so, th, cd, ff, Se, K, g1, g2, g3, g4, g5, g6, rfl⟩ := l3 i f hf
    have hi : i < s.head.length := (List.getElem?_eq_some_iff.mp hf).1
    have hph := hp (i + 1) so (by omega) g1
    have hK : 0 ≤ K := by
      have hff : ff = 1 := by
        rw [efr, List.getElem?_replicate] at g4
        split_ifs at g4
        simpa using g4.symm
      obtain ⟨_, _, _, Se', e1, s0, s1, _⟩ := rest_soil hph hpsi g2
      rw [g5, Except.ok.injEq] at e1
      subst e1
      rw [calcKFromSe_real hph.m_pos s0 s1, Except.ok.injEq] at g6
      rw [← g6, hff]
      exact mul_nonneg (by have := hph.ksat; linarith) muK_nonneg
    exact ⟨rfl, rfl, rfl, rfl, rfl, hK, g3, so, g1, hph, g2⟩
  refine ⟨hg, hr, hval, hdt, hres, by rw [hs], hpond, fun _ => ⟨?_, ?_, ?_⟩, ?_, ?_⟩
  · rw [hs]; simp [hlen]
  · have : s.calib.pondMax = s.p.pondMax := by rw [hs]
    rw [this]; exact hpond
  · intro k h1 h2
    have h2' : k ≤ thick.length := by rw [← eN]; exact h2
    obtain ⟨so, hso⟩ := calibInit_soil hcs k h1 (by omega)
    have hget := calibInit_get hcs k h1 (by omega) hso
    refine ⟨so, hso, ?_⟩
    rw [hs]
    simp [List.getElem?_map, hget]
  · refine ⟨by rw [hs], hord, by rw [hs]; simp⟩
  · rw [hs]; intro x hx
    exact List.eq_of_mem_replicate hx

theorem idle_still {fuel : Nat} {sa : Bool} {psi : ℝ} (hpsi : 0 ≤ psi) : ∀ {ts : List (List ℝ)} {s : State ℝ}, Still psi s →
    (s.p.sftCoupled = true → ∀ t ∈ ts, ∃ fs, frozenFactor s.p.cum (s.p.soilTempZ.zip t) s.p.frozen = .ok fs) →
    ∃ s', idle fuel sa ts s = .ok s' ∧ Still psi s' ∧ (ts ≠ [] → Kept s s') ∧ (ts = [] → s' = s)
  | [], s, h, _ => ⟨s, rfl, h, fun h => absurd rfl h, fun _ => rfl⟩
  | t :: ts, s, h, hf => by
    obtain ⟨s1, e1, h1, k1⟩ := update_rest (fuel := fuel) (sa := sa) hpsi h (fun hs => hf hs t (by simp))
    obtain ⟨s', e', h', k', z'⟩ := idle_still hpsi (fuel := fuel) (sa := sa) (ts := ts) h1 (fun hs t' ht' => by
      rw [k1.sft] at hs
      obtain ⟨fs, hfs⟩ := hf hs t' (by simp [ht'])
      unfold frozenFactor at hfs ⊢
      simp only [bind_ok_iff] at hfs
      obtain ⟨r, hr, _⟩ := hfs
      rw [k1.cum, k1.tempZ, hr, ok_bind]
      exact ⟨_, rfl⟩)
    refine ⟨s', ?_, h', fun _ => ?_, fun h => by simp at h⟩
    · unfold idle
      rw [e1, ok_bind]; exact e'
    · cases ts with
      | nil => rw [z' rfl]; exact k1
      | cons => exact k1.trans (k' (by simp))

theorem chain_some {env : Env ℝ} {k : Key} {P : k.Val ℝ → Prop}
    (hp : ∀ v u x y, P x → parseKey env v u k x = .ok y → P y) : ∀ {ls : List (List Char)} {x y : k.Val ℝ}, P x →
    chain env k ls x = .ok y → P y
  | [], x, y, hx, h => by simp only [chain, Except.ok.injEq] at h; rwa [← h]
  | l :: ls, x, y, hx, h => by
    simp only [chain, bind_ok_iff] at h
    obtain ⟨z, hz, h⟩ := h
    exact chain_some hp (hp _ _ _ _ hx hz) h

theorem optTime_pos {env : Env ℝ} {v : List Char} {f : ℝ → ℝ} {w : String} {y : Option ℝ} (h : optTime env v f w = .ok y) :
    ∀ t, y = some t → 0 < t := by
  simp only [optTime, bind_ok_iff, cassert_ok_iff, Except.ok.injEq] at h
  obtain ⟨z, _, _, hz, rfl⟩ := h
  intro t ht
  rw [Option.some.injEq] at ht
  rw [← ht]; exact hz

/-- What the read loop itself refuses or clips: times that are not positive, a negative ponding depth. -/
theorem readConfig_signs {env : Env ℝ} {lines : List (List Char)} {c : Cfg ℝ} (h : readConfig env {} lines = .ok c) :
    (∀ t, c.timestep = some t → 0 < t) ∧ (∀ t, c.forcingRes = some t → 0 < t) ∧ (∀ t, c.pondMax = some t → 0 ≤ t) := by
  rw [readConfig_iff] at h
  refine ⟨?_, ?_, ?_⟩
  · refine chain_some (k := .timestep) (P := fun x => ∀ t, x = some t → 0 < t) ?_ (by intro t ht; cases ht) (h .timestep)
    intro v u x y _ hy
    exact fun t ht => optTime_pos hy t ht
  · refine chain_some (k := .forcingRes) (P := fun x => ∀ t, x = some t → 0 < t) ?_ (by intro t ht; cases ht) (h .forcingRes)
    intro v u x y _ hy
    exact fun t ht => optTime_pos hy t ht
  · refine chain_some (k := .pondMax) (P := fun x => ∀ t, x = some t → 0 ≤ t) ?_ (by intro t ht; cases ht) (h .pondMax)
    intro v u x y _ hy
    have hy' : (cstod env v).map (fun x => some (CMath.fmax x 0)) = .ok (show Option ℝ from y) := hy
    rw [map_ok_iff'] at hy'
    obtain ⟨z, _, hy'⟩ := hy'
    intro t ht
    have e : some (CMath.fmax z 0) = some t := hy'.trans ht
    rw [Option.some.injEq, fmax_eq] at e
    rw [← e]; exact le_max_right _ _

/-- C76: after Initialize with physical soils, positive layer thicknesses and a head >= 0, any number of Updates without rain and
without evaporative demand all return, whatever the soil temperatures, with or without calibration by the values in use.  The
fronts keep depth, moisture, head, layer, number, flag and speed 0; the storage stays what it was at the start; no water has
infiltrated, run off, evaporated, percolated or been routed; nothing is ponded. -/
theorem C76_rest (env : Env ℝ) (lines : List (List Char)) (s0 : State ℝ) (h : bmiInitialize env lines = .ok s0) (fuel : Nat)
    (sa : Bool) (ts : List (List ℝ)) (hp : PhysGeo s0.geo) (ht : ∀ x ∈ s0.p.layerThickness.drop 1, 0 < x)
    (hpsi : 0 ≤ s0.p.initialPsi) (hord : s0.giuhOrd ≠ [])
    (hfr : s0.p.sftCoupled = true → ∀ t ∈ ts, ∃ fs, frozenFactor s0.p.cum (s0.p.soilTempZ.zip t) s0.p.frozen = .ok fs) :
    ∃ s, idle fuel sa ts s0 = .ok s ∧ SameFronts s0.head s.head ∧ massBal s.p.cum s.head = .ok s0.mb.volstart ∧
      (∀ f ∈ s.head, f.psi = s0.p.initialPsi ∧ f.dzdt = 0 ∧ f.toBottom = true) ∧ s.mb.volonT = 0 ∧
      s.mb.volin = 0 ∧ s.mb.volrunoff = 0 ∧ s.mb.volAET = 0 ∧ s.mb.volrech = 0 ∧ s.mb.volprecip = 0 ∧ s.mb.volPET = 0 ∧
      s.mb.volgiuh = 0 ∧ s.mb.volQ = 0 ∧ s.mb.volcalib = 0 := by
  obtain ⟨c, hc, hi, _⟩ := bmiInitialize_inv h
  obtain ⟨_, file, fl, soils, cnt, thick, psi, dt, endt, wp, fc, res, ords, inv, giuh, soilZ, q, depth, vs, cs, _, _, _, _, _,
    _, _, _, b1, _, _, _, b2, _, _, _, _, _, _, hgeo, _, hm, _, _, hs0⟩ := lgarInit_inv hi
  obtain ⟨q1, q2, q3⟩ := readConfig_signs hc
  have hpond : 0 ≤ s0.p.pondMax := by
    rw [hs0]
    show 0 ≤ c.pondMax.getD 0
    cases e : c.pondMax with
    | none => exact le_refl _
    | some t => exact q3 t e
  have hst := initialize_still h hp ht hpsi hpond (by rw [hs0]; exact q1 _ b1) (by rw [hs0]; exact q2 _ b2) hord
  obtain ⟨s, e, hs, hk, hz⟩ := idle_still (fuel := fuel) (sa := sa) hpsi hst hfr
  have hm0 : massBal s0.p.cum s0.head = .ok s0.mb.volstart := by
    have e1 : s0.p.cum = cumThickness thick := by rw [hs0]
    have e2 : s0.mb.volstart = vs := by rw [hs0]
    rw [e1, e2]; exact hm
  have hfr' : ∀ f ∈ s.head, f.psi = s0.p.initialPsi ∧ f.dzdt = 0 ∧ f.toBottom = true := by
    intro f hf
    obtain ⟨i, hi, rfl⟩ := List.getElem_of_mem hf
    have := hs.rest.front i _ (List.getElem?_eq_getElem hi)
    exact ⟨this.head, this.speed, this.bottom⟩
  have z1 : s0.mb.volin = 0 := by rw [hs0]
  have z2 : s0.mb.volrunoff = 0 := by rw [hs0]
  have z3 : s0.mb.volAET = 0 := by rw [hs0]
  have z4 : s0.mb.volrech = 0 := by rw [hs0]
  have z5 : s0.mb.volprecip = 0 := by rw [hs0]
  have z6 : s0.mb.volPET = 0 := by rw [hs0]
  have z7 : s0.mb.volgiuh = 0 := by rw [hs0]
  have z8 : s0.mb.volQ = 0 := by rw [hs0]
  have z9 : s0.mb.volcalib = 0 := by rw [hs0]
  by_cases hne : ts = []
  · obtain rfl := hz hne
    exact ⟨s, e, rfl, hm0, hfr', hs.volon, z1, z2, z3, z4, z5, z6, z7, z8, z9⟩
  · have k := hk hne
    refine ⟨s, e, k.fronts, ?_, hfr', hs.volon, k.infil.trans z1, k.runoff.trans z2, k.aet.trans z3, k.rech.trans z4,
      k.precip.trans z5, k.pet.trans z6, k.giuh.trans z7, k.Q.trans z8, k.calib.trans z9⟩
    rw [← massBal_same k.fronts, k.cum]; exact hm0

/-- Case for C76: the sample configuration over the reals meets the hypotheses; it is calibrated in the first Update and its end
time is reached after two. -/
example (fuel : Nat) (sa : Bool) (ts : List (List ℝ)) : ∃ s0 s, bmiInitialize SampleReal.env SampleReal.lines = .ok s0 ∧
    s0.p.calibFlag = true ∧ s0.head.length = 1 ∧ idle fuel sa ts s0 = .ok s ∧ SameFronts s0.head s.head := by
  obtain ⟨s0, h0, hp, hcal, _⟩ := SampleReal.init
  obtain ⟨c, hc, hi, _⟩ := bmiInitialize_inv h0
  rw [SampleReal.readConfig_lines, Except.ok.injEq] at hc
  subst hc
  obtain ⟨_, file, fl, soils, cnt, thick, psi, dt, endt, wp, fc, res, ords, inv, giuh, soilZ, q, depth, vs, cs, _, _, _, _, _,
    a1, _, a2, a3, _, _, _, a4, a5, a6, a7, _, _, _, hgeo, _, hm, hlen, _, hs0⟩ := lgarInit_inv hi
  simp only [SampleReal.cfg, Option.some.injEq] at a1 a2 a3 a4 a5
  subst a1; subst a2; subst a3; subst a4; subst a5
  have hg : giuh ≠ [] := by
    rw [cdiv_ne one_ne_zero, Except.ok.injEq, div_one] at a6
    subst a6
    rw [SampleReal.toInt_one] at a7
    intro hz
    subst hz
    simp only [Int.toNat_one, giuhResample, bind_ok_iff, pure_eq_ok, Except.ok.injEq] at a7
    obtain ⟨q, _, r, _, hr⟩ := a7
    simp at hr
  obtain ⟨s, e, hsame, _⟩ := C76_rest _ _ s0 h0 fuel sa ts hp (by rw [hs0]; simp) (by rw [hs0]; norm_num)
    (by rw [hs0]; exact hg)
    (by rw [hs0]; simp [SampleReal.cfg])
  exact ⟨s0, s, h0, hcal, by rw [← hlen]; rfl, e, hsame⟩

namespace RestSample
open Sample

/-- Initialize, a ponding depth of -1 cm set as calibration parameter, one Update without rain and evaporative demand. -/
def drain : Res (State Grid × State Grid) := do
  let s0 ← bmiInitialize env (CutSample.file "forcing_resolution=30[min]" "calib_params=true")
  let s ← update 1000 true { s0 with precipMm := 0, petMm := 0, calib := { s0.calib with pondMax := -1 } }
  .ok (s0, s)

theorem check : okAnd drain (fun r => decide (r.1.head.length = 2 ∧ r.2.mb.volprecip = 0 ∧ r.2.mb.volrunoff = 1 ∧
    r.2.mb.volonT = -1)) = true := by decide +kernel

end RestSample

attribute [local irreducible] bmiInitialize Sample.env LGAR.update in
/-- C76 needs calibration parameters that the configuration file could hold: the file's `ponded_depth_max` is clipped at 0
(lgar.cxx 499), the one set through the BMI is not (bmi_lgar.cxx 643).  With -1 cm an Update without any rain puts 1 cm of runoff
on the books and leaves -1 cm of water on the surface. -/
theorem C76_negative_pond_fails : ∃ s0 s : State Grid,
    bmiInitialize Sample.env (CutSample.file "forcing_resolution=30[min]" "calib_params=true") = .ok s0 ∧
    update 1000 true { s0 with precipMm := 0, petMm := 0, calib := { s0.calib with pondMax := -1 } } = .ok s ∧
    s.mb.volprecip = 0 ∧ s.mb.volrunoff = 1 ∧ s.mb.volonT = -1 := by
  obtain ⟨r, hr, _, h1, h2, h3⟩ := Sample.okAnd_exists RestSample.check
  unfold RestSample.drain at hr
  simp only [bind_ok_iff, Except.ok.injEq] at hr
  obtain ⟨s0, hs0, s, hs, rfl⟩ := hr
  exact ⟨s0, s, hs0, hs, h1, h2, h3⟩

end LGAR
