import Verif.Spec.Bounds
import Verif.Lemmas.Config
import Verif.Lemmas.SoilReal
import Verif.Spec.Physical
import Verif.Props.Update
/-
Initialisation and calibration (C41, C51-C54).
-/
set_option linter.unusedSectionVars false
namespace LGAR

section Free
variable {α : Type} [Add α] [Sub α] [Mul α] [Div α] [Neg α] [Zero α] [One α] [OfScientific α]
  [LT α] [LE α] [DecidableLT α] [DecidableLE α] [BEq α] [CMath α]

/-- C51: after Initialize the bottom of layer k is the running sum of the first k configured thicknesses (in the order in which the
program adds them), and the depth of the column is the sum of all. -/
theorem C51_running_sums (env : Env α) (lines : List (List Char)) (s : State α) (h : bmiInitialize env lines = .ok s) :
    ∃ c thick, readConfig env {} lines = .ok c ∧ c.thick = some thick ∧ s.p.numLayers = thick.length ∧ s.p.cum.length = thick.length + 1 ∧
      (∀ k, k ≤ thick.length → s.p.cum[k]? = some ((thick.take k).foldl (· + ·) 0)) ∧ s.p.soilDepth = thick.foldl (· + ·) 0 := by
  obtain ⟨c, hc, hi, _⟩ := bmiInitialize_inv h
  obtain ⟨ts, file, fl, soils, cnt, thick, psi, dt, endt, wp, fc, res, ords, inv, giuh, soilZ, q, depth, vs, cs, _, _, _, _, _,
    hthick, _, _, _, _, _, _, _, _, _, _, _, _, hd, _, _, _, _, _, hs⟩ := lgarInit_inv hi
  have e1 : s.p.cum = cumThickness thick := by rw [hs]
  have e2 : s.p.numLayers = thick.length := by rw [hs]
  have e3 : s.p.soilDepth = depth := by rw [hs]
  refine ⟨c, thick, hc, hthick, e2, by rw [e1, cumThickness_length], fun k hk => by rw [e1, cumThickness_get _ _ hk], ?_⟩
  rw [cumThickness_get _ _ le_rfl, Option.some.injEq, List.take_length] at hd
  rw [e3, hd]

theorem invalidTypes_false {st : List Int} {numTypes : Int} : ∀ {n layer : Nat}, invalidTypes st numTypes n layer = .ok false →
    ∀ k, layer ≤ k → k < layer + n → ∃ t, st[k]? = some t ∧ t ≤ numTypes
  | 0, layer, _, k, h1, h2 => by omega
  | n + 1, layer, h, k, h1, h2 => by
    unfold invalidTypes at h
    simp only [bind_ok_iff, idx_ok_iff] at h
    obtain ⟨t, ht, h⟩ := h
    split at h
    · simp [pure_eq_ok] at h
    · rename_i hle
      rcases Nat.lt_or_ge layer k with hlt | hge
      · exact invalidTypes_false h k (by omega) (by omega)
      · obtain rfl : k = layer := by omega
        exact ⟨t, ht, by omega⟩

theorem invalidTypes_ok {st : List Int} {numTypes : Int} : ∀ {n layer : Nat}, layer + n ≤ st.length →
    (∀ k t, layer ≤ k → k < layer + n → st[k]? = some t → t ≤ numTypes) → invalidTypes st numTypes n layer = .ok false
  | 0, layer, _, _ => rfl
  | n + 1, layer, hl, h => by
    have hlt : layer < st.length := by omega
    unfold invalidTypes
    have hi : idx st layer = .ok st[layer] := idx_ok_iff.mpr (List.getElem?_eq_getElem hlt)
    rw [hi, ok_bind]
    have := h layer st[layer] le_rfl (by omega) (List.getElem?_eq_getElem hlt)
    rw [if_neg (by omega)]
    exact invalidTypes_ok (by omega) fun k t h1 h2 h3 => h k t (by omega) (by omega) h3

/-- C52: what the line `max_valid_soil_types=n` stores: n, but never more than 15. -/
theorem C52_stored (env : Env α) (c : Cfg α) (v : List Char) (n : Int) (hv : env.stoi v = some n) :
    ∃ c', applyKey env c v [] .numTypes = .ok c' ∧ c'.numTypes = some (min n 15) :=
  ⟨{ c with numTypes := some (min n 15) }, by simp only [applyKey, setNumTypes, hv], rfl⟩

/-- C52: a layer is flagged as unsupported exactly when its soil type exceeds the stored maximum; so types up to
max_valid_soil_types are valid as long as this is at most 15.  Missing: types above 15 (C52_above_15_fails). -/
theorem C52_flag_partial (ts : List Int) (n : Int) (N : Nat) (hN : N ≤ ts.length) (hn : n ≤ 15) :
    invalidTypes (typeArray ts) (min n 15) N 1 = .ok false ↔ ∀ k t, k < N → ts[k]? = some t → t ≤ n := by
  have e : min n 15 = n := by omega
  rw [e]
  constructor
  · intro h k t hk ht
    obtain ⟨t', ht', hle⟩ := invalidTypes_false h (k + 1) (by omega) (by omega)
    simp only [typeArray, List.getElem?_cons_succ] at ht'
    rw [ht, Option.some.injEq] at ht'
    omega
  · intro h
    refine invalidTypes_ok (by simp [typeArray]; omega) fun k t h1 h2 h3 => ?_
    cases k with
    | zero => omega
    | succ k => exact h k t (by omega) (by simpa [typeArray] using h3)

/-- C52 fails above 15: whatever max_valid_soil_types says, a configuration in which some layer has a soil type above 15 never
initialises. -/
theorem C52_above_15_fails (env : Env α) (c : Cfg α) (ts : List Int) (thick : List α) (k : Nat) (t : Int)
    (hn : ∀ m, c.numTypes = some m → m ≤ 15) (hts : c.soilType = some ts) (hth : c.thick = some thick) (hk : k < thick.length)
    (ht : ts[k]? = some t) (h15 : 15 < t) (s : State α) : lgarInit env c ≠ .ok s := by
  intro h
  have hv := lgarInit_valid h
  obtain ⟨ts', file, fl, soils, cnt, thick', psi, dt, endt, wp, fc, res, ords, inv, giuh, soilZ, q, depth, vs, cs, a1, _, _, _, _,
    a2, hinv, _, _, _, _, _, _, _, _, _, _, _, _, _, _, _, _, _, hs⟩ := lgarInit_inv h
  rw [hts, Option.some.injEq] at a1
  rw [hth, Option.some.injEq] at a2
  subst a1; subst a2
  rw [hv] at hinv
  obtain ⟨t', ht', hle⟩ := invalidTypes_false hinv (k + 1) (by omega) (by omega)
  simp only [typeArray, List.getElem?_cons_succ] at ht'
  rw [ht, Option.some.injEq] at ht'
  subst ht'
  have : c.numTypes.getD 15 ≤ 15 := by
    cases hc : c.numTypes with
    | none => simp
    | some m => simpa using hn m hc
  omega

theorem setIdx_ok {β : Type} {l l' : List β} {i : Nat} {x : β} (h : setIdx l i x = .ok l') : i < l.length ∧ l' = l.set i x := by
  unfold setIdx at h
  split at h
  · simp only [Except.ok.injEq] at h; exact ⟨‹_›, h.symm⟩
  · simp at h

/-- What reading the soil file leaves in the array. -/
theorem readSoilsGo_get {scanF : List Char → Option (α × List Char)} {wp : α} {numTypes : Int} :
    ∀ {lines : List (List Char)} {soil : Nat} {count : Int} {r : SoilRec α} {soils : List (SoilProps α)}
    {x : List (SoilProps α) × Int}, readSoilsGo scanF wp numTypes lines soil count r soils = .ok x →
    (∀ j, j < soil → x.1[j]? = soils[j]?) ∧ (∀ j, soil + lines.length ≤ j → x.1[j]? = soils[j]?) ∧
      ∀ (i : Nat) (line : List Char), lines[i]? = some line → count + i < numTypes →
        ∃ old rr p, x.1[soil + i]? = some p ∧ soilOfRec wp old (scanLine scanF rr line) = .ok p
  | [], soil, count, r, soils, x, h => by
    simp only [readSoilsGo, Except.ok.injEq] at h; subst h
    exact ⟨fun _ _ => rfl, fun _ _ => rfl, fun i line hi => by simp at hi⟩
  | line :: rest, soil, count, r, soils, x, h => by
    unfold readSoilsGo at h
    simp only [bind_ok_iff] at h
    obtain ⟨old, hold, p, hp, so, hso, h⟩ := h
    obtain ⟨hlt, rfl⟩ := setIdx_ok hso
    split at h
    · rename_i hstop
      simp only [pure_eq_ok, Except.ok.injEq] at h; subst h
      refine ⟨fun j hj => List.getElem?_set_ne (by omega), fun j hj => List.getElem?_set_ne (by simp at hj; omega), ?_⟩
      intro i l hi hc
      cases i with
      | zero =>
        simp only [List.getElem?_cons_zero, Option.some.injEq] at hi
        subst hi
        exact ⟨old, r, p, by simp [hlt], hp⟩
      | succ i => omega
    · obtain ⟨h1, h2, h3⟩ := readSoilsGo_get h
      refine ⟨fun j hj => by rw [h1 j (by omega)]; exact List.getElem?_set_ne (by omega), fun j hj => ?_, ?_⟩
      · simp only [List.length_cons] at hj
        rw [h2 j (by omega)]; exact List.getElem?_set_ne (by omega)
      · intro i l hi hc
        cases i with
        | zero =>
          simp only [List.getElem?_cons_zero, Option.some.injEq] at hi
          subst hi
          exact ⟨old, r, p, by rw [Nat.add_zero, h1 soil (by omega)]; simp [hlt], hp⟩
        | succ i =>
          simp only [List.getElem?_cons_succ] at hi
          have := h3 i l hi (by push_cast at hc ⊢; omega)
          rwa [show soil + (i + 1) = soil + 1 + i by omega]

/-- The line consists of a name and five numbers, which `%lf` reads one after another as the fields of `r`. -/
def ReadsAs (scanF : List Char → Option (α × List Char)) (line : List Char) (r : SoilRec α) : Prop :=
  ∃ (sp rest s1 s2 s3 s4 s5 : List Char), line = sp ++ (r.name ++ rest) ∧ (∀ c ∈ sp, isBlank c = true) ∧ r.name ≠ [] ∧
    (∀ c ∈ r.name, isBlank c = false) ∧ (∀ c, rest.head? = some c → isBlank c = true) ∧
    scanF rest = some (r.thetaR, s1) ∧ scanF s1 = some (r.thetaE, s2) ∧ scanF s2 = some (r.alpha, s3) ∧
    scanF s3 = some (r.n, s4) ∧ scanF s4 = some (r.Ksat, s5)

theorem scanLine_reads {scanF : List Char → Option (α × List Char)} {line : List Char} {r : SoilRec α} (h : ReadsAs scanF line r)
    (r0 : SoilRec α) : scanLine scanF r0 line = r := by
  obtain ⟨sp, rest, s1, s2, s3, s4, s5, rfl, hsp, hne, hname, hrest, f1, f2, f3, f4, f5⟩ := h
  have d1 : (sp ++ (r.name ++ rest)).dropWhile isBlank = r.name ++ rest := by
    rw [List.dropWhile_append_of_pos hsp]
    cases hn : r.name with
    | nil => exact absurd hn hne
    | cons a t =>
      have := hname a (by rw [hn]; simp)
      simp [this]
  have d2 : (r.name ++ rest).takeWhile (fun c => !isBlank c) = r.name := by
    rw [List.takeWhile_append_of_pos (fun c hc => by simp [hname c hc])]
    cases rest with
    | nil => simp
    | cons a t =>
      have := hrest a rfl
      simp [this]
  unfold scanLine
  rw [d1]
  have he : (r.name ++ rest).isEmpty = false := by
    cases hn : r.name with
    | nil => exact absurd hn hne
    | cons a t => rfl
  simp only [he, Bool.false_eq_true, if_false]
  rw [d2, List.drop_left]
  unfold scanFields
  simp only [f1, f2, f3, f4, f5]

theorem soilOfRec_fields {wp : α} {old p : SoilProps α} {r : SoilRec α} (h : soilOfRec wp old r = .ok p) :
    p.thetaR = r.thetaR ∧ p.thetaE = r.thetaE ∧ p.vgAlpha = r.alpha ∧ p.vgN = r.n ∧ p.Ksat = r.Ksat ∧
      ∃ q, cdiv 1 r.n = .ok q ∧ p.vgM = 1 - q := by
  unfold soilOfRec at h
  split at h
  · simp at h
  split at h
  · simp at h
  split at h
  · simp at h
  simp only [bind_ok_iff] at h
  obtain ⟨q, hq, h⟩ := h
  split at h
  · simp only [bind_ok_iff, Except.ok.injEq] at h
    obtain ⟨_, _, _, _, _, _, _, _, _, _, _, rfl, _, _, _, _, h⟩ := h
    simp only [pure_eq_ok, Except.ok.injEq] at h
    subst h
    exact ⟨rfl, rfl, rfl, rfl, rfl, q, hq, rfl⟩
  · simp only [bind_ok_iff, Except.ok.injEq] at h
    obtain ⟨_, rfl, _, _, _, _, h⟩ := h
    simp only [pure_eq_ok, Except.ok.injEq] at h
    subst h
    exact ⟨rfl, rfl, rfl, rfl, rfl, q, hq, rfl⟩

/-- C53: if the i-th line after the header consists of a name (without blanks) and five numbers, then after Initialize soil type i has
these numbers as its parameters, with m = 1 - 1/n.  Missing: names containing blanks (C53_blank_in_name_fails). -/
theorem C53_right_line_partial (env : Env α) (c : Cfg α) (s : State α) (h : lgarInit env c = .ok s) (file : List Char) (fl : List (List Char))
    (hf : c.soilFile = some file) (hfl : env.files file = some fl) (i : Nat) (line : List Char) (r : SoilRec α) (hi : 1 ≤ i)
    (hmax : (i : Int) ≤ s.p.numSoilTypes) (hline : fl[i]? = some line) (hr : ReadsAs env.scanF line r) :
    ∃ p, s.soils[i]? = some p ∧ p.thetaR = r.thetaR ∧ p.thetaE = r.thetaE ∧ p.vgAlpha = r.alpha ∧ p.vgN = r.n ∧ p.Ksat = r.Ksat ∧
      ∃ q, cdiv 1 r.n = .ok q ∧ p.vgM = 1 - q := by
  obtain ⟨ts', file', fl', soils, cnt, thick', psi, dt, endt, wp, fc, res, ords, inv, giuh, soilZ, q, depth, vs, cs, _, a1, _, a2, hsoil,
    _, _, _, _, _, _, _, _, _, _, _, _, _, _, _, _, _, _, _, hs⟩ := lgarInit_inv h
  rw [hf, Option.some.injEq] at a1
  subst a1
  rw [hfl, Option.some.injEq] at a2
  subst a2
  obtain ⟨_, _, hget⟩ := readSoilsGo_get hsoil
  have e1 : s.soils = soils := by rw [hs]
  have e2 : s.p.numSoilTypes = c.numTypes.getD 15 := by rw [hs]
  obtain ⟨j, rfl⟩ : ∃ j, i = 1 + j := ⟨i - 1, by omega⟩
  obtain ⟨old, rr, p, h1, h2⟩ := hget j line (by rw [List.getElem?_drop]; exact hline) (by rw [e2] at hmax; push_cast at hmax ⊢; omega)
  rw [scanLine_reads hr] at h2
  exact ⟨p, by rw [e1]; exact h1, soilOfRec_fields h2⟩

/-- C53: entry 0 of the array, and the entries of soil types beyond the end of the file, keep whatever memory held; a layer may
refer to them (soil type 0 is not refused either). -/
theorem C53_uninitialised (env : Env α) (c : Cfg α) (s : State α) (h : lgarInit env c = .ok s) (file : List Char) (fl : List (List Char))
    (hf : c.soilFile = some file) (hfl : env.files file = some fl) (i : Nat) (hmax : (i : Int) ≤ s.p.numSoilTypes)
    (hi : i = 0 ∨ fl.length ≤ i ∧ 1 ≤ i) : s.soils[i]? = some env.junkSoil := by
  obtain ⟨ts', file', fl', soils, cnt, thick', psi, dt, endt, wp, fc, res, ords, inv, giuh, soilZ, q, depth, vs, cs, _, a1, hn, a2, hsoil,
    _, _, _, _, _, _, _, _, _, _, _, _, _, _, _, _, _, _, _, hs⟩ := lgarInit_inv h
  rw [hf, Option.some.injEq] at a1
  subst a1
  rw [hfl, Option.some.injEq] at a2
  subst a2
  obtain ⟨h1, h2, _⟩ := readSoilsGo_get hsoil
  have e1 : s.soils = soils := by rw [hs]
  have e2 : s.p.numSoilTypes = c.numTypes.getD 15 := by rw [hs]
  rw [e2] at hmax
  have hr : (List.replicate (c.numTypes.getD 15 + 1).toNat env.junkSoil)[i]? = some env.junkSoil := by
    rw [List.getElem?_replicate, if_pos (by omega)]
  rw [e1]
  rcases hi with rfl | ⟨hi, hi1⟩
  · rw [h1 0 (by omega)]; exact hr
  · rw [h2 i (by simp; omega)]; exact hr

/-- C53 fails if a soil name contains a blank: the numbers of the line are not read and the soil silently gets the parameters of the
soil before it (0.05 instead of 0.1). -/
theorem C53_blank_in_name_fails : ∃ r, readSoils Sample.env.scanF 0 2
    ["header".toList, "sand 0.05 0.45 0.02 2 1.5".toList, "sandy loam 0.1 0.4 0.01 2 0.5".toList] Sample.env.junkRec
    (List.replicate 3 Sample.env.junkSoil) = .ok r ∧ (r.1.map fun s => s.thetaR) = [0, 1/20, 1/20] :=
  Sample.okAnd_exists (by decide +kernel)

/-- Case for C53: the sample file, where the second soil has its own numbers. -/
example : ∃ s, bmiInitialize Sample.env Sample.cfg = .ok s ∧ (s.soils.map fun s => s.thetaR) = [0, 1/20, 1/10] ∧
    (s.soils.map fun s => s.vgM) = [0, 1/2, 1/2] := Sample.okAnd_exists (by decide +kernel)

/-- C54: after Initialize there is exactly one front per layer, in order, at the bottom of its layer (running sum of the thicknesses),
flagged, at the configured head, not moving, with the moisture of the retention curve of its layer's soil. -/
theorem C54_initial (env : Env α) (lines : List (List Char)) (s : State α) (h : bmiInitialize env lines = .ok s) :
    ∃ c thick psi, readConfig env {} lines = .ok c ∧ c.thick = some thick ∧ c.initialPsi = some psi ∧ s.head.length = thick.length ∧
      ∀ (i : Nat) (f : Front α), s.head[i]? = some f →
        f.layer = i + 1 ∧ f.front = (i : Int) + 1 ∧ f.toBottom = true ∧ f.dzdt = 0 ∧ f.psi = psi ∧
        f.depth = (thick.take (i + 1)).foldl (· + ·) 0 ∧
        ∃ t p, s.p.layerSoilType[i + 1]? = some t ∧ 0 ≤ t ∧ s.soils[t.toNat]? = some p ∧
          calcThetaFromH psi p.vgAlpha p.vgM p.vgN p.thetaE p.thetaR = .ok f.theta := by
  obtain ⟨c, hc, hi, _⟩ := bmiInitialize_inv h
  obtain ⟨ts, file, fl, soils, cnt, thick, psi, dt, endt, wp, fc, res, ords, inv, giuh, soilZ, q, depth, vs, cs, _, _, _, _, _,
    hthick, _, hpsi, _, _, _, _, _, _, _, _, _, _, hd, hgeo, hhead, _, hlen, _, hs⟩ := lgarInit_inv hi
  obtain ⟨l1, _, l3⟩ := initFronts_inv hhead
  refine ⟨c, thick, psi, hc, hthick, hpsi, hlen.symm, fun i f hf => ?_⟩
  obtain ⟨p, th, cd, ff, Se, K, hp, hth, hcd, _, _, _, rfl⟩ := l3 i f hf
  have hilt : i < thick.length := by
    rw [hlen]; exact (List.getElem?_eq_some_iff.mp hf).1
  have ec : s.geo.cum = cumThickness thick := by rw [hgeo]
  rw [ec, cumThickness_get _ _ (by omega), Option.some.injEq] at hcd
  refine ⟨rfl, by push_cast; rfl, rfl, rfl, rfl, hcd.symm, ?_⟩
  unfold Geo.soil at hp
  simp only [bind_ok_iff, idx_ok_iff, idxI_ok_iff] at hp
  obtain ⟨t, ht, h0, hp⟩ := hp
  exact ⟨t, p, ht, h0, hp, hth⟩

/-- Layer `k` has, in the soil table, the calibrated values of layer `k`. -/
def Calibrated (soilType : List Int) (cal : Calib α) (soils : List (SoilProps α)) (k : Nat) : Prop :=
  ∃ t p q, soilType[k]? = some t ∧ 0 ≤ t ∧ soils[t.toNat]? = some p ∧ cal.thetaE[k - 1]? = some p.thetaE ∧
    cal.thetaR[k - 1]? = some p.thetaR ∧ cal.vgN[k - 1]? = some p.vgN ∧ cal.vgAlpha[k - 1]? = some p.vgAlpha ∧
    cal.Ksat[k - 1]? = some p.Ksat ∧ cdiv 1 p.vgN = .ok q ∧ p.vgM = 1 - q

theorem calibFront_full {st : List Int} {cal : Calib α} {soils soils' : List (SoilProps α)} {f f' : Front α}
    (h : calibFront st cal soils f = .ok (soils', f')) :
    1 ≤ f.layer ∧ ∃ t p p', st[f.layer]? = some t ∧ 0 ≤ t ∧ soils[t.toNat]? = some p ∧ soils' = soils.set t.toNat p' ∧
      p'.bcLambda = p.bcLambda ∧ p'.bcPsib = p.bcPsib ∧ p'.hMin = p.hMin ∧
      Calibrated st cal soils' f.layer ∧ f'.layer = f.layer ∧
      calcThetaFromH f.psi p'.vgAlpha p'.vgM p'.vgN p'.thetaE p'.thetaR = .ok f'.theta := by
  unfold calibFront at h
  simp only [bind_ok_iff, idx_ok_iff, idxI_ok_iff, idxPred_ok_iff, pure_eq_ok, Except.ok.injEq, Prod.mk.injEq] at h
  obtain ⟨t, ht, p, ⟨h0, hp⟩, te, ⟨hl, hte⟩, tr, ⟨_, htr⟩, n, ⟨_, hn⟩, q, hq, a, ⟨_, ha⟩, k, ⟨_, hk⟩, th, hth, rfl, rfl⟩ := h
  have hlt := (List.getElem?_eq_some_iff.mp hp).1
  refine ⟨hl, t, p, _, ht, h0, hp, rfl, rfl, rfl, rfl, ?_, rfl, hth⟩
  refine ⟨t, _, q, ht, h0, List.getElem?_set_self hlt, hte, htr, hn, ha, hk, hq, rfl⟩

theorem Calibrated.front {st : List Int} {cal : Calib α} {soils soils' : List (SoilProps α)} {f f' : Front α} {k : Nat}
    (h : calibFront st cal soils f = .ok (soils', f')) (hc : Calibrated st cal soils k)
    (hinj : ∀ t, st[k]? = some t → st[f.layer]? = some t → f.layer = k) : Calibrated st cal soils' k := by
  obtain ⟨_, t, p, p', ht, h0, hp, rfl, _, _, _, hcal, _, _⟩ := calibFront_full h
  by_cases hk : f.layer = k
  · rw [← hk]; exact hcal
  · obtain ⟨t2, p2, q, a1, a2, a3, a4⟩ := hc
    refine ⟨t2, p2, q, a1, a2, ?_, a4⟩
    rw [List.getElem?_set_ne]
    · exact a3
    · intro e
      have : t = t2 := by omega
      subst this
      exact hk (hinj t a1 ht)

theorem calibLoop_calibrated {st : List Int} {cal : Calib α} {N : Nat}
    (hinj : ∀ (i j : Nat) (t : Int), 1 ≤ i → i ≤ N → 1 ≤ j → j ≤ N → st[i]? = some t → st[j]? = some t → i = j) :
    ∀ {n : Nat} {soils soils' : List (SoilProps α)} {l l' : List (Front α)}, (∀ f ∈ l, 1 ≤ f.layer ∧ f.layer ≤ N) →
      calibLoop st cal n soils l = .ok (soils', l') →
      (∀ k, 1 ≤ k → k ≤ N → Calibrated st cal soils k → Calibrated st cal soils' k) ∧
      (∀ f ∈ l.take n, Calibrated st cal soils' f.layer) ∧
      ∀ i : Nat, (soils'[i]?.map fun p => (p.bcLambda, p.bcPsib, p.hMin)) = soils[i]?.map fun p => (p.bcLambda, p.bcPsib, p.hMin)
  | 0, soils, soils', l, l', _, h => by
    simp only [calibLoop, Except.ok.injEq, Prod.mk.injEq] at h
    obtain ⟨rfl, _⟩ := h
    exact ⟨fun _ _ _ h => h, by simp, fun _ => rfl⟩
  | n + 1, soils, soils', [], l', _, h => by simp [calibLoop] at h
  | n + 1, soils, soils', f :: t, l', hl, h => by
    unfold calibLoop at h
    simp only [bind_ok_iff, Prod.exists, pure_eq_ok, Except.ok.injEq, Prod.mk.injEq] at h
    obtain ⟨so, f', hf, so', t', ht, rfl, _⟩ := h
    obtain ⟨i1, i2, i3⟩ := calibLoop_calibrated hinj (fun g hg => hl g (List.mem_cons_of_mem _ hg)) ht
    obtain ⟨_, tt, p, p', a1, a2, a3, a4, b1, b2, b3, hcal, _, _⟩ := calibFront_full hf
    have hf1 := hl f (by simp)
    refine ⟨fun k h1 h2 hk => i1 k h1 h2 (hk.front hf fun t e1 e2 => hinj _ _ t hf1.1 hf1.2 h1 h2 e2 e1), ?_, ?_⟩
    · intro g hg
      simp only [List.take_succ_cons, List.mem_cons] at hg
      rcases hg with rfl | hg
      · exact i1 _ hf1.1 hf1.2 hcal
      · exact i2 g hg
    · intro i
      rw [i3 i, a4]
      by_cases hi : tt.toNat = i
      · subst hi
        rw [List.getElem?_set_self (List.getElem?_eq_some_iff.mp a3).1, a3]
        simp [b1, b2, b3]
      · rw [List.getElem?_set_ne hi]

theorem calibLoop_stale {st : List Int} {cal : Calib α} :
    ∀ {n : Nat} {soils soils' : List (SoilProps α)} {l l' : List (Front α)}, calibLoop st cal n soils l = .ok (soils', l') →
      ∀ i : Nat, (soils'[i]?.map fun p => (p.bcLambda, p.bcPsib, p.hMin)) = soils[i]?.map fun p => (p.bcLambda, p.bcPsib, p.hMin)
  | 0, soils, soils', l, l', h => by
    simp only [calibLoop, Except.ok.injEq, Prod.mk.injEq] at h
    obtain ⟨rfl, _⟩ := h
    exact fun _ => rfl
  | n + 1, soils, soils', [], l', h => by simp [calibLoop] at h
  | n + 1, soils, soils', f :: t, l', h => by
    unfold calibLoop at h
    simp only [bind_ok_iff, Prod.exists, pure_eq_ok, Except.ok.injEq, Prod.mk.injEq] at h
    obtain ⟨so, f', hf, so', t', ht, rfl, _⟩ := h
    obtain ⟨_, tt, p, p', a1, a2, a3, a4, b1, b2, b3, hcal, _, _⟩ := calibFront_full hf
    intro i
    rw [calibLoop_stale ht i, a4]
    by_cases hi : tt.toNat = i
    · subst hi
      rw [List.getElem?_set_self (List.getElem?_eq_some_iff.mp a3).1, a3]
      simp [b1, b2, b3]
    · rw [List.getElem?_set_ne hi]

theorem layers_fronts {env : Env α} {lines : List (List Char)} {s : State α} (h : bmiInitialize env lines = .ok s) :
    s.head.length = s.p.numLayers := by
  obtain ⟨c1, th1, hc1, ht1, hn1, _⟩ := C51_running_sums env lines s h
  obtain ⟨c2, th2, _, hc2, ht2, _, hl, _⟩ := C54_initial env lines s h
  rw [hc1, Except.ok.injEq] at hc2
  subst hc2
  rw [ht1, Option.some.injEq] at ht2
  subst ht2
  omega

/-- C41: if calibration is on and no two layers share a soil type, then after the first Update every layer has its own calibrated
parameters, and field capacity and maximum ponding are the calibrated ones.  Missing: shared soil types (C41_shared_fails). -/
theorem C41_own_values_partial (env : Env α) (lines : List (List Char)) (s0 s1 s2 : State α) (fuel : Nat) (sa : Bool)
    (h0 : bmiInitialize env lines = .ok s0) (hflag : s0.p.calibFlag = true) (hin : Inputs s0 s1) (hu : update fuel sa s1 = .ok s2)
    (hinj : DistinctTypes s0.p.layerSoilType s0.p.numLayers) :
    (∀ k, 1 ≤ k → k ≤ s2.p.numLayers → Calibrated s2.p.layerSoilType s1.calib s2.soils k) ∧
      s2.p.fcPsi = s1.calib.fcPsi ∧ s2.p.pondMax = s1.calib.pondMax := by
  obtain ⟨c, _, hi, _⟩ := bmiInitialize_inv h0
  have hval := lgarInit_valid hi
  have hlen := layers_fronts h0
  have hnw := (Sound.initialize h0).2
  obtain ⟨_, _, _, _, _, _, _, hfr⟩ := C54_initial env lines s0 h0
  obtain ⟨e1, _, _, _, e5, _, _, _, _, e6⟩ := hin.frame
  obtain ⟨f1, _, f3, _⟩ := update_fixed hu
  have hv1 : s1.p.invalidSoil = false := by rw [e6]; exact hval
  have hf1 : s1.p.calibFlag = true := by rw [e6]; exact hflag
  refine ⟨?_, (C40_once fuel sa s1 s2 hv1 hu).2.2 hf1⟩
  have hN : s2.p.numLayers = s0.p.numLayers := by rw [f1, e6]
  have hT : s2.p.layerSoilType = s0.p.layerSoilType := by rw [f3, e6]
  rw [hN, hT]
  intro k hk1 hk2
  rcases update_inv hu with ⟨hi, _⟩ | ⟨_, s1', d, v, u, h1, _, _, h2⟩
  · rw [hv1] at hi; simp at hi
  · obtain ⟨_, _, _, _, _, hs, _⟩ := updatePost_inv h2
    obtain ⟨_, _, fs, soils, l, fc, pm, q, _, rfl, _, ⟨_, _, _, hl, _⟩ | ⟨hc, _⟩⟩ := updatePre_inv h1
    · rw [hs]
      have hT1 : s1.p.layerSoilType = s0.p.layerSoilType := by rw [e6]
      have hW : s1.p.numWf = s0.p.numWf := by rw [e6]
      rw [hT1, e1, hW, hnw, Int.toNat_natCast] at hl
      have hlay : ∀ f ∈ s0.head, 1 ≤ f.layer ∧ f.layer ≤ s0.p.numLayers := by
        intro f hf
        obtain ⟨i, hi', he⟩ := List.mem_iff_getElem.mp hf
        have := (hfr i f (by rw [List.getElem?_eq_getElem hi', he])).1
        omega
      have hk : k - 1 < s0.head.length := by omega
      have := (calibLoop_calibrated hinj hlay hl).2.1 s0.head[k - 1] (by rw [List.take_length]; exact List.getElem_mem hk)
      rw [(hfr (k - 1) _ (List.getElem?_eq_getElem hk)).1, show k - 1 + 1 = k by omega] at this
      exact this
    · rw [hf1] at hc; simp at hc

/-- C41 along a run: the values of the first Update stay. -/
theorem C41_run_partial (env : Env α) (lines : List (List Char)) (s0 a s : State α) (hist : List (State α))
    (h0 : bmiInitialize env lines = .ok s0) (hflag : s0.p.calibFlag = true) (hr : Run s0 hist s) (ha : hist.head? = some a)
    (hinj : DistinctTypes s0.p.layerSoilType s0.p.numLayers) :
    ∀ k, 1 ≤ k → k ≤ s.p.numLayers → Calibrated s.p.layerSoilType a.calib s.soils k := by
  obtain ⟨c, _, hi, _⟩ := bmiInitialize_inv h0
  have hval := lgarInit_valid hi
  have key : ∀ {hist s}, Run s0 hist s → s.p.numLayers = s0.p.numLayers ∧ s.p.layerSoilType = s0.p.layerSoilType ∧
      (hist = [] → s = s0) ∧ ∀ a, hist.head? = some a → ∃ s1 fuel sa, Inputs s0 s1 ∧ update fuel sa s1 = .ok a := by
    intro hist s hr
    induction hr with
    | nil => exact ⟨rfl, rfl, fun _ => rfl, fun a h => by simp at h⟩
    | @step hist s s1 s2 fuel sa _ hi hu ih =>
      obtain ⟨i1, i2, i3, i4⟩ := ih
      obtain ⟨f1, _, f3, _⟩ := update_fixed hu
      obtain ⟨_, _, _, _, _, _, _, _, _, e6⟩ := hi.frame
      refine ⟨by rw [f1, e6]; exact i1, by rw [f3, e6]; exact i2, by simp, fun a ha => ?_⟩
      cases hist with
      | nil =>
        simp only [List.nil_append, List.head?_cons, Option.some.injEq] at ha
        subst ha
        rw [i3 rfl] at hi
        exact ⟨s1, fuel, sa, hi, hu⟩
      | cons b t => exact i4 a (by simpa using ha)
  obtain ⟨k1, k2, _, k4⟩ := key hr
  obtain ⟨s1, fuel, sa, hin, hu⟩ := k4 a ha
  have hne : hist ≠ [] := by rintro rfl; simp at ha
  obtain ⟨_, b, hb, hs, _⟩ := C40_never_again s0 s hist hr hval hne
  rw [ha, Option.some.injEq] at hb
  subst hb
  have := (C41_own_values_partial env lines s0 s1 a fuel sa h0 hflag hin hu hinj).1
  obtain ⟨f1, _, f3, _, _, _, _, _, _, _, f11, _⟩ := update_fixed hu
  obtain ⟨_, _, _, _, _, _, _, _, _, e6⟩ := hin.frame
  have n1 : a.p.numLayers = s0.p.numLayers := by rw [f1, e6]
  have n2 : a.p.layerSoilType = s0.p.layerSoilType := by rw [f3, e6]
  rw [n1, n2] at this
  rw [k1, k2, hs, f11]
  exact this

/-- C41, a further deviation: what is derived from the van Genuchten parameters when the soil file is read (Brooks-Corey lambda and
psi_b, and the minimal head) is not derived again from the calibrated ones. -/
theorem C41_stale (fuel : Nat) (sa : Bool) (s s' : State α) (h : update fuel sa s = .ok s') (i : Nat) :
    (s'.soils[i]?.map fun p => (p.bcLambda, p.bcPsib, p.hMin)) = s.soils[i]?.map fun p => (p.bcLambda, p.bcPsib, p.hMin) := by
  rcases update_inv h with ⟨hi, rfl⟩ | ⟨_, s1', d, v, u, h1, _, _, h2⟩
  · rfl
  · obtain ⟨_, _, _, _, _, hs, _⟩ := updatePost_inv h2
    rw [hs]
    obtain ⟨_, _, fs, soils, l, fc, pm, q, _, rfl, _, ⟨_, _, _, hl, _⟩ | ⟨_, _, _, _, rfl, _⟩⟩ := updatePre_inv h1
    · exact calibLoop_stale hl i
    · rfl

/-- The sample configuration with calibration and given soil types. -/
def calCfg (types : String) : List (List Char) :=
  ["layer_thickness=10,20[cm]".toList, ("layer_soil_type=" ++ types).toList, "soil_params_file=x".toList,
   "max_valid_soil_types=2".toList, "initial_psi=100[cm]".toList, "timestep=60[min]".toList, "endtime=5[hr]".toList,
   "forcing_resolution=60[min]".toList, "ponded_depth_max=2[cm]".toList, "use_closed_form_G=true".toList,
   "wilting_point_psi=15495.0[cm]".toList, "field_capacity_psi=340.9[cm]".toList, "giuh_ordinates=0.7,0.3".toList,
   "calib_params=true".toList]

/-- Different calibrated values for the two layers. -/
def calVals : Calib Grid :=
  { thetaE := [1/2, 2/5], thetaR := [1/20, 1/10], vgN := [2, 2], vgAlpha := [1/50, 1/100], Ksat := [3, 1], fcPsi := 300, pondMax := 1 }

/-- Calibrated values that differ in the conductivity only. -/
def calKsat : Calib Grid :=
  { thetaE := [2/5, 2/5], thetaR := [1/20, 1/20], vgN := [2, 2], vgAlpha := [1/50, 1/50], Ksat := [3, 1], fcPsi := 300, pondMax := 1 }

/-- One Update with the calibrated values, no rain. -/
def calPlay (types : String) (cal : Calib Grid) : Res (State Grid × State Grid) := do
  let s0 ← bmiInitialize Sample.env (calCfg types)
  let s2 ← update 1000 true { s0 with precipMm := 0, petMm := 0, calib := cal, p := { s0.p with soilTemp := s0.p.soilTemp } }
  .ok (s0, s2)

theorem calPlay_inv {types : String} {cal : Calib Grid} {p : State Grid × State Grid → Prop} [DecidablePred p]
    (h : Sample.okAnd (calPlay types cal) (fun a => decide (p a)) = true) :
    ∃ s0 s1 s2, bmiInitialize Sample.env (calCfg types) = .ok s0 ∧ Inputs s0 s1 ∧ s1.calib = cal ∧
      update 1000 true s1 = .ok s2 ∧ p (s0, s2) := by
  obtain ⟨⟨s0, s2⟩, he, hp⟩ := Sample.okAnd_exists h
  unfold calPlay at he
  simp only [bind_ok_iff, Except.ok.injEq, Prod.mk.injEq] at he
  obtain ⟨s, h1, s', h2, rfl, rfl⟩ := he
  exact ⟨s, _, s', h1, ⟨0, 0, s.p.soilTemp, cal, rfl⟩, rfl, h2, hp⟩

/-- Test for the calibrated runs. -/
def TestCal (types : List Int) (ks : List Grid) (a : State Grid × State Grid) : Prop :=
  a.1.p.calibFlag = true ∧ a.1.p.layerSoilType = 0 :: types ∧ a.1.p.numLayers = 2 ∧ (a.2.soils.map fun p => p.Ksat) = ks

instance (types : List Int) (ks : List Grid) : DecidablePred (TestCal types ks) := fun a => by unfold TestCal; infer_instance

theorem cal12_check : Sample.okAnd (calPlay "1,2" calVals) (fun a => decide (TestCal [1, 2] [0, 3, 1] a)) = true := by decide +kernel

theorem cal11_check : Sample.okAnd (calPlay "1,1" calKsat) (fun a => decide (TestCal [1, 1] [0, 1, 1/2] a)) = true := by
  decide +kernel

/-- C41 fails if layers share a soil type: both layers are of type 1, the calibrated conductivities are 3 and 1, and after the first
Update the first layer has 1. -/
theorem C41_shared_fails : ∃ s0 s1 s2, bmiInitialize Sample.env (calCfg "1,1") = .ok s0 ∧ s0.p.calibFlag = true ∧ Inputs s0 s1 ∧
    update 1000 true s1 = .ok s2 ∧ ¬ Calibrated s2.p.layerSoilType s1.calib s2.soils 1 := by
  obtain ⟨s0, s1, s2, h1, h2, h3, h4, h5, h6, _, h8⟩ := calPlay_inv cal11_check
  refine ⟨s0, s1, s2, h1, h5, h2, h4, ?_⟩
  rintro ⟨t, p, q, a1, _, a2, _, _, _, _, a3, _⟩
  obtain ⟨_, _, f3, _⟩ := update_fixed h4
  obtain ⟨_, _, _, _, _, _, _, _, _, e6⟩ := h2.frame
  have hT : s2.p.layerSoilType = [0, 1, 1] := by rw [f3, e6]; exact h6
  rw [hT] at a1
  simp only [List.getElem?_cons_succ, List.getElem?_cons_zero, Option.some.injEq] at a1
  subst a1
  have h9 := congrArg (fun l : List Grid => l[1]?) h8
  simp only [List.getElem?_map] at h9
  rw [show s2.soils[1]? = some p from a2] at h9
  rw [h3] at a3
  simp only [calKsat, Option.map_some, List.getElem?_cons_succ, List.getElem?_cons_zero, Option.some.injEq] at h9 a3
  rw [h9] at a3
  exact absurd a3 (by decide +kernel)

/-- Is this the abort of the mass balance check? -/
def isAbort {β : Type} (x : Res β) : Bool := match x with
  | .error (.abort _) => true
  | _ => false

/-- C41 fails worse if the shared soil gets different retention parameters: the moisture of the first layer is computed with its own
values and then its soil is overwritten, and in this first Update, without rain or ET, the mass balance check aborts the program. -/
theorem C41_shared_aborts : isAbort (calPlay "1,1" calVals) = true := by decide +kernel

/-- Case for C41: two soils; the first layer gets 3. -/
example : ∃ s0 s1 s2, bmiInitialize Sample.env (calCfg "1,2") = .ok s0 ∧ s0.p.calibFlag = true ∧ Inputs s0 s1 ∧
    update 1000 true s1 = .ok s2 ∧ DistinctTypes s0.p.layerSoilType s0.p.numLayers ∧ (s2.soils.map fun p => p.Ksat) = [0, 3, 1] := by
  obtain ⟨s0, s1, s2, h1, h2, _, h4, h5, h6, h7, h8⟩ := calPlay_inv cal12_check
  refine ⟨s0, s1, s2, h1, h5, h2, h4, ?_, h8⟩
  rw [h6, h7]
  intro i j t i1 i2 j1 j2 e1 e2
  rcases (by omega : i = 1 ∨ i = 2) with rfl | rfl <;> rcases (by omega : j = 1 ∨ j = 2) with rfl | rfl <;> simp_all <;> omega

end Free

section Exact
variable {K : Type} [Field K] [LinearOrder K] [IsStrictOrderedRing K] [CMath K] [LawfulNum K]

theorem foldl_add_sum (l : List K) (a : K) : l.foldl (· + ·) a = a + l.sum := by
  induction l generalizing a with
  | nil => simp
  | cons x t ih => rw [List.foldl_cons, ih, List.sum_cons, add_assoc]

/-- C51 exactly: sums, and strictly increasing bottoms for positive thicknesses. -/
theorem C51_bottoms (env : Env K) (lines : List (List Char)) (s : State K) (h : bmiInitialize env lines = .ok s) :
    ∃ c thick, readConfig env {} lines = .ok c ∧ c.thick = some thick ∧ s.p.numLayers = thick.length ∧
      (∀ k, k ≤ thick.length → s.p.cum[k]? = some (thick.take k).sum) ∧ s.p.soilDepth = thick.sum ∧
      ((∀ x ∈ thick, 0 < x) → s.p.cum.Pairwise (· < ·)) := by
  obtain ⟨c, thick, h1, h2, h3, h4, h5, h6⟩ := C51_running_sums env lines s h
  have h5' : ∀ k, k ≤ thick.length → s.p.cum[k]? = some (thick.take k).sum := fun k hk => by
    rw [h5 k hk, foldl_add_sum, zero_add]
  refine ⟨c, thick, h1, h2, h3, h5', by rw [h6, foldl_add_sum, zero_add], fun hpos => ?_⟩
  rw [List.pairwise_iff_getElem]
  intro i j hi hj hij
  have ei := h5' i (by omega)
  have ej := h5' j (by omega)
  rw [List.getElem?_eq_getElem hi, Option.some.injEq] at ei
  rw [List.getElem?_eq_getElem hj, Option.some.injEq] at ej
  rw [ei, ej]
  have : thick.take j = thick.take i ++ (thick.drop i).take (j - i) := by
    rw [← List.take_add, show i + (j - i) = j by omega]
  rw [this, List.sum_append]
  have hp : 0 < ((thick.drop i).take (j - i)).sum := by
    have hd : i < thick.length := by omega
    rw [List.drop_eq_getElem_cons hd, show j - i = (j - i - 1) + 1 by omega, List.take_succ_cons, List.sum_cons]
    have h1 := hpos _ (List.getElem_mem hd)
    have h2 : 0 ≤ ((thick.drop (i + 1)).take (j - i - 1)).sum :=
      List.sum_nonneg fun x hx => (hpos x (List.mem_of_mem_drop (List.mem_of_mem_take hx))).le
    linarith
  linarith

/-- Case for C51. -/
example : ∃ s, bmiInitialize Sample.env Sample.cfg = .ok s ∧ s.p.cum = [0, 10, 30] := Sample.okAnd_exists (by decide +kernel)

end Exact

/-- C54 over the reals: the moisture of the initial front of a layer with van Genuchten parameters alpha, n > 0 is
thetaR + (thetaE - thetaR) / (1 + (alpha psi)^n)^m, and its depth is the bottom of the layer. -/
theorem C54_real (env : Env ℝ) (lines : List (List Char)) (s : State ℝ) (h : bmiInitialize env lines = .ok s) :
    ∃ c thick psi, readConfig env {} lines = .ok c ∧ c.thick = some thick ∧ c.initialPsi = some psi ∧ s.head.length = thick.length ∧
      ∀ (i : Nat) (f : Front ℝ), s.head[i]? = some f → f.depth = (thick.take (i + 1)).sum ∧
        ∃ t p, s.p.layerSoilType[i + 1]? = some t ∧ s.soils[t.toNat]? = some p ∧
          (0 < p.vgAlpha → 0 < p.vgN → 0 ≤ psi →
            f.theta = p.thetaR + (p.thetaE - p.thetaR) / (1 + (p.vgAlpha * psi) ^ p.vgN) ^ p.vgM) := by
  obtain ⟨c, thick, psi, h1, h2, h3, h4, h5⟩ := C54_initial env lines s h
  refine ⟨c, thick, psi, h1, h2, h3, h4, fun i f hf => ?_⟩
  obtain ⟨_, _, _, _, _, hd, t, p, ht, h0, hp, hth⟩ := h5 i f hf
  refine ⟨by rw [hd, foldl_add_sum, zero_add], t, p, ht, hp, fun ha hn hpsi => ?_⟩
  rw [calcThetaFromH_real ha hn hpsi, Except.ok.injEq] at hth
  rw [← hth, vgSe]
  ring

/-- Case for C54: two layers at head 100. -/
example : ∃ s, bmiInitialize Sample.env Sample.cfg = .ok s ∧ (s.head.map fun f => (f.layer, f.depth, f.psi, f.toBottom)) =
    [(1, 10, 100, true), (2, 30, 100, true)] := Sample.okAnd_exists (by decide +kernel)

/-- Case for C52 and C53: the sample file has two soils, both are used. -/
example : ReadsAs Sample.env.scanF "sand 0.05 0.45 0.02 2 1.5".toList
    { name := "sand".toList, thetaR := 1/20, thetaE := 9/20, alpha := 1/50, n := 2, Ksat := 3/2 } := by
  refine ⟨[], " 0.05 0.45 0.02 2 1.5".toList, " 0.45 0.02 2 1.5".toList, " 0.02 2 1.5".toList, " 2 1.5".toList, " 1.5".toList, [],
    rfl, by simp, by simp, by decide +kernel, by decide +kernel, ?_, ?_, ?_, ?_, ?_⟩ <;> decide +kernel

end LGAR
