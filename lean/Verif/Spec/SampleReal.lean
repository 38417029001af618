import Verif.Lemmas.SoilReal
import Verif.Spec.Bounds
import Verif.Model.Driver
/-
A configuration over the real numbers that is initialised: one layer of 10 cm, one soil, two Updates of one hour.
-/
namespace LGAR.SampleReal

/-- Numbers of the sample texts. -/
noncomputable def num (s : List Char) : Option ℝ :=
  if s = "10".toList then some 10 else if s = "1".toList then some 1 else if s = "7200".toList then some 7200
  else if s = "3600".toList then some 3600 else if s = "5".toList then some 5 else none

/-- The fields of the soil record come one per call. -/
noncomputable def scan (s : List Char) : Option (ℝ × List Char) :=
  if s = "abcde".toList then some (1 / 20, "bcde".toList) else if s = "bcde".toList then some (9 / 20, "cde".toList)
  else if s = "cde".toList then some (1 / 50, "de".toList) else if s = "de".toList then some (2, "e".toList)
  else if s = "e".toList then some (3 / 2, []) else none

noncomputable def env : Env ℝ :=
  { stod := num, stoi := fun _ => some 1, scanF := fun s => scan (s.dropWhile isBlank),
    files := fun _ => some ["header".toList, "sand abcde".toList], junk := 0, junkRec := ⟨[], 0, 0, 0, 0, 0⟩,
    junkSoil := ⟨0, 0, 0, 0, 0, 0, 0, 0, 0, 0⟩, junkConv := ⟨0, 0, 0, 0, 0, 0, 0, 0, 0, 0, 0⟩,
    junkMb := ⟨0, 0, 0, 0, 0, 0, 0, 0, 0, 0, 0, 0, 0, 0, 0, 0, 0, 0, 0, 0, 0, 0, 0, 0, 7⟩ }

/-- Configuration file. -/
def lines : List (List Char) :=
  ["layer_thickness=10[cm]".toList, "layer_soil_type=1".toList, "soil_params_file=x".toList, "max_valid_soil_types=1".toList,
   "initial_psi=3600[cm]".toList, "timestep=3600[s]".toList, "endtime=7200[s]".toList, "forcing_resolution=3600[s]".toList,
   "ponded_depth_max=1[cm]".toList, "wilting_point_psi=10[cm]".toList, "field_capacity_psi=5[cm]".toList,
   "giuh_ordinates=1".toList, "calib_params=true".toList, "forcing_file=f".toList]

/-- The same values as a configuration. -/
noncomputable def cfg : Cfg ℝ :=
  { thick := some [10], soilType := some [1], giuh := some [1], initialPsi := some 3600, numTypes := some 1, soilFile := some ['x'],
    wp := some 10, fc := some 5, timestep := some 1, endtime := some 7200, forcingRes := some 1, pondMax := some 1, calib := true }

theorem toInt_one : CMath.toInt (1 : ℝ) = 1 := by
  show (if (0 : ℝ) ≤ 1 then ⌊(1 : ℝ)⌋ else ⌈(1 : ℝ)⌉) = 1
  simp

theorem hours_one : toHours "[s]".toList (3600 : ℝ) = 1 := by
  unfold toHours
  rw [if_pos (by decide)]
  norm_num

theorem readConfig_lines : readConfig env {} lines = .ok cfg := by
  have n10 : cstod env "10".toList = .ok (10 : ℝ) := by simp [cstod, env, num]
  have n1 : cstod env "1".toList = .ok (1 : ℝ) := by simp [cstod, env, num]
  have n5 : cstod env "5".toList = .ok (5 : ℝ) := by simp [cstod, env, num]
  have n36 : cstod env "3600".toList = .ok (3600 : ℝ) := by simp [cstod, env, num]
  have n72 : cstod env "7200".toList = .ok (7200 : ℝ) := by simp [cstod, env, num]
  have vec (v : List Char) (x : ℝ) (hc : findChar ',' v = none) (h : cstod env v = .ok x) : readVector env v = .ok [x] := by
    unfold readVector; rw [if_pos hc, h, ok_bind]; rfl
  have step (l : List Char) (ls : List (List Char)) (k : Key) (v u : List Char) (c c' : Cfg ℝ) (h : keyOf (paramKey l) = some k)
      (hv : paramValue l = v) (hu : paramUnit l = u) (ha : applyKey env c v u k = .ok c') :
      readConfig env c (l :: ls) = readConfig env c' ls := by
    rw [readConfig, configLine, h, hv, hu]
    simp only [ha, ok_bind]
  have v10 := vec _ _ (by decide) n10
  have v1 := vec _ _ (by decide) n1
  unfold lines
  rw [step _ _ .thick "10".toList "[cm]".toList _ { thick := some [10] } (by decide +kernel) (by decide +kernel) (by decide +kernel)
    (by simp only [applyKey, v10, ok_bind, pure_eq_ok])]
  rw [step _ _ .soilType "1".toList [] _ { thick := some [10], soilType := some [1] }
    (by decide +kernel) (by decide +kernel) (by decide +kernel)
    (by simp only [applyKey, v1, ok_bind, pure_eq_ok, List.map_cons, List.map_nil, toInt_one])]
  rw [step _ _ .soilFile "x".toList [] _ { thick := some [10], soilType := some [1], soilFile := some ['x'] }
    (by decide +kernel) (by decide +kernel) (by decide +kernel) (by simp only [applyKey]; rfl)]
  rw [step _ _ .numTypes "1".toList [] _ { thick := some [10], soilType := some [1], soilFile := some ['x'], numTypes := some 1 }
    (by decide +kernel) (by decide +kernel) (by decide +kernel) (by simp only [applyKey, setNumTypes, env]; rfl)]
  rw [step _ _ .initialPsi "3600".toList "[cm]".toList _
    { thick := some [10], soilType := some [1], soilFile := some ['x'], numTypes := some 1, initialPsi := some 3600 }
    (by decide +kernel) (by decide +kernel) (by decide +kernel) (by simp only [applyKey, n36, ok_bind, pure_eq_ok])]
  rw [step _ _ .timestep "3600".toList "[s]".toList _
    { thick := some [10], soilType := some [1], soilFile := some ['x'], numTypes := some 1, initialPsi := some 3600, timestep := some 1 }
    (by decide +kernel) (by decide +kernel) (by decide +kernel)
    (by simp only [applyKey, n36, ok_bind, pure_eq_ok, hours_one, cassert, one_pos, if_true])]
  rw [step _ _ .endtime "7200".toList "[s]".toList _
    { thick := some [10], soilType := some [1], soilFile := some ['x'], numTypes := some 1, initialPsi := some 3600, timestep := some 1,
      endtime := some 7200 }
    (by decide +kernel) (by decide +kernel) (by decide +kernel)
    (by
      rw [applyKey, setEndtime, if_pos (by decide), n72, ok_bind, toSeconds, if_pos (by decide)]
      simp only [cassert]
      rw [if_pos (by norm_num), ok_bind]; rfl)]
  rw [step _ _ .forcingRes "3600".toList "[s]".toList _
    { thick := some [10], soilType := some [1], soilFile := some ['x'], numTypes := some 1, initialPsi := some 3600, timestep := some 1,
      endtime := some 7200, forcingRes := some 1 }
    (by decide +kernel) (by decide +kernel) (by decide +kernel)
    (by simp only [applyKey, n36, ok_bind, pure_eq_ok, hours_one, cassert, one_pos, if_true])]
  rw [step _ _ .pondMax "1".toList "[cm]".toList _
    { thick := some [10], soilType := some [1], soilFile := some ['x'], numTypes := some 1, initialPsi := some 3600, timestep := some 1,
      endtime := some 7200, forcingRes := some 1, pondMax := some 1 }
    (by decide +kernel) (by decide +kernel) (by decide +kernel)
    (by simp only [applyKey, n1, ok_bind, pure_eq_ok, LawfulNum.fmax_eq, zero_le_one, max_eq_left])]
  rw [step _ _ .wp "10".toList "[cm]".toList _
    { thick := some [10], soilType := some [1], soilFile := some ['x'], numTypes := some 1, initialPsi := some 3600, timestep := some 1,
      endtime := some 7200, forcingRes := some 1, pondMax := some 1, wp := some 10 }
    (by decide +kernel) (by decide +kernel) (by decide +kernel) (by simp only [applyKey, n10, ok_bind, pure_eq_ok])]
  rw [step _ _ .fc "5".toList "[cm]".toList _
    { thick := some [10], soilType := some [1], soilFile := some ['x'], numTypes := some 1, initialPsi := some 3600, timestep := some 1,
      endtime := some 7200, forcingRes := some 1, pondMax := some 1, wp := some 10, fc := some 5 }
    (by decide +kernel) (by decide +kernel) (by decide +kernel) (by simp only [applyKey, n5, ok_bind, pure_eq_ok])]
  rw [step _ _ .giuh "1".toList [] _
    { thick := some [10], soilType := some [1], soilFile := some ['x'], numTypes := some 1, initialPsi := some 3600, timestep := some 1,
      endtime := some 7200, forcingRes := some 1, pondMax := some 1, wp := some 10, fc := some 5, giuh := some [1] }
    (by decide +kernel) (by decide +kernel) (by decide +kernel) (by simp only [applyKey, v1, ok_bind, pure_eq_ok])]
  rw [step _ _ .calib "true".toList [] _ cfg
    (by decide +kernel) (by decide +kernel) (by decide +kernel) (by simp only [applyKey, parseBool]; rfl)]
  have hf : keyOf (paramKey "forcing_file=f".toList) = none := by decide +kernel
  simp only [readConfig, configLine, hf, ok_bind]

/-- The record of the soil file. -/
noncomputable def rec : SoilRec ℝ := ⟨"sand".toList, 1 / 20, 9 / 20, 1 / 50, 2, 3 / 2⟩

theorem scan_line : scanLine env.scanF env.junkRec "sand abcde".toList = rec := by
  have h : ("sand abcde".toList.dropWhile isBlank).takeWhile (fun c => !isBlank c) = "sand".toList := by decide +kernel
  have h0 : ("sand abcde".toList.dropWhile isBlank).isEmpty = false := by decide +kernel
  have h1 : (("sand abcde".toList.dropWhile isBlank).drop "sand".toList.length).dropWhile isBlank = "abcde".toList := by decide +kernel
  have h2 : "bcde".toList.dropWhile isBlank = "bcde".toList := by decide +kernel
  have h3 : "cde".toList.dropWhile isBlank = "cde".toList := by decide +kernel
  have h4 : "de".toList.dropWhile isBlank = "de".toList := by decide +kernel
  have h5 : "e".toList.dropWhile isBlank = "e".toList := by decide +kernel
  have s1 : scan "abcde".toList = some (1 / 20, "bcde".toList) := by simp [scan]
  have s2 : scan "bcde".toList = some (9 / 20, "cde".toList) := by simp [scan]
  have s3 : scan "cde".toList = some (1 / 50, "de".toList) := by simp [scan]
  have s4 : scan "de".toList = some (2, "e".toList) := by simp [scan]
  have s5 : scan "e".toList = some (3 / 2, []) := by simp [scan]
  simp only [scanLine, h, h0, Bool.false_eq_true, if_false, scanFields, env, h1, h2, h3, h4, h5, s1, s2, s3, s4, s5, rec]

/-- The van Genuchten parameters of the sample soil. -/
def Sand (s : SoilProps ℝ) : Prop := s.thetaE = 9 / 20 ∧ s.thetaR = 1 / 20 ∧ s.vgAlpha = 1 / 50 ∧ s.vgN = 2 ∧ s.vgM = 1 / 2

theorem soil_rec (old : SoilProps ℝ) : ∃ s, soilOfRec 0 old rec = .ok s ∧ s.Physical ∧ Sand s := by
  have l : "sand".toList.length = 4 := by decide +kernel
  simp only [soilOfRec, rec, l]
  norm_num
  have d (a b c : ℝ) (hb : b ≠ 0) (hc : a / b = c) : cdiv a b = .ok c := hc ▸ cdiv_ne hb
  refine ⟨_, ⟨1 / 2, d _ _ _ (by norm_num) rfl, 1 / 2, d _ _ _ (by norm_num) rfl, 4, d _ _ _ (by norm_num) (by norm_num), 1,
    d _ _ _ (by norm_num) (by norm_num), _, cdiv_ne (by norm_num), by norm_num, 3, d _ _ _ (by norm_num) (by norm_num), _,
    cdiv_ne (by norm_num), rfl⟩, ?_⟩
  exact ⟨⟨by norm_num, by norm_num, by norm_num, by norm_num, by norm_num, by norm_num⟩, rfl, rfl, rfl, rfl, by norm_num⟩

theorem init_soil : ∃ s, bmiInitialize env lines = .ok s ∧ PhysGeo s.geo ∧ s.p.calibFlag = true ∧ endTime s = 7200 ∧ timeStep s = 3600 ∧
    ∃ so, s.geo.soil 1 = .ok so ∧ Sand so := by
  obtain ⟨s, hs, hp, hsand⟩ := soil_rec env.junkSoil
  have hsoils : readSoils env.scanF env.junk 1 ["header".toList, "sand abcde".toList] env.junkRec
      (List.replicate 2 env.junkSoil) = .ok ([env.junkSoil, s], 1) := by
    have hj : env.junk = 0 := rfl
    simp only [readSoils, List.drop_succ_cons, List.drop_zero, readSoilsGo, scan_line, hj]
    simp only [idx, List.replicate_succ, List.replicate_zero, List.getElem?_cons_succ, List.getElem?_cons_zero, ok_bind, hs, setIdx]
    simp
  have hm : 0 < s.vgM := hp.m_pos
  obtain ⟨th, hth, h1, h2⟩ : ∃ th, calcThetaFromH 3600 s.vgAlpha s.vgM s.vgN s.thetaE s.thetaR = .ok th ∧ s.thetaR ≤ th ∧ th ≤ s.thetaE :=
    ⟨_, calcThetaFromH_real hp.alpha (lt_trans one_pos hp.n) (by norm_num), by
      have := vgSe_pos (m := s.vgM) (n := s.vgN) hp.alpha (h := 3600) (by norm_num)
      nlinarith [hp.gap], by
      have := vgSe_le_one (n := s.vgN) hp.alpha hm.le (h := 3600) (by norm_num)
      nlinarith [hp.gap]⟩
  have hg : 0 < s.thetaE - s.thetaR := sub_pos.mpr hp.gap
  have hSe := calcSeFromTheta_real (t := th) hp.gap
  have hK := calcKFromSe_real hm (Ks := 1 * s.Ksat) (Se := (th - s.thetaR) / (s.thetaE - s.thetaR))
    (div_nonneg (sub_nonneg.mpr h1) hg.le) ((div_le_one hg).mpr (by linarith))
  let g : Geo ℝ := { numLayers := 1, cum := [0, 10], soilType := [0, 1], frozen := [1, 1], soils := [env.junkSoil, s] }
  have gs : g.soil 1 = .ok s := rfl
  obtain ⟨K, hK⟩ : ∃ K, calcKFromSe ((th - s.thetaR) / (s.thetaE - s.thetaR)) (1 * s.Ksat) s.vgM = .ok K := ⟨_, hK⟩
  have hf : initFronts g 3600 = .ok [⟨10, th, 3600, K, 1, 1, true, 0⟩] := by
    have hf1 : idx g.frozen 1 = .ok 1 := rfl
    have hc1 : idx g.cum 1 = .ok 10 := rfl
    show initFrontsGo g 3600 1 1 [] = _
    simp only [initFrontsGo, gs, ok_bind, hth, hc1, listInsertFront, derefOpt, deref, hSe, hf1, hK]
    rw [one_mul] at hK
    simp [derefOpt, deref, hSe, ok_bind, hK, initFrontsGo]
  have hcum : cumThickness [(10 : ℝ)] = [0, 10] := by simp [cumThickness, cumGo]
  have hinv : invalidTypes (typeArray [1]) 1 1 1 = .ok false := by decide
  have hgi : giuhResample 1 [(1 : ℝ)] = .ok [1] := by
    have h1 : CMath.ofInt (1 : Int) = (1 : ℝ) := by rw [LawfulNum.ofInt_eq]; simp
    simp [giuhResample, giuhPart, h1, cdiv_ne, ok_bind]
  have hmass : ∃ v, massBal [0, (10 : ℝ)] [⟨10, th, 3600, K, 1, 1, true, 0⟩] = .ok v := by
    simp [massBal, massBalGo, idxPred, idx, ok_bind]
  obtain ⟨v, hv⟩ := hmass
  have hcal : calibInit g 1 1 = .ok [s] := by simp only [calibInit, gs, ok_bind, pure_eq_ok]
  have hd : cdiv (1 : ℝ) 1 = .ok 1 := by rw [cdiv_ne one_ne_zero]; simp
  have hrs : readSoils env.scanF env.junk 1 ["header".toList, "sand abcde".toList] env.junkRec
      (List.replicate ((1 : Int) + 1).toNat env.junkSoil) = .ok ([env.junkSoil, s], 1) := hsoils
  have hfile : env.files ['x'] = some ["header".toList, "sand abcde".toList] := rfl
  have hix : idx [(0 : ℝ), 10] 1 = .ok 10 := rfl
  have h11 : ¬ ((1 : Int) + 1 < 0) := by decide
  have ht1 : (CMath.toInt (1 : ℝ)).toNat = 1 := by rw [toInt_one]; rfl
  unfold bmiInitialize
  rw [readConfig_lines, ok_bind]
  unfold lgarInit
  simp only [cfg, need, ok_bind, Option.getD_some, h11, if_false, hfile, hrs, hinv, List.length_singleton, hd, ht1, hgi,
    Bool.false_eq_true, hcum, hix]
  change ∃ s', (initFronts g 3600 >>= _) = Except.ok s' ∧ _
  rw [hf, ok_bind, hv, ok_bind, cassert]
  simp only [List.length_singleton, if_true, ok_bind]
  change ∃ s', (calibInit g 1 1 >>= _) = Except.ok s' ∧ _
  rw [hcal, ok_bind]
  refine ⟨_, rfl, ?_, rfl, rfl, by simp only [timeStep]; norm_num, s, gs, hsand⟩
  intro k p hk hsp
  obtain rfl : k = 1 := by
    by_contra hne
    obtain ⟨j, rfl⟩ : ∃ j, k = j + 2 := ⟨k - 2, by omega⟩
    simp [State.geo, Geo.soil, typeArray, idx, error_bind] at hsp
  have : g.soil 1 = Except.ok p := hsp
  rw [gs, Except.ok.injEq] at this
  exact this ▸ hp

theorem init : ∃ s, bmiInitialize env lines = .ok s ∧ PhysGeo s.geo ∧ s.p.calibFlag = true ∧ endTime s = 7200 ∧ timeStep s = 3600 := by
  obtain ⟨s, h1, h2, h3, h4, h5, _⟩ := init_soil
  exact ⟨s, h1, h2, h3, h4, h5⟩

end LGAR.SampleReal
