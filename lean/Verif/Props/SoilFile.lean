import Verif.Lemmas.SoilFile
import Verif.Lemmas.Config
import Verif.Spec.SampleRun

/-! C81: the soil parameter file, read from its text. -/

namespace LGAR

variable {α : Type} [Zero α] [One α] [Add α] [Sub α] [Mul α] [Div α] [Neg α] [LT α] [DecidableLT α] [LE α] [DecidableLE α]
  [OfScientific α] [BEq α] [CMath α]

/-- C81: if no line is longer than 254 characters (with its newline), the strings the reader sees are the lines of the file. -/
theorem C81_lines (text : List Char) (h : ∀ l ∈ textLines text, l.length ≤ 254) : fgetsAll text = textLines text :=
  fgetsGo_lines (Nat.le_refl _) h

/-- C81: for a file without overlong lines, soil type i has the five numbers that line i after the header says, if this line is a
one-word name followed by five decimal numerals.  Missing: names of several words (C81_blank_name_repeats shows that they go wrong)
and overlong lines (C81_long_header_shifts). -/
theorem C81_says_partial (env : Env α) (c : Cfg α) (s : State α) (h : lgarInit env c = .ok s) (conv : ℚ → α)
    (hscan : ReadsDecimals env.scanF conv) (file text : List Char) (hf : c.soilFile = some file) (ht : env.HasText file text)
    (hl : ∀ l ∈ textLines text, l.length ≤ 254) (i : Nat) (hi : 1 ≤ i) (hmax : (i : Int) ≤ s.p.numSoilTypes) (line : List Char)
    (hline : (textLines text)[i]? = some line) (v : Five ℚ) (hv : lineSays line = some v) (h6 : (wordsOf line).length = 6) :
    ∃ p, s.soils[i]? = some p ∧ p.five = v.conv conv := by
  have hlen : i < (textLines text).length := (List.getElem?_eq_some_iff.mp hline).1
  obtain ⟨p, h1, h2⟩ := lgarInit_rec h hf ht hi (by rw [C81_lines text hl]; exact hlen) hmax
  refine ⟨p, h1, ?_⟩
  obtain ⟨j, rfl⟩ : ∃ j, i = j + 1 := ⟨i - 1, by omega⟩
  rw [h2, C81_lines text hl, recAfter_succ (l := line) (by rw [List.getElem?_drop, Nat.add_comm]; exact hline), scanLine_six hscan h6 hv]

/-- C81 fails for names of several words: if the second word of line i+1 begins with a letter (other than those `inf` and `nan` begin
with), soil type i+1 silently gets the five parameters of soil type i, whatever its own line says. -/
theorem C81_blank_name_repeats (env : Env α) (c : Cfg α) (s : State α) (h : lgarInit env c = .ok s) (conv : ℚ → α)
    (hscan : ReadsDecimals env.scanF conv) (file text : List Char) (hf : c.soilFile = some file) (ht : env.HasText file text)
    (hl : ∀ l ∈ textLines text, l.length ≤ 254) (i : Nat) (hi : 1 ≤ i) (hmax : (i : Int) + 1 ≤ s.p.numSoilTypes) (line : List Char)
    (hline : (textLines text)[i + 1]? = some line) (w : List Char) (x : Char) (t : List Char) (ws : List (List Char))
    (hw : wordsOf line = w :: (x :: t) :: ws) (hx : isNumberFree x) :
    ∃ p p', s.soils[i]? = some p ∧ s.soils[i + 1]? = some p' ∧ p'.five = p.five := by
  have hlen : i + 1 < (textLines text).length := (List.getElem?_eq_some_iff.mp hline).1
  obtain ⟨p, h1, h2⟩ := lgarInit_rec h hf ht hi (by rw [C81_lines text hl]; omega) (by omega)
  obtain ⟨p', h1', h2'⟩ := lgarInit_rec h hf ht (i := i + 1) (by omega) (by rw [C81_lines text hl]; omega) (by push_cast; omega)
  refine ⟨p, p', h1, h1', ?_⟩
  rw [h2', h2, C81_lines text hl, recAfter_succ (l := line) (by rw [List.getElem?_drop, Nat.add_comm]; exact hline), scanLine_two hscan hw hx]

/-- C81 fails for the first soil in the same way: its parameters are then uninitialised memory. -/
theorem C81_blank_name_first (env : Env α) (c : Cfg α) (s : State α) (h : lgarInit env c = .ok s) (conv : ℚ → α)
    (hscan : ReadsDecimals env.scanF conv) (file text : List Char) (hf : c.soilFile = some file) (ht : env.HasText file text)
    (hl : ∀ l ∈ textLines text, l.length ≤ 254) (hmax : 1 ≤ s.p.numSoilTypes) (line : List Char)
    (hline : (textLines text)[1]? = some line) (w : List Char) (x : Char) (t : List Char) (ws : List (List Char))
    (hw : wordsOf line = w :: (x :: t) :: ws) (hx : isNumberFree x) :
    ∃ p, s.soils[1]? = some p ∧ p.five = env.junkRec.five := by
  have hlen : 1 < (textLines text).length := (List.getElem?_eq_some_iff.mp hline).1
  obtain ⟨p, h1, h2⟩ := lgarInit_rec h hf ht (i := 1) (by omega) (by rw [C81_lines text hl]; omega) (by push_cast; omega)
  refine ⟨p, h1, ?_⟩
  rw [h2, C81_lines text hl, recAfter_succ (i := 0) (l := line) (by rw [List.getElem?_drop]; exact hline), scanLine_two hscan hw hx]
  rfl

/-- C81 fails for an overlong header: from 254 characters on, its end (possibly only the newline) is taken for the first soil, and soil
type i+1 gets the numbers of line i. -/
theorem C81_long_header_shifts (env : Env α) (c : Cfg α) (s : State α) (h : lgarInit env c = .ok s) (conv : ℚ → α)
    (hscan : ReadsDecimals env.scanF conv) (file hd body : List Char) (hf : c.soilFile = some file)
    (ht : env.HasText file (hd ++ '\n' :: body)) (hnl : '\n' ∉ hd) (hlong : 254 ≤ hd.length) (hlong2 : hd.length ≤ 507)
    (hl : ∀ l ∈ textLines body, l.length ≤ 254) (i : Nat) (hi : 1 ≤ i) (hmax : (i : Int) + 1 ≤ s.p.numSoilTypes) (line : List Char)
    (hline : (textLines (hd ++ '\n' :: body))[i]? = some line) (v : Five ℚ) (hv : lineSays line = some v)
    (h6 : (wordsOf line).length = 6) :
    ∃ p, s.soils[i + 1]? = some p ∧ p.five = v.conv conv := by
  have hsplit : fgetsAll (hd ++ '\n' :: body) = hd.take 254 :: (hd.drop 254 ++ ['\n']) :: textLines body := by
    have e0 : hd ++ '\n' :: body = hd.take 254 ++ (hd.drop 254 ++ '\n' :: body) := by
      rw [← List.append_assoc, List.take_append_drop]
    have hn1 : '\n' ∉ hd.take 254 := fun hm => hnl (List.mem_of_mem_take hm)
    have hn2 : '\n' ∉ hd.drop 254 := fun hm => hnl (List.mem_of_mem_drop hm)
    have hlen : (hd.take 254).length = 254 := by rw [List.length_take]; omega
    unfold fgetsAll
    obtain ⟨k, hk⟩ : ∃ k, (hd ++ '\n' :: body).length = k + 1 := ⟨_, by rw [List.length_append, List.length_cons, ← Nat.add_assoc]⟩
    rw [hk, fgetsGo]
    have he : (hd ++ '\n' :: body).isEmpty = false := by cases hd <;> rfl
    rw [he, e0]
    simp only [Bool.false_eq_true, if_false]
    rw [fgets_long hn1 hlen, fgetsGo_lines, textLines_line hn2]
    · simp only [List.length_append, List.length_cons, List.length_drop] at hk ⊢
      omega
    · rw [textLines_line hn2]
      intro l hm
      rcases List.mem_cons.mp hm with rfl | hm
      · simp only [List.length_append, List.length_drop, List.length_cons, List.length_nil]; omega
      · exact hl l hm
  rw [textLines_line hnl] at hline
  obtain ⟨j, rfl⟩ : ∃ j, i = j + 1 := ⟨i - 1, by omega⟩
  have hj : (textLines body)[j]? = some line := by simpa using hline
  have hjl : j < (textLines body).length := (List.getElem?_eq_some_iff.mp hj).1
  obtain ⟨p, h1, h2⟩ := lgarInit_rec h hf ht (i := j + 1 + 1) (by omega) (by rw [hsplit]; simp; omega) (by push_cast at hmax ⊢; omega)
  refine ⟨p, h1, ?_⟩
  rw [h2, hsplit, recAfter_succ (l := line) (by simpa using hj), scanLine_six hscan h6 hv]

/-- The lines of the shipped file fit. -/
theorem vGDefault_short : ∀ l ∈ textLines vGDefault, l.length ≤ 254 := by decide +kernel

/-- What the lines of the shipped file say. -/
theorem vGDefault_says : ((textLines vGDefault).drop 1).map lineSays = vGDefaultSays.map some := by decide +kernel

/-- C81 fails for the shipped file data/vG_default_params.dat, however the numbers are rounded: soil type 7 ("Sandy-clay loam") gets
the parameters of soil type 6 ("Sandy-clay") and soil type 11 ("Silty-clay loam") those of soil type 10 ("Silty-clay"); the other
thirteen of the first 15 soil types have the numbers of their lines (soil types 16 to 18 are never read, see C52_above_15_fails). -/
theorem C81_shipped_fails (env : Env α) (c : Cfg α) (s : State α) (h : lgarInit env c = .ok s) (conv : ℚ → α)
    (hscan : ReadsDecimals env.scanF conv) (file : List Char) (hf : c.soilFile = some file) (ht : env.HasText file vGDefault)
    (i : Nat) (hi : 1 ≤ i) (hi2 : i ≤ 15) (hmax : (i : Int) ≤ s.p.numSoilTypes) :
    ∃ p v, s.soils[i]? = some p ∧ p.five = Five.conv conv v ∧
      vGDefaultSays[(if i = 7 then 6 else if i = 11 then 10 else i) - 1]? = some v := by
  have hsix : ∀ k : Nat, k < 15 → k ≠ 6 → k ≠ 10 → (((textLines vGDefault).drop 1)[k]?.map fun l => (wordsOf l).length) = some 6 := by
    decide +kernel
  have right : ∀ j : Nat, 1 ≤ j → j ≤ i → j ≠ 7 → j ≠ 11 → ∃ p v, s.soils[j]? = some p ∧ p.five = Five.conv conv v ∧
      vGDefaultSays[j - 1]? = some v := by
    intro j hj hji h7 h11
    have h6 := hsix (j - 1) (by omega) (by omega) (by omega)
    rw [Option.map_eq_some_iff] at h6
    obtain ⟨line, hl, h6⟩ := h6
    have hs : (((textLines vGDefault).drop 1).map lineSays)[j - 1]? = some (lineSays line) := by rw [List.getElem?_map, hl]; rfl
    rw [vGDefault_says, List.getElem?_map, Option.map_eq_some_iff] at hs
    obtain ⟨v, hv1, hv2⟩ := hs
    rw [List.getElem?_drop, show 1 + (j - 1) = j by omega] at hl
    obtain ⟨p, h1, h2⟩ := C81_says_partial env c s h conv hscan file vGDefault hf ht vGDefault_short j hj (by omega) line hl v hv2.symm h6
    exact ⟨p, v, h1, h2, hv1⟩
  by_cases h7 : i = 7
  · subst h7
    obtain ⟨p, v, h1, h2, h3⟩ := right 6 (by omega) (by omega) (by omega) (by omega)
    obtain ⟨p0, p', a1, a2, a3⟩ := C81_blank_name_repeats env c s h conv hscan file vGDefault hf ht vGDefault_short 6 (by omega)
      (by simpa using hmax) "\"Sandy-clay loam\"\t0.06\t0.38\t2.00E-02\t1.33\t0.54\n".toList (by decide +kernel)
      "\"Sandy-clay".toList 'l' "oam\"".toList _ rfl ⟨rfl, by decide, by decide, by decide, by decide⟩
    rw [h1, Option.some.injEq] at a1
    subst a1
    exact ⟨p', v, a2, a3.trans h2, h3⟩
  · by_cases h11 : i = 11
    · subst h11
      obtain ⟨p, v, h1, h2, h3⟩ := right 10 (by omega) (by omega) (by omega) (by omega)
      obtain ⟨p0, p', a1, a2, a3⟩ := C81_blank_name_repeats env c s h conv hscan file vGDefault hf ht vGDefault_short 10 (by omega)
        (by simpa using hmax) "\"Silty-clay loam\"\t0.09\t0.48\t1.00E-02\t1.52\t0.468\n".toList (by decide +kernel)
        "\"Silty-clay".toList 'l' "oam\"".toList _ rfl ⟨rfl, by decide, by decide, by decide, by decide⟩
      rw [h1, Option.some.injEq] at a1
      subst a1
      exact ⟨p', v, a2, a3.trans h2, h3⟩
    · rw [if_neg h7, if_neg h11]
      exact right i hi (Nat.le_refl _) h7 h11

/-- The numbers read for soil types 7 and 11 are not those of their lines. -/
theorem C81_shipped_differs : vGDefaultSays[6]? ≠ vGDefaultSays[5]? ∧ vGDefaultSays[10]? ≠ vGDefaultSays[9]? ∧
    (vGDefaultSays[6]?.map fun v => (v.thetaR, v.Ksat)) = some ((6 / 100, 54 / 100) : ℚ × ℚ) ∧
    (vGDefaultSays[5]?.map fun v => (v.thetaR, v.Ksat)) = some ((12 / 100, 468 / 1000) : ℚ × ℚ) := by decide +kernel

/-! Cases. -/

/-- A `%lf` that reads decimal numerals and rejects everything else. -/
def decScan (conv : ℚ → α) (s : List Char) : Option (α × List Char) :=
  let s := s.dropWhile isBlank
  (numeral (s.takeWhile fun c => !isBlank c)).map fun q => (conv q, s.dropWhile fun c => !isBlank c)

omit [Zero α] [One α] [Add α] [Sub α] [Mul α] [Div α] [Neg α] [LT α] [DecidableLT α] [LE α] [DecidableLE α]
  [OfScientific α] [BEq α] [CMath α] in
theorem decScan_reads (conv : ℚ → α) : ReadsDecimals (decScan conv) conv where
  num bl w rest q hb hq hw hr := by
    have hne : w ≠ [] := by rintro rfl; simp [numeral] at hq
    have d1 : (bl ++ (w ++ rest)).dropWhile isBlank = w ++ rest := by
      rw [List.dropWhile_append_of_pos hb]
      cases hn : w with
      | nil => exact absurd hn hne
      | cons a t =>
        have := hw a (by rw [hn]; simp)
        simp [this]
    have d2 : (w ++ rest).takeWhile (fun c => !isBlank c) = w := by
      rw [List.takeWhile_append_of_pos (fun c hc => by simp [hw c hc])]
      cases rest with
      | nil => simp
      | cons a t => simp [hr a rfl]
    have d3 : (w ++ rest).dropWhile (fun c => !isBlank c) = rest := by
      rw [List.dropWhile_append_of_pos (fun c hc => by simp [hw c hc])]
      cases rest with
      | nil => simp
      | cons a t => simp [hr a rfl]
    unfold decScan
    rw [d1]
    simp only
    rw [d2, d3, hq]
    rfl
  letter bl t c hb hc := by
    have hcb : isBlank c = false := by
      unfold isNumberFree at hc
      by_contra hx
      simp only [Bool.not_eq_false, isBlank, Bool.or_eq_true, beq_iff_eq] at hx
      rcases hx with ((rfl | rfl) | rfl) | rfl <;> exact absurd hc.1 (by decide)
    have hcd : c.isDigit = false := by
      by_contra hx
      simp only [Bool.not_eq_false] at hx
      have h1 := hc.1
      simp only [Char.isDigit, Char.isAlpha, Char.isUpper, Char.isLower, Bool.or_eq_true, Bool.and_eq_true, decide_eq_true_eq,
        ge_iff_le, UInt32.le_iff_toNat_le] at hx h1
      have k1 : '0'.val.toNat = 48 := rfl
      have k2 : '9'.val.toNat = 57 := rfl
      have k3 : 'A'.val.toNat = 65 := rfl
      have k4 : 'Z'.val.toNat = 90 := rfl
      have k5 : 'a'.val.toNat = 97 := rfl
      have k6 : 'z'.val.toNat = 122 := rfl
      omega
    have d1 : (bl ++ c :: t).dropWhile isBlank = c :: t := by
      rw [List.dropWhile_append_of_pos hb]
      simp [hcb]
    unfold decScan
    rw [d1]
    simp [hcb, numeral, hcd]

namespace ShipSample

/-- The sample environment with the shipped file and a `%lf` for its numerals. -/
def env : Env Grid := { Sample.env with scanF := decScan Grid.ofRat, files := fun _ => some (fgetsAll vGDefault) }

/-- Clay over Loamy-sand; the configuration allows 25 soil types. -/
def cfg : List (List Char) :=
  ["layer_thickness=10,20[cm]".toList, "layer_soil_type=1,4".toList, "soil_params_file=x".toList,
   "max_valid_soil_types=25".toList, "initial_psi=100[cm]".toList, "timestep=30[min]".toList, "endtime=5[hr]".toList,
   "forcing_resolution=60[min]".toList, "ponded_depth_max=2[cm]".toList, "use_closed_form_G=true".toList,
   "wilting_point_psi=15495.0[cm]".toList, "field_capacity_psi=340.9[cm]".toList, "giuh_ordinates=0.7,0.3".toList]

/-- Case for C81_shipped_fails: Initialize succeeds with the shipped file; soil types 5, 6 and 7. -/
theorem ok : ∃ s, bmiInitialize env cfg = .ok s ∧ s.p.numSoilTypes = 15 ∧
    ((s.soils.map fun p => p.five).drop 5).take 3 = [⟨1/20, 19/50, 1/25, 159/50, 666/25⟩, ⟨3/25, 39/100, 3/100, 121/100, 117/250⟩,
      ⟨3/25, 39/100, 3/100, 121/100, 117/250⟩] := Sample.okAnd_exists (by decide +kernel)

/-- Case for the hypotheses of C81_shipped_fails. -/
example : ReadsDecimals env.scanF Grid.ofRat ∧ env.HasText "x".toList vGDefault := ⟨decScan_reads _, rfl⟩

/-- A file with a header of 260 characters and one soil. -/
def longHeader : List Char := List.replicate 260 'h' ++ '\n' :: "sand 0.05 0.45 0.02 2 1.5\nloam 0.1 0.4 0.01 2 0.5\n".toList

/-- The sample environment with that file; numbers not read have arbitrary values. -/
def envLong : Env Grid :=
  { Sample.env with scanF := decScan Grid.ofRat, files := fun _ => some (fgetsAll longHeader), junkRec := ⟨[], 1/7, 1/2, 1/50, 2, 1⟩ }

/-- Case for C81_long_header_shifts: soil type 2 has the residual moisture of the first soil of the file. -/
theorem long : ∃ s, bmiInitialize envLong Sample.cfg = .ok s ∧ (s.soils.map fun p => p.thetaR) = [0, 1/7, 1/20] :=
  Sample.okAnd_exists (by decide +kernel)
end ShipSample

/-! The configurations shipped with the code. -/

/-- configs/config_lasam_Bushland.txt. -/
def bushland : List (List Char) :=
  ["verbosity=none".toList, "forcing_file=./forcing/forcing_data_resampled_uniform_Bushland.csv".toList,
   "soil_params_file=./data/vG_default_params.dat".toList, "layer_thickness=18.0,76.0,135.0[cm]".toList,
   "initial_psi=2000.0[cm]".toList, "timestep=300[sec]".toList, "endtime=8333.0[hr]".toList,
   "forcing_resolution=3600[sec]".toList, "ponded_depth_max=0[cm]".toList, "use_closed_form_G=false".toList,
   "layer_soil_type=16,17,18".toList, "max_valid_soil_types=25".toList, "wilting_point_psi=15495.0[cm]".toList,
   "field_capacity_psi=340.9[cm]".toList, "giuh_ordinates=0.06,0.51,0.28,0.12,0.03".toList, "adaptive_timestep=true".toList]


omit [Zero α] [One α] [Add α] [Sub α] [Mul α] [Div α] [Neg α] [LT α] [DecidableLT α] [LE α] [DecidableLE α]
  [OfScientific α] [BEq α] [CMath α] in
theorem readVector_three {env : Env α} {a b c : List Char} {x : List α} (ha : findChar ',' (a ++ ',' :: (b ++ ',' :: c)) = some a.length)
    (hb : findChar ',' (b ++ ',' :: c) = some b.length) (hc : findChar ',' c = none)
    (h : readVector env (a ++ ',' :: (b ++ ',' :: c)) = .ok x) :
    ∃ u v w, x = [u, v, w] ∧ env.stod a = some u ∧ env.stod b = some v ∧ env.stod c = some w := by
  have st : ∀ {z : List Char} {y : α}, cstod env z = .ok y → env.stod z = some y := by
    intro z y hy
    unfold cstod at hy
    split at hy
    · simp at hy
    · simp only [Except.ok.injEq] at hy; subst hy; assumption
  unfold readVector at h
  rw [ha] at h
  simp only [reduceCtorEq, if_false] at h
  rw [show (a ++ ',' :: (b ++ ',' :: c)).length + 1 = ((a ++ (b ++ ',' :: c)).length + 1) + 1 by simp; omega, readVecLoop, ha] at h
  simp only at h
  rw [bind_ok_iff] at h
  obtain ⟨u, hu, h⟩ := h
  have d1 : (a ++ ',' :: (b ++ ',' :: c)).drop (a.length + 1) = b ++ ',' :: c := by
    rw [← List.drop_drop, List.drop_left]; rfl
  rw [d1, if_neg (by rw [hb]; simp), readVecLoop, hb, bind_ok_iff] at h
  obtain ⟨r, hr, h⟩ := h
  simp only at hr
  rw [bind_ok_iff] at hr
  obtain ⟨v, hv, hr⟩ := hr
  have d2 : (b ++ ',' :: c).drop (b.length + 1) = c := by
    rw [← List.drop_drop, List.drop_left]; rfl
  rw [d2, if_pos hc, bind_ok_iff] at hr
  obtain ⟨w, hw, hr⟩ := hr
  simp only [pure_eq_ok, Except.ok.injEq] at h hr
  subst h; subst hr
  rw [List.take_left] at hu hv
  exact ⟨u, v, w, rfl, st hu, st hv, st hw⟩

/-- C52 fails for the shipped configuration configs/config_lasam_Bushland.txt: Initialize never succeeds, whatever the soil file says,
because its soil types 16, 17, 18 exceed the built-in limit of 15. -/
theorem C52_bushland_fails (env : Env α) (h16 : ∀ x, env.stod "16".toList = some x → CMath.toInt x = 16) (s : State α) :
    bmiInitialize env bushland ≠ .ok s := by
  intro h
  obtain ⟨c, hc, hi, _⟩ := bmiInitialize_inv h
  rw [readConfig_iff] at hc
  have f1 : (bushland.filter fun l => decide (lineKey l = some .soilType)) = ["layer_soil_type=16,17,18".toList] := by decide +kernel
  have f2 : (bushland.filter fun l => decide (lineKey l = some .thick)) = ["layer_thickness=18.0,76.0,135.0[cm]".toList] := by
    decide +kernel
  have f3 : (bushland.filter fun l => decide (lineKey l = some .numTypes)) = ["max_valid_soil_types=25".toList] := by decide +kernel
  have c1 := hc .soilType
  have c2 := hc .thick
  have c3 := hc .numTypes
  rw [f1] at c1
  rw [f2] at c2
  rw [f3] at c3
  simp only [chain, bind_ok_iff, parseKey] at c1 c2 c3
  obtain ⟨y1, r1, c1⟩ := c1
  obtain ⟨x1, q1, rfl⟩ := map_ok_iff'.mp r1
  obtain ⟨y2, r2, c2⟩ := c2
  obtain ⟨x2, q2, rfl⟩ := map_ok_iff'.mp r2
  obtain ⟨y3, r3, c3⟩ := c3
  obtain ⟨x3, q3, rfl⟩ := map_ok_iff'.mp r3
  have c1 := Except.ok.inj c1
  have c2 := Except.ok.inj c2
  have c3 := Except.ok.inj c3
  obtain ⟨u, v, w, rfl, hu, _, _⟩ := readVector_three (a := "16".toList) (b := "17".toList) (c := "18".toList) rfl rfl rfl q1
  obtain ⟨u', v', w', rfl, _, _, _⟩ := readVector_three (a := "18.0".toList) (b := "76.0".toList) (c := "135.0".toList) rfl rfl rfl q2
  refine C52_above_15_fails env c _ _ 0 16 (fun m hm => ?_) c1.symm c2.symm (by simp) (by simp [h16 u hu]) (by omega) s hi
  unfold setNumTypes at q3
  split at q3
  · simp at q3
  · simp only [Except.ok.injEq] at q3
    subst q3
    rw [show c.numTypes = c.get .numTypes from rfl, ← c3] at hm
    simp only [Option.some.injEq] at hm
    omega

/-- Case for C52_bushland_fails: with the shipped soil file the configuration ends in an out-of-range read. -/
example : (∀ x, ShipSample.env.stod "16".toList = some x → CMath.toInt x = 16) ∧
    (match bmiInitialize ShipSample.env bushland with
      | .error (.ub _) => true
      | _ => false) = true := by
  refine ⟨fun x hx => ?_, by decide +kernel⟩
  have e : ShipSample.env.stod "16".toList = some (16 : Grid) := by decide +kernel
  rw [e, Option.some.injEq] at hx
  subst hx
  decide +kernel

end LGAR
