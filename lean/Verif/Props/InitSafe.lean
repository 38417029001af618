import Verif.Lemmas.InitSafe
import Verif.Model.Config
import Verif.Spec.SampleRun
/-
C97: reading the soil file and setting up the model stays inside the arrays.
-/
namespace LGAR

variable {α : Type} [Add α] [Sub α] [Mul α] [Div α] [Neg α] [Zero α] [One α] [OfScientific α]
  [LT α] [LE α] [DecidableLT α] [DecidableLE α] [BEq α] [CMath α]

/-- C97: if every layer has a soil type between 0 and the number of soil types (at least 1), the cells of the soil temperature
model are listed when that is used, and the names in the lines of the soil file that are read have fewer than 25 characters,
then Initialize, once the configuration file has been read, accesses no array out of range, no NULL pointer and no freed front,
and reads no variable that was not set.  Partial: the full claim is about every configuration and every soil file; see the
`_fails` theorems below. -/
theorem C97_safe_partial (env : Env α) (c : Cfg α) (hc : CfgFits env c) (why : String) :
    lgarInit env c ≠ .error (.ub why) ∧ lgarInit env c ≠ .error (.uaf why) :=
  ⟨(spec_lgarInit (fb := Guard.mem) hc).no_ub why, (spec_lgarInit (fb := Guard.mem) hc).no_uaf rfl why⟩

/-- The units that `endtime` may have, as they stand in the file; none means seconds. -/
def endtimeUnits : List String := ["", "[s]", "[sec]", "[min]", "[minute]", "[h]", "[hr]", "[d]", "[day]"]

/-- C97: reading the configuration file itself, with whatever lines, goes wrong with memory only at an `endtime` whose unit is
not one of those known (C48_endtime_unknown shows that it then does). -/
theorem C97_config (env : Env α) (c : Cfg α) (lines : List (List Char)) (why : String)
    (h : readConfig env c lines = .error (.ub why) ∨ readConfig env c lines = .error (.uaf why)) :
    ∃ line ∈ lines, paramKey line = "endtime".toList ∧ String.ofList (paramUnit line) ∉ endtimeUnits := by
  by_contra hcon
  have hs := spec_readConfig env c lines fun line hl hk => by
    by_contra hu
    refine hcon ⟨line, hl, hk, fun hmem => hu ?_⟩
    simp only [endtimeUnits, List.mem_cons, List.not_mem_nil, or_false] at hmem
    have e : ∀ t : String, String.ofList (paramUnit line) = t → paramUnit line = t.toList := fun t ht => by
      rw [← ht]; simp
    rcases hmem with h | h | h | h | h | h | h | h | h <;> rw [e _ h] <;> decide
  rcases h with h | h
  · exact hs.no_ub why h
  · exact hs.no_uaf rfl why h

/-- C97, for Initialize as a whole: a configuration file whose `endtime` lines have a known unit, and that says something that
fits.  Partial: as C97_safe_partial. -/
theorem C97_initialize_partial (env : Env α) (lines : List (List Char))
    (hu : ∀ line ∈ lines, paramKey line = "endtime".toList → String.ofList (paramUnit line) ∈ endtimeUnits)
    (hc : ∀ c, readConfig env {} lines = .ok c → CfgFits env c) (why : String) :
    bmiInitialize env lines ≠ .error (.ub why) ∧ bmiInitialize env lines ≠ .error (.uaf why) := by
  unfold bmiInitialize
  cases hr : readConfig env {} lines with
  | ok c => exact C97_safe_partial env c (hc c hr) why
  | error e =>
    have hne : ¬ (e = .ub why ∨ e = .uaf why) := fun he => by
      obtain ⟨line, hl, hk, hn⟩ := C97_config env {} lines why (by rw [hr]; simpa using he)
      exact hn (hu line hl hk)
    rw [not_or] at hne
    constructor
    · intro h; exact hne.1 (by simpa [error_bind] using h)
    · intro h; exact hne.2 (by simpa [error_bind] using h)

/-- C97 fails for names of exactly 25 characters: the test in the code lets them pass and the terminating zero is written behind
the end of the array of names.  This is so for every soil file whose first soil has such a name. -/
theorem C97_name25_fails (env : Env α) (c : Cfg α) (ts : List Int) (file header line : List Char) (rest : List (List Char))
    (w : List Char) (ws : List (List Char)) (ht : c.soilType = some ts) (hf : c.soilFile = some file)
    (hn : 1 ≤ c.numTypes.getD 15) (hl : env.files file = some (header :: line :: rest)) (hw : wordsOf line = w :: ws)
    (h25 : w.length = 25) : lgarInit env c = .error (.ub "strcpy into soil_name[25]") := by
  unfold lgarInit
  simp only [ht, hf, hl, need, ok_bind, readSoils, List.drop_succ_cons, List.drop_zero]
  rw [if_neg (by omega)]
  simp only [ok_bind, readSoilsGo]
  have h1 : 1 < (c.numTypes.getD 15 + 1).toNat := by omega
  have hi : idx (List.replicate (c.numTypes.getD 15 + 1).toNat env.junkSoil) 1 = .ok env.junkSoil :=
    idx_ok_iff.mpr (by rw [List.getElem?_replicate, if_pos h1])
  rw [hi, ok_bind]
  unfold soilOfRec
  rw [scanLine_name hw, h25, if_neg (by omega), if_neg (by omega), if_pos rfl]
  rfl

/-- C97 fails for names of 30 characters or more: they overflow the buffer they are read into before the length is tested. -/
theorem C97_name30_fails (env : Env α) (c : Cfg α) (ts : List Int) (file header line : List Char) (rest : List (List Char))
    (w : List Char) (ws : List (List Char)) (ht : c.soilType = some ts) (hf : c.soilFile = some file)
    (hn : 1 ≤ c.numTypes.getD 15) (hl : env.files file = some (header :: line :: rest)) (hw : wordsOf line = w :: ws)
    (h30 : 30 ≤ w.length) : lgarInit env c = .error (.ub "soil_name[30] overflow") := by
  unfold lgarInit
  simp only [ht, hf, hl, need, ok_bind, readSoils, List.drop_succ_cons, List.drop_zero]
  rw [if_neg (by omega)]
  simp only [ok_bind, readSoilsGo]
  have h1 : 1 < (c.numTypes.getD 15 + 1).toNat := by omega
  have hi : idx (List.replicate (c.numTypes.getD 15 + 1).toNat env.junkSoil) 1 = .ok env.junkSoil :=
    idx_ok_iff.mpr (by rw [List.getElem?_replicate, if_pos h1])
  rw [hi, ok_bind]
  unfold soilOfRec
  rw [scanLine_name hw, if_pos h30]
  rfl

/-- C97 fails for `max_valid_soil_types=0`: the first soil is stored behind the end of the array, whatever the soil file says. -/
theorem C97_no_types_fails (env : Env α) (c : Cfg α) (ts : List Int) (file header line : List Char) (rest : List (List Char))
    (ht : c.soilType = some ts) (hf : c.soilFile = some file) (hn : c.numTypes = some 0)
    (hl : env.files file = some (header :: line :: rest)) :
    lgarInit env c = .error (.ub "array index out of range") := by
  unfold lgarInit
  simp only [ht, hf, hl, hn, need, ok_bind, readSoils, List.drop_succ_cons, List.drop_zero, Option.getD_some]
  rfl

/-- The sample configuration with another line `i`. -/
def cfgWith (i : Nat) (line : String) : List (List Char) := Sample.cfg.set i line.toList

/-- C97 fails for a configuration with fewer soil types than layers. -/
theorem C97_few_types_fails : ∃ why, bmiInitialize Sample.env (cfgWith 1 "layer_soil_type=1") = .error (.ub why) :=
  Sample.isUb_exists (by decide +kernel)

/-- C97 fails for a negative soil type. -/
theorem C97_negative_type_fails : ∃ why,
    (readConfig Sample.env {} Sample.cfg >>= fun c => lgarInit Sample.env { c with soilType := some [1, -2] }) = .error (.ub why) :=
  Sample.isUb_exists (by decide +kernel)

/-- Non-vacuity: the sample configuration is read and fits. -/
theorem sample_fits : Sample.okAnd (readConfig Sample.env {} Sample.cfg)
    (fun c => c.thick = some [10, 20] ∧ c.soilType = some [1, 2] ∧ c.numTypes = some 2 ∧ c.sft = false) = true := by
  decide +kernel

example : ∃ c, readConfig Sample.env {} Sample.cfg = .ok c ∧ CfgFits Sample.env c := by
  obtain ⟨c, hc, h⟩ := Sample.okAnd_exists sample_fits
  obtain ⟨h1, h2, h3, h4⟩ := h
  refine ⟨c, hc, ⟨_, h1, fun ts hts k hk => ?_⟩, by simp [h4], by simp [h3], fun file lines _ hl i line hi _ => ?_⟩
  · rw [h2] at hts
    obtain rfl := Option.some.inj hts
    rw [h3]
    match k, hk with
    | 0, _ => exact ⟨1, rfl, by simp, by simp⟩
    | 1, _ => exact ⟨2, rfl, by simp, by simp⟩
  · have e : Sample.soilLines = lines := Option.some.inj hl
    subst e
    match i, hi with
    | 0, hi => obtain rfl := Option.some.inj hi; exact ⟨"sand".toList, _, rfl, by decide⟩
    | 1, hi => obtain rfl := Option.some.inj hi; exact ⟨"loam".toList, _, rfl, by decide⟩
    | (n + 2), hi => simp [Sample.soilLines] at hi

/-- Non-vacuity of C97_initialize_partial: the units of the sample configuration. -/
example : ∀ line ∈ Sample.cfg, paramKey line = "endtime".toList → String.ofList (paramUnit line) ∈ endtimeUnits := by
  decide +kernel

/-- Non-vacuity of the failing names: a name of 25 letters, as `wordsOf` reads it. -/
example : wordsOf "abcdefghijklmnopqrstuvwxy 0.05 0.45 0.02 2 1.5".toList =
    "abcdefghijklmnopqrstuvwxy".toList :: ["0.05".toList, "0.45".toList, "0.02".toList, "2".toList, "1.5".toList] ∧
    "abcdefghijklmnopqrstuvwxy".toList.length = 25 := by decide +kernel

end LGAR
