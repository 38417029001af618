import Verif.Lemmas.SoilFile
import Verif.Lemmas.MoveSafe
import Verif.Model.Config
import Verif.Spec.InitSafe
/-
Initialisation stays inside its arrays.
-/
namespace LGAR

variable {α : Type} [Add α] [Sub α] [Mul α] [Div α] [Neg α] [Zero α] [One α] [OfScientific α]
  [LT α] [LE α] [DecidableLT α] [DecidableLE α] [BEq α] [CMath α] {fb : Guard}

theorem spec_need {β : Type} {e : Err} (he : ¬ e.bad fb) (o : Option β) : Spec fb (need e o) fun x => o = some x := by
  cases o with
  | none => exact Spec.error he
  | some x => exact Spec.ok rfl

theorem scanFields_name (scanF : List Char → Option (α × List Char)) (r : SoilRec α) (s : List Char) :
    (scanFields scanF r s).name = r.name := by
  unfold scanFields
  repeat' split
  all_goals rfl

theorem scanLine_name {scanF : List Char → Option (α × List Char)} {line w : List Char} {ws : List (List Char)}
    (h : wordsOf line = w :: ws) (r : SoilRec α) : (scanLine scanF r line).name = w := by
  obtain ⟨bl, rest, rfl, h1, h2, h3, h4, _⟩ := wordsOf_cons h
  rw [scanLine_word h1 h2 h3 h4, scanFields_name]

theorem spec_soilOfRec (wp : α) (old : SoilProps α) {r : SoilRec α} (h : r.name.length < 25) :
    Spec fb (soilOfRec wp old r) fun _ => True := by
  unfold soilOfRec
  rw [if_neg (by omega), if_neg (by omega), if_neg (by omega)]
  refine Spec.bindT (spec_cdiv fun _ => trivial) fun q _ => ?_
  have rest : ∀ s : SoilProps α, Spec fb (do
      let q3 ← cdiv 3.0 s.bcLambda
      let h ← cdiv (s.bcPsib * (2.0 + q3)) (1 + q3)
      pure { s with hMin := h } : Res (SoilProps α)) fun _ => True := fun s => by
    refine Spec.bindT (spec_cdiv fun _ => trivial) fun _ _ => ?_
    refine Spec.bindT (spec_cdiv fun _ => trivial) fun _ _ => ?_
    exact Spec.pure trivial
  simp only
  split
  · refine Spec.bindT (spec_cdiv fun _ => trivial) fun _ _ => ?_
    refine Spec.bindT (spec_cdiv fun _ => trivial) fun _ _ => ?_
    refine Spec.bindT (spec_cdiv fun _ => trivial) fun _ _ => ?_
    refine Spec.bindT (spec_cdiv fun _ => trivial) fun _ _ => ?_
    refine Spec.bindT (spec_cassert fun _ => trivial) fun _ _ => ?_
    exact rest _
  · exact rest _

theorem spec_readSoilsGo {scanF : List Char → Option (α × List Char)} {wp : α} {numTypes : Int} :
    ∀ {lines : List (List Char)} {soil : Nat} {count : Int} {r : SoilRec α} {soils : List (SoilProps α)},
      (soil : Int) = count + 1 → count < numTypes → (soils.length : Int) = numTypes + 1 →
      (∀ (i : Nat) (line : List Char), lines[i]? = some line → count + i < numTypes → NameFits line) →
      Spec fb (readSoilsGo scanF wp numTypes lines soil count r soils) fun _ => True
  | [], _, _, _, _, _, _, _, _ => Spec.ok trivial
  | line :: rest, soil, count, r, soils, h1, h2, h3, h4 => by
    unfold readSoilsGo
    obtain ⟨w, ws, hw, hlen⟩ := h4 0 line rfl (by simpa using h2)
    simp only
    refine Spec.bindT (spec_idx (by omega) trivial) fun old _ => ?_
    refine Spec.bindT (spec_soilOfRec wp old (by rw [scanLine_name hw]; exact hlen)) fun s _ => ?_
    unfold setIdx
    rw [if_pos (by omega), ok_bind]
    split
    · exact Spec.pure trivial
    · rename_i hne
      refine spec_readSoilsGo (by omega) (by omega) (by simpa using h3) fun i l hl hi => h4 (i + 1) l (by simpa using hl) ?_
      push_cast; omega

theorem spec_invalidTypes {soilType : List Int} {numTypes : Int} : ∀ {n layer : Nat}, layer + n ≤ soilType.length →
    Spec fb (invalidTypes soilType numTypes n layer) fun _ => True
  | 0, _, _ => Spec.ok trivial
  | n + 1, layer, h => by
    unfold invalidTypes
    refine Spec.bindT (spec_idx (by omega) trivial) fun t _ => ?_
    split
    · exact Spec.pure trivial
    · exact spec_invalidTypes (by omega)

theorem spec_giuhResample (factor : Nat) : ∀ ords : List α, Spec fb (giuhResample factor ords) fun _ => True
  | [] => Spec.ok trivial
  | o :: os => by
    unfold giuhResample
    refine Spec.bindT ?_ fun _ _ => ?_
    · unfold giuhPart
      split
      · exact Spec.ok trivial
      · exact spec_cdiv fun _ => trivial
    · refine Spec.bindT (spec_giuhResample factor os) fun _ _ => ?_
      exact Spec.pure trivial

theorem spec_calibInit {g : Geo α} (hg : g.Valid) : ∀ {n layer : Nat}, 1 ≤ layer → layer + n ≤ g.numLayers + 1 →
    Spec fb (calibInit g n layer) fun _ => True
  | 0, _, _, _ => Spec.ok trivial
  | n + 1, layer, h1, h2 => by
    unfold calibInit
    refine Spec.bindT (spec_soil hg h1 (by omega)) fun _ _ => ?_
    refine Spec.bindT (spec_calibInit hg (by omega) (by omega)) fun _ _ => ?_
    exact Spec.pure trivial

theorem spec_initFrontsGo {g : Geo α} (hg : g.Valid) (psi : α) : ∀ {n layer : Nat} {l : List (Front α)}, NumFrom 1 l →
    l.length + 1 = layer → layer + n ≤ g.numLayers + 1 → Spec fb (initFrontsGo g psi n layer l) fun _ => True
  | 0, _, _, _, _, _ => Spec.ok trivial
  | n + 1, layer, l, hn, hl, hk => by
    unfold initFrontsGo
    refine Spec.bindT (spec_soil hg (by omega) (by omega)) fun s _ => ?_
    refine Spec.bindT (spec_calcThetaFromH ..) fun th _ => ?_
    refine Spec.bindT (spec_cum hg (by omega)) fun c _ => ?_
    have e : (Int.ofNat layer : Int) = (l.length : Int) + 1 := by
      simp only [Int.ofNat_eq_natCast]; omega
    rw [e, listInsertFront_append _ _ _ _ _ _ _ hn, ok_bind]
    simp only
    refine Spec.bind _ (spec_derefOpt (by simp)) fun f _ hf => ?_
    rw [List.getElem?_append_right (by omega)] at hf
    simp only [Nat.sub_self, List.getElem?_cons_zero, Option.some.injEq] at hf
    subst hf
    refine Spec.bindT (spec_calcSeFromTheta ..) fun _ _ => ?_
    refine Spec.bindT (spec_frozen hg (by omega)) fun _ _ => ?_
    refine Spec.bindT (spec_calcKFromSe ..) fun K _ => ?_
    have e2 : (l ++ [(⟨c, th, 0, 0, layer, (l.length : Int) + 1, true, 0⟩ : Front α)]).set ((some l.length).getD 0)
        ⟨c, th, psi, K, layer, (l.length : Int) + 1, true, 0⟩ = l ++ [⟨c, th, psi, K, layer, (l.length : Int) + 1, true, 0⟩] := by
      rw [Option.getD_some, List.set_append_right _ _ (by omega)]; simp
    rw [e2]
    refine spec_initFrontsGo hg psi ?_ (by simp; omega) (by omega)
    rw [NumFrom.append]
    exact ⟨hn, by simp [NumFrom]; omega⟩

theorem spec_lgarInit {env : Env α} {c : Cfg α} (hc : CfgFits env c) : Spec fb (lgarInit env c) fun _ => True := by
  obtain ⟨thick, hth, htypes⟩ := hc.layers
  unfold lgarInit
  simp only
  refine Spec.bind _ (spec_need (by simp [Err.bad]) _) fun ts _ hts => ?_
  refine Spec.bind _ (spec_need (by simp [Err.bad]) _) fun file _ hfile => ?_
  refine Spec.bind _ (spec_need (by simp [Err.bad]) _) fun _ _ _ => ?_
  refine Spec.bind _ (spec_need (by simp [Err.bad]) _) fun lines _ hlines => ?_
  have h1 := hc.types
  refine Spec.bind (fun x => x.1.length = (c.numTypes.getD 15 + 1).toNat) ?_ fun x _ hx => ?_
  · refine (spec_readSoilsGo (by simp) (by omega) (by simp; omega) fun i l hl hi => hc.names file lines hfile hlines i l hl (by omega)).mono
      fun x hx _ => ?_
    rw [readSoilsGo_length hx, List.length_replicate]
  obtain ⟨soils, cnt⟩ := x
  simp only at hx ⊢
  rw [hth]
  simp only [need, ok_bind]
  have ht := htypes ts hts
  have hlen : thick.length ≤ ts.length := by
    by_contra hcon
    obtain ⟨t, h, _⟩ := ht ts.length (by omega)
    simp at h
  refine Spec.bindT (spec_invalidTypes (by simp [typeArray]; omega)) fun inval _ => ?_
  refine Spec.bind _ (spec_need (by simp [Err.bad]) _) fun psi _ _ => ?_
  refine Spec.bind _ (spec_need (by simp [Err.bad]) _) fun dt _ _ => ?_
  refine Spec.bind _ (spec_need (by simp [Err.bad]) _) fun _ _ _ => ?_
  refine Spec.bind _ (spec_need (by simp [Err.bad]) _) fun _ _ _ => ?_
  refine Spec.bind _ (spec_need (by simp [Err.bad]) _) fun _ _ _ => ?_
  refine Spec.bind _ (spec_need (by simp [Err.bad]) _) fun res _ _ => ?_
  refine Spec.bind _ (spec_need (by simp [Err.bad]) _) fun ords _ _ => ?_
  refine Spec.bindT (spec_cdiv fun _ => trivial) fun _ _ => ?_
  refine Spec.bindT (spec_giuhResample _ _) fun _ _ => ?_
  refine Spec.bindT ?_ fun soilZ _ => ?_
  · by_cases hs : c.sft = true
    · have := hc.cells hs
      cases hz : c.soilZ with
      | none => exact absurd hz this
      | some z => simp only [hs, if_true]; exact Spec.ok trivial
    · simp only [hs]; exact Spec.ok trivial
  refine Spec.bindT (spec_cdiv fun _ => trivial) fun _ _ => ?_
  refine Spec.bindT (spec_idx (by rw [cumThickness_length]; omega) trivial) fun _ _ => ?_
  have hg : Geo.Valid (⟨thick.length, cumThickness thick, typeArray ts, List.replicate (thick.length + 1) (1 : α), soils⟩ : Geo α) := by
    refine ⟨cumThickness_length thick, by simp, by simp [typeArray]; omega, fun k hk1 hk2 => ?_⟩
    obtain ⟨j, rfl⟩ : ∃ j, k = j + 1 := ⟨k - 1, by omega⟩
    obtain ⟨t, a, b, d⟩ := ht j (by simp only at hk2; omega)
    exact ⟨t, by simpa [typeArray] using a, b, by simp only [hx]; omega⟩
  refine Spec.bind (fun l => ∀ f ∈ l, 1 ≤ f.layer ∧ f.layer ≤ thick.length) ?_ fun head _ hh => ?_
  · refine (spec_initFrontsGo hg psi (l := []) (layer := 1) (n := thick.length) trivial rfl (by simp; omega)).mono fun l hl _ f hf => ?_
    obtain ⟨ext, rfl, hel, _, hall⟩ := initFrontsGo_inv (l := []) (layer := 1) trivial rfl hl
    obtain ⟨i, hi, he⟩ := List.getElem_of_mem hf
    obtain ⟨_, _, _, _, _, _, _, _, _, _, _, _, e⟩ := hall i f (by rw [← he]; exact List.getElem?_eq_getElem hi)
    rw [e]
    simp only at hel ⊢
    omega
  refine Spec.bindT (spec_massBalGo hg head hh 0) fun _ _ => ?_
  refine Spec.bindT (spec_cassert fun _ => trivial) fun _ _ => ?_
  refine Spec.bindT (spec_calibInit hg (by omega) (by simp; omega)) fun _ _ => ?_
  exact Spec.pure trivial

theorem keyOf_endtime {k : List Char} (h : keyOf k = some .endtime) : k = "endtime".toList := by
  unfold keyOf at h
  simp only [Option.map_eq_some_iff] at h
  obtain ⟨e, he, h2⟩ := h
  have h1 := List.find?_some he
  have hm := List.mem_of_find?_eq_some he
  simp only [beq_iff_eq] at h1
  subst h1
  simp only [keyTable, List.mem_cons, List.not_mem_nil, or_false] at hm
  rcases hm with rfl | rfl | rfl | rfl | rfl | rfl | rfl | rfl | rfl | rfl | rfl | rfl | rfl | rfl | rfl | rfl | rfl <;> simp_all

theorem spec_cstod (env : Env α) (s : List Char) : Spec fb (cstod env s) fun _ => True := by
  unfold cstod
  split
  · exact Spec.error (by simp [Err.bad])
  · exact Spec.ok trivial

theorem spec_readVecLoop (env : Env α) : ∀ (n : Nat) (z : List Char), Spec .mem (readVecLoop env n z) fun _ => True
  | 0, _ => Spec.error (by simp [Err.bad, Guard.mem])
  | n + 1, z => by
    unfold readVecLoop
    split
    · exact Spec.ok trivial
    · refine Spec.bindT (spec_cstod env _) fun _ _ => ?_
      simp only
      split
      · refine Spec.bindT (spec_cstod env _) fun _ _ => ?_
        exact Spec.pure trivial
      · refine Spec.bindT (spec_readVecLoop env n _) fun _ _ => ?_
        exact Spec.pure trivial

theorem spec_readVector (env : Env α) (z : List Char) : Spec .mem (readVector env z) fun _ => True := by
  unfold readVector
  split
  · refine Spec.bindT (spec_cstod env _) fun _ _ => ?_
    exact Spec.pure trivial
  · exact spec_readVecLoop env _ _

theorem spec_parseBool (v : List Char) : Spec fb (parseBool v) fun _ => True := by
  unfold parseBool
  repeat' split
  all_goals first | exact Spec.ok trivial | exact Spec.error (by simp [Err.bad])

theorem spec_parseBool01 (v : List Char) : Spec fb (parseBool01 v) fun _ => True := by
  unfold parseBool01
  repeat' split
  all_goals first | exact Spec.ok trivial | exact Spec.error (by simp [Err.bad])

theorem spec_applyKey (env : Env α) (c : Cfg α) (v u : List Char) (k : Key)
    (hk : k = .endtime → (isSec u || isMin u || isHour u || isDay u) = true) :
    Spec .mem (applyKey env c v u k) fun _ => True := by
  cases k
  case endtime =>
    simp only [applyKey, setEndtime]
    have h := hk rfl
    rw [if_pos h]
    refine Spec.bindT (spec_cstod env _) fun x _ => ?_
    cases e : toSeconds u x with
    | none =>
      exfalso
      unfold toSeconds at e
      simp only [Bool.or_eq_true] at h
      repeat' split at e
      all_goals simp_all
    | some t =>
      refine Spec.bindT (spec_cassert fun _ => trivial) fun _ _ => ?_
      exact Spec.pure trivial
  case numTypes =>
    simp only [applyKey, setNumTypes]
    split
    · exact Spec.error (by simp [Err.bad])
    · exact Spec.ok trivial
  case soilFile => exact Spec.ok trivial
  all_goals
    simp only [applyKey]
    first
    | exact Spec.bindT (spec_readVector env _) fun _ _ => Spec.pure trivial
    | exact Spec.bindT (spec_cstod env _) fun _ _ => Spec.pure trivial
    | exact Spec.bindT (spec_parseBool _) fun _ _ => Spec.pure trivial
    | exact Spec.bindT (spec_parseBool01 _) fun _ _ => Spec.pure trivial
    | exact Spec.bindT (spec_cstod env _) fun _ _ => Spec.bindT (spec_cassert fun _ => trivial) fun _ _ => Spec.pure trivial

theorem spec_readConfig (env : Env α) : ∀ (c : Cfg α) (lines : List (List Char)),
    (∀ line ∈ lines, paramKey line = "endtime".toList →
      (isSec (paramUnit line) || isMin (paramUnit line) || isHour (paramUnit line) || isDay (paramUnit line)) = true) →
    Spec .mem (readConfig env c lines) fun _ => True
  | c, [], _ => Spec.ok trivial
  | c, line :: rest, h => by
    unfold readConfig
    refine Spec.bindT ?_ fun c' _ => spec_readConfig env c' rest fun l hl => h l (List.mem_cons_of_mem _ hl)
    unfold configLine
    split
    · exact Spec.ok trivial
    · rename_i k hk
      refine spec_applyKey env c _ _ k fun e => h line List.mem_cons_self (keyOf_endtime ?_)
      rw [hk, e]

end LGAR
