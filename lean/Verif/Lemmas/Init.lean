import Verif.Model.Driver
import Verif.Lemmas.Update
import Verif.Props.Lists
/-
Lemmas about initialisation.
-/
set_option linter.unusedSectionVars false
namespace LGAR

section Free
variable {α : Type} [Add α] [Sub α] [Mul α] [Div α] [Neg α] [Zero α] [One α] [OfScientific α]
  [LT α] [LE α] [DecidableLT α] [DecidableLE α] [BEq α] [CMath α]

theorem need_ok_iff {β : Type} {e : Err} {o : Option β} {x : β} : need e o = .ok x ↔ o = some x := by
  cases o <;> simp [need]

/-- Inserting number `length + 1` into a consecutively numbered list appends the new front. -/
theorem listInsertFront_append (psi0 K0 depth theta : α) (layer : Nat) (bottom : Bool) (l : List (Front α))
    (hn : NumFrom 1 l) :
    listInsertFront psi0 K0 depth theta ((l.length : Int) + 1) layer bottom l =
      .ok (some l.length, l ++ [⟨depth, theta, psi0, K0, layer, (l.length : Int) + 1, bottom, 0⟩]) := by
  have h := (consecutive_iff l).mpr hn
  rcases List.eq_nil_or_concat l with rfl | ⟨a, p, rfl⟩
  · rfl
  · rw [List.concat_eq_append] at hn h ⊢
    have hp : p.front = ((a ++ [p]).length : Int) + 1 - 1 := by
      have := h (a.length) (by simp)
      simp at this; simp [this]
    have ha : ∀ g ∈ a, g.front ≠ ((a ++ [p]).length : Int) + 1 - 1 := by
      rw [NumFrom.append] at hn
      intro g hg e
      have := hn.1.mem_lt hg
      simp at e; omega
    have hne : ∃ x t, a ++ [p] = x :: t := by cases a <;> simp
    obtain ⟨x, t, hx⟩ := hne
    unfold listInsertFront
    have := insertGo_split (link := (⟨depth, theta, psi0, K0, layer, ((a ++ [p]).length : Int) + 1, bottom, 0⟩ :
      Front α)) (b := []) hp ha
    rw [hx] at this ⊢
    simp only [if_true] at this
    simp only [this, ok_bind]
    rw [← hx]; simp

/-- The front that initialisation puts at the bottom of layer `k`. -/
def InitFront (g : Geo α) (psi : α) (k : Nat) (f : Front α) : Prop :=
  ∃ s th c ff Se K, g.soil k = .ok s ∧ calcThetaFromH psi s.vgAlpha s.vgM s.vgN s.thetaE s.thetaR = .ok th ∧
    g.cum[k]? = some c ∧ g.frozen[k]? = some ff ∧ calcSeFromTheta th s.thetaE s.thetaR = .ok Se ∧
    calcKFromSe Se (ff * s.Ksat) s.vgM = .ok K ∧ f = ⟨c, th, psi, K, k, (k : Int), true, 0⟩

theorem initFrontsGo_inv {g : Geo α} {psi : α} : ∀ {n layer : Nat} {l l' : List (Front α)}, NumFrom 1 l →
    l.length + 1 = layer → initFrontsGo g psi n layer l = .ok l' →
    ∃ ext, l' = l ++ ext ∧ ext.length = n ∧ NumFrom 1 l' ∧ ∀ i f, ext[i]? = some f → InitFront g psi (layer + i) f
  | 0, layer, l, l', hn, _, h => by
    simp [initFrontsGo] at h
    exact ⟨[], by simp [h], rfl, by rw [← h]; exact hn, by simp⟩
  | n + 1, layer, l, l', hn, hl, h => by
    unfold initFrontsGo at h
    simp only [bind_ok_iff, Prod.exists, idx_ok_iff] at h
    obtain ⟨s, hs, th, hth, c, hc, p, l1, hins, f, hf, Se, hSe, ff, hff, K, hK, h⟩ := h
    have e : (Int.ofNat layer : Int) = (l.length : Int) + 1 := by
      simp only [Int.ofNat_eq_natCast]; omega
    rw [e, listInsertFront_append _ _ _ _ _ _ _ hn] at hins
    simp only [Except.ok.injEq, Prod.mk.injEq] at hins
    obtain ⟨rfl, rfl⟩ := hins
    simp only [derefOpt, deref_ok_iff] at hf
    rw [List.getElem?_append_right (by omega)] at hf
    simp only [Nat.sub_self, List.getElem?_cons_zero, Option.some.injEq] at hf
    subst hf
    simp only [Option.getD_some] at h
    have e2 : (l ++ [(⟨c, th, 0, 0, layer, (l.length : Int) + 1, true, 0⟩ : Front α)]).set l.length
        ⟨c, th, psi, K, layer, (l.length : Int) + 1, true, 0⟩ = l ++ [⟨c, th, psi, K, layer, (l.length : Int) + 1, true, 0⟩] := by
      rw [List.set_append_right _ _ (by omega)]; simp
    rw [e2] at h
    have hn' : NumFrom 1 (l ++ [(⟨c, th, psi, K, layer, (l.length : Int) + 1, true, 0⟩ : Front α)]) := by
      rw [NumFrom.append]
      exact ⟨hn, by simp only [NumFrom, and_true]; omega⟩
    obtain ⟨ext, rfl, hlen, hnum, hall⟩ := initFrontsGo_inv hn' (by simp; omega) h
    refine ⟨⟨c, th, psi, K, layer, (l.length : Int) + 1, true, 0⟩ :: ext, by simp, by simp [hlen], by simpa using hnum, ?_⟩
    intro i f hi
    cases i with
    | zero =>
      simp only [List.getElem?_cons_zero, Option.some.injEq] at hi
      subst hi
      refine ⟨s, th, c, ff, Se, K, hs, hth, hc, hff, hSe, hK, ?_⟩
      have : (l.length : Int) + 1 = (layer : Int) := by omega
      rw [this]
      rfl
    | succ i =>
      simp only [List.getElem?_cons_succ] at hi
      have := hall i f hi
      rw [show layer + (i + 1) = layer + 1 + i by omega]
      exact this

theorem initFronts_inv {g : Geo α} {psi : α} {l : List (Front α)} (h : initFronts g psi = .ok l) :
    l.length = g.numLayers ∧ NumFrom 1 l ∧ ∀ i f, l[i]? = some f → InitFront g psi (i + 1) f := by
  obtain ⟨ext, he, hlen, hn, hall⟩ := initFrontsGo_inv (l := []) trivial rfl h
  simp only [List.nil_append] at he
  subst he
  exact ⟨hlen, hn, fun i f hi => by rw [Nat.add_comm]; exact hall i f hi⟩

theorem Sound.init {g : Geo α} {psi : α} {l : List (Front α)} (h : initFronts g psi = .ok l) (hN : 0 < g.numLayers) :
    Sound g.numLayers l := by
  obtain ⟨hlen, hn, hall⟩ := initFronts_inv h
  refine ⟨hn, ?_⟩
  have hi : l.length - 1 < l.length := by omega
  obtain ⟨s, th, c, ff, Se, K, _, _, _, _, _, _, hf⟩ := hall _ _ (List.getElem?_eq_getElem hi)
  refine ⟨l[l.length - 1], by rw [List.getLast?_eq_getElem?, List.getElem?_eq_getElem hi], ?_, ?_, ?_⟩
  · rw [hf]; simp only; omega
  · rw [hf]
  · rw [hf]

/-- What Initialize leaves behind. -/
theorem lgarInit_inv {env : Env α} {c : Cfg α} {s : State α} (h : lgarInit env c = .ok s) :
    ∃ ts file lines soils cnt thick psi dt endt wp fc res ords inv giuh soilZ q depth volstart cs,
      c.soilType = some ts ∧ c.soilFile = some file ∧ ¬ c.numTypes.getD 15 + 1 < 0 ∧ env.files file = some lines ∧
      readSoils env.scanF env.junk (c.numTypes.getD 15) lines env.junkRec
        (List.replicate (c.numTypes.getD 15 + 1).toNat env.junkSoil) = .ok (soils, cnt) ∧
      c.thick = some thick ∧
      invalidTypes (typeArray ts) (c.numTypes.getD 15) thick.length 1 = .ok s.p.invalidSoil ∧
      c.initialPsi = some psi ∧ c.timestep = some dt ∧ c.endtime = some endt ∧ c.wp = some wp ∧ c.fc = some fc ∧
      c.forcingRes = some res ∧ c.giuh = some ords ∧ cdiv 1 res = .ok inv ∧
      giuhResample (CMath.toInt inv).toNat ords = .ok giuh ∧ (if c.sft then c.soilZ else some [0]) = some soilZ ∧
      cdiv res dt = .ok q ∧ (cumThickness thick)[thick.length]? = some depth ∧
      s.geo = {
        numLayers := thick.length, cum := cumThickness thick, soilType := typeArray ts,
        frozen := List.replicate (thick.length + 1) 1, soils := soils } ∧
      initFronts s.geo psi = .ok s.head ∧ massBal (cumThickness thick) s.head = .ok volstart ∧
      thick.length = s.head.length ∧ calibInit s.geo thick.length 1 = .ok cs ∧
      s = {
        head := s.head, prev := [], soils := soils,
        p := {
          layerThickness := 0 :: thick, layerSoilType := typeArray ts, numLayers := thick.length,
          numWf := (thick.length : Int), cum := cumThickness thick,
          soilDepth := depth, initialPsi := psi, timestepH := dt, forcingResH := res, minTimestepH := dt,
          forcingInterval := CMath.toInt (q + 1.0e-8), numSoilTypes := c.numTypes.getD 15,
          moistureWf := s.head.map (fun f => f.theta), depthWf := s.head.map (fun f => f.depth * 0.01),
          soilTemp := soilZ.map (fun _ => 0), soilTempZ := soilZ, frozen := List.replicate (thick.length + 1) 1,
          wpPsi := wp, fcPsi := fc,
          closedG := c.closed, adaptive := c.adaptive, pondMax := c.pondMax.getD 0, precipPrev := 0, nint := 120,
          timeS := 0, endtimeS := endt, timesteps := 0, sftCoupled := c.sft, calibFlag := c.calib,
          invalidSoil := s.p.invalidSoil },
        mb := { env.junkMb with
          volprecip := 0, volin := 0, volend := 0, volAET := 0, volrech := 0, volrunoff := 0, volgiuh := 0,
          volQ := 0, volPET := 0, volon := 0, volonT := 0, volQgwT := 0, volcalib := 0,
          volstart := volstart },
        precipMm := -1, petMm := -1,
        calib := {
          thetaE := cs.map (fun s => s.thetaE), thetaR := cs.map (fun s => s.thetaR),
          vgN := cs.map (fun s => s.vgN), vgAlpha := cs.map (fun s => s.vgAlpha),
          Ksat := cs.map (fun s => s.Ksat), fcPsi := fc, pondMax := c.pondMax.getD 0 },
        conv := env.junkConv,
        numGiuh := giuh.length, giuhOrd := giuh, giuhQueue := List.replicate (giuh.length + 1) 0 } := by
  unfold lgarInit at h
  simp only [bind_ok_iff, Prod.exists, idx_ok_iff, need_ok_iff, cassert_ok_iff] at h
  obtain ⟨ts, hts, file, hfile, _, hneg, lines, hlines, soils, cnt, hsoils, thick, hthick, invalid, hinv, psi, hpsi, dt, hdt,
    endt, hendt, wp, hwp, fc, hfc, res, hres, ords, hords, inv, hinv2, giuh, hgiuh, soilZ, hz, q, hq, depth, hdepth, head, hhead,
    vs, hvs, _, hlen, cs, hcs, h⟩ := h
  simp only [pure_eq_ok, Except.ok.injEq] at h
  subst h
  refine ⟨ts, file, lines, soils, cnt, thick, psi, dt, endt, wp, fc, res, ords, inv, giuh, soilZ, q, depth, vs, cs, hts, hfile,
    ?_, hlines, hsoils, hthick, hinv, hpsi, hdt, hendt, hwp, hfc, hres, hords, hinv2, hgiuh, hz, hq, hdepth, rfl, hhead, hvs,
    hlen, hcs, rfl⟩
  intro hlt
  rw [if_pos hlt] at hneg
  exact absurd hneg (by simp)

theorem readSoilsGo_length {scanF : List Char → Option (α × List Char)} {wp : α} {numTypes : Int} :
    ∀ {lines : List (List Char)} {soil : Nat} {count : Int} {r : SoilRec α} {soils : List (SoilProps α)}
    {x : List (SoilProps α) × Int}, readSoilsGo scanF wp numTypes lines soil count r soils = .ok x → x.1.length = soils.length
  | [], soil, count, r, soils, x, h => by
    simp only [readSoilsGo, Except.ok.injEq] at h; subst h; rfl
  | line :: rest, soil, count, r, soils, x, h => by
    unfold readSoilsGo at h
    simp only [bind_ok_iff] at h
    obtain ⟨old, _, s, _, so, hso, h⟩ := h
    have hl : so.length = soils.length := by
      unfold setIdx at hso
      split at hso
      · simp only [Except.ok.injEq] at hso; subst hso; simp
      · simp at hso
    split at h
    · simp only [pure_eq_ok, Except.ok.injEq] at h; subst h; exact hl
    · rw [readSoilsGo_length h, hl]

theorem invalidTypes_true {st : List Int} {numTypes : Int} : ∀ {n layer : Nat}, invalidTypes st numTypes n layer = .ok true →
    ∃ (k : Nat) (t : Int), layer ≤ k ∧ k < layer + n ∧ st[k]? = some t ∧ numTypes < t
  | 0, layer, h => by simp [invalidTypes] at h
  | n + 1, layer, h => by
    unfold invalidTypes at h
    simp only [bind_ok_iff, idx_ok_iff] at h
    obtain ⟨t, ht, h⟩ := h
    split at h
    · rename_i hlt; exact ⟨layer, t, le_refl _, by omega, ht, hlt⟩
    · obtain ⟨k, t', h1, h2, h3, h4⟩ := invalidTypes_true h
      exact ⟨k, t', by omega, by omega, h3, h4⟩

theorem calibInit_length {g : Geo α} : ∀ {n layer : Nat} {cs : List (SoilProps α)}, calibInit g n layer = .ok cs → cs.length = n
  | 0, layer, cs, h => by simp only [calibInit, Except.ok.injEq] at h; subst h; rfl
  | n + 1, layer, cs, h => by
    unfold calibInit at h
    simp only [bind_ok_iff, pure_eq_ok, Except.ok.injEq] at h
    obtain ⟨s, _, r, hr, rfl⟩ := h
    simp [calibInit_length hr]

theorem cumGo_get : ∀ (l : List α) (a : α) (k : Nat), k < l.length → (cumGo a l)[k]? = some ((l.take (k + 1)).foldl (· + ·) a)
  | [], _, k, h => by simp at h
  | t :: l, a, 0, _ => by simp [cumGo]
  | t :: l, a, k + 1, h => by
    simp only [cumGo, List.getElem?_cons_succ, List.take_succ_cons, List.foldl_cons]
    exact cumGo_get l (a + t) k (by simpa using h)

theorem cumGo_length : ∀ (l : List α) (a : α), (cumGo a l).length = l.length
  | [], _ => rfl
  | t :: l, a => by simp [cumGo, cumGo_length l]

theorem cumThickness_length (l : List α) : (cumThickness l).length = l.length + 1 := by
  simp [cumThickness, cumGo_length]

theorem cumThickness_get (l : List α) (k : Nat) (h : k ≤ l.length) :
    (cumThickness l)[k]? = some ((l.take k).foldl (· + ·) 0) := by
  cases k with
  | zero => simp [cumThickness]
  | succ k => simp only [cumThickness, List.getElem?_cons_succ]; exact cumGo_get l 0 k h

theorem calibInit_soil {g : Geo α} : ∀ {n layer : Nat} {cs : List (SoilProps α)}, calibInit g n layer = .ok cs →
    ∀ k, layer ≤ k → k < layer + n → ∃ s, g.soil k = .ok s
  | 0, layer, cs, _, k, h1, h2 => by omega
  | n + 1, layer, cs, h, k, h1, h2 => by
    unfold calibInit at h
    simp only [bind_ok_iff] at h
    obtain ⟨s, hs, r, hr, _⟩ := h
    rcases Nat.lt_or_ge layer k with hlt | hge
    · exact calibInit_soil hr k (by omega) (by omega)
    · obtain rfl : k = layer := by omega
      exact ⟨s, hs⟩

/-- Initialize cannot return without reading outside the array of soils if some layer has an unsupported soil type. -/
theorem lgarInit_valid {env : Env α} {c : Cfg α} {s : State α} (h : lgarInit env c = .ok s) : s.p.invalidSoil = false := by
  obtain ⟨ts, file, fl, soils, cnt, thick, psi, dt, endt, wp, fc, res, ords, inv, giuh, soilZ, q, depth, vs, cs, _, _, hn, _, hsoil,
    _, hinv, _, _, _, _, _, _, _, _, _, _, _, _, hgeo, _, _, _, hcs, _⟩ := lgarInit_inv h
  by_contra hne
  rw [Bool.not_eq_false] at hne
  rw [hne] at hinv
  obtain ⟨k, t, h1, h2, h3, h4⟩ := invalidTypes_true hinv
  obtain ⟨so, hso⟩ := calibInit_soil hcs k h1 h2
  rw [hgeo] at hso
  unfold Geo.soil at hso
  simp only [bind_ok_iff, idx_ok_iff] at hso
  obtain ⟨t', ht', hso⟩ := hso
  rw [h3, Option.some.injEq] at ht'
  subst ht'
  have hl := readSoilsGo_length hsoil
  simp only [List.length_replicate] at hl
  unfold idxI at hso
  split at hso
  · simp at hso
  · rw [idx_ok_iff] at hso
    have := (List.getElem?_eq_some_iff.mp hso).1
    omega

theorem readVecLoop_ne {env : Env α} : ∀ {fuel : Nat} {z : List Char} {r : List α}, findChar ',' z ≠ none →
    readVecLoop env fuel z = .ok r → r ≠ []
  | 0, z, r, _, h => by simp [readVecLoop] at h
  | fuel + 1, z, r, hz, h => by
    unfold readVecLoop at h
    split at h
    · rename_i hn; exact absurd hn hz
    · simp only [bind_ok_iff] at h
      obtain ⟨v, _, h⟩ := h
      split at h
      · simp only [bind_ok_iff, pure_eq_ok, Except.ok.injEq] at h
        obtain ⟨_, _, rfl⟩ := h; simp
      · simp only [bind_ok_iff, pure_eq_ok, Except.ok.injEq] at h
        obtain ⟨_, _, rfl⟩ := h; simp

theorem readVector_ne {env : Env α} {z : List Char} {r : List α} (h : readVector env z = .ok r) : r ≠ [] := by
  unfold readVector at h
  split at h
  · simp only [bind_ok_iff, pure_eq_ok, Except.ok.injEq] at h
    obtain ⟨_, _, rfl⟩ := h; simp
  · rename_i hz; exact readVecLoop_ne hz h

theorem setNumTypes_thick {env : Env α} {c c' : Cfg α} {v : List Char} (h : setNumTypes env c v = .ok c') :
    c.thick = c'.thick := by
  unfold setNumTypes at h
  split at h
  · simp at h
  · simp only [Except.ok.injEq] at h; subst h; rfl

theorem setEndtime_thick {env : Env α} {c c' : Cfg α} {v u : List Char} (h : setEndtime env c v u = .ok c') :
    c.thick = c'.thick := by
  unfold setEndtime at h
  by_cases hu : (isSec u || isMin u || isHour u || isDay u) = true
  · rw [if_pos hu] at h
    simp only [bind_ok_iff] at h
    obtain ⟨x, _, h⟩ := h
    split at h
    · simp at h
    · simp only [bind_ok_iff, pure_eq_ok, Except.ok.injEq] at h
      obtain ⟨_, _, rfl⟩ := h; rfl
  · rw [if_neg hu] at h
    split at h
    · simp at h
    · simp only [bind_ok_iff, pure_eq_ok, Except.ok.injEq] at h
      obtain ⟨_, _, rfl⟩ := h; rfl

/-- Reading a line sets the thickness list to a non-empty list or leaves it alone. -/
theorem configLine_thick {env : Env α} {c c' : Cfg α} {line : List Char} (h : configLine env c line = .ok c')
    (hc : c.thick ≠ some []) : c'.thick ≠ some [] := by
  unfold configLine at h
  split at h
  · simp only [Except.ok.injEq] at h; subst h; exact hc
  · rename_i k _
    cases k <;> simp only [applyKey, bind_ok_iff, pure_eq_ok, Except.ok.injEq] at h
    case thick => obtain ⟨x, hx, rfl⟩ := h; simpa using readVector_ne hx
    case numTypes => exact setNumTypes_thick h ▸ hc
    case endtime => exact setEndtime_thick h ▸ hc
    case timestep => obtain ⟨x, hx, _, _, rfl⟩ := h; exact hc
    case forcingRes => obtain ⟨x, hx, _, _, rfl⟩ := h; exact hc
    case soilFile => subst h; exact hc
    all_goals (obtain ⟨x, hx, rfl⟩ := h; exact hc)

theorem readConfig_thick {env : Env α} : ∀ {lines : List (List Char)} {c c' : Cfg α}, readConfig env c lines = .ok c' →
    c.thick ≠ some [] → c'.thick ≠ some []
  | [], c, c', h, hc => by
    simp only [readConfig, Except.ok.injEq] at h; subst h; exact hc
  | line :: rest, c, c', h, hc => by
    unfold readConfig at h
    simp only [bind_ok_iff] at h
    obtain ⟨c1, h1, h⟩ := h
    exact readConfig_thick h (configLine_thick h1 hc)

theorem bmiInitialize_inv {env : Env α} {lines : List (List Char)} {s : State α} (h : bmiInitialize env lines = .ok s) :
    ∃ c, readConfig env {} lines = .ok c ∧ lgarInit env c = .ok s ∧ c.thick ≠ some [] := by
  unfold bmiInitialize at h
  simp only [bind_ok_iff] at h
  obtain ⟨c, hc, h⟩ := h
  exact ⟨c, hc, h, readConfig_thick hc (by simp)⟩

theorem Sound.initialize {env : Env α} {lines : List (List Char)} {s : State α} (h : bmiInitialize env lines = .ok s) :
    Sound s.p.numLayers s.head ∧ s.p.numWf = (s.head.length : Int) := by
  obtain ⟨c, _, h, hne⟩ := bmiInitialize_inv h
  obtain ⟨ts, file, fl, soils, cnt, thick, psi, dt, endt, wp, fc, res, ords, inv, giuh, soilZ, q, depth, vs, cs, _, _, _, _, _,
    hthick, _, _, _, _, _, _, _, _, _, _, _, _, _, hgeo, hhead, _, hlen, _, hs⟩ := lgarInit_inv h
  have hN : s.geo.numLayers = s.p.numLayers := rfl
  have hN' : s.p.numLayers = thick.length := by rw [← hN, hgeo]
  have hpos : 0 < thick.length := by
    cases thick with
    | nil => exact absurd hthick hne
    | cons => simp
  refine ⟨hN ▸ Sound.init hhead (by rw [hN, hN']; exact hpos), ?_⟩
  rw [hs]
  exact congrArg _ hlen

end Free
end LGAR
