import Verif.Spec.Twin
import Verif.Lemmas.Placed
import Verif.Lemmas.Config
/-
Every function of the model reads, of the soil array, only the soils of the layers 1, 2, ..., and of these everything but
`theta_wp`.
-/
namespace LGAR

section Free
variable {α : Type} [Add α] [Sub α] [Mul α] [Div α] [Neg α] [Zero α] [One α] [OfScientific α]
  [LT α] [LE α] [DecidableLT α] [DecidableLE α] [BEq α] [CMath α]

theorem bind_same {β γ : Type} {x : Res β} {F F' : β → Res γ} (h : ∀ a, x = .ok a → F a = F' a) : (x >>= F) = (x >>= F') := by
  cases x with
  | error e => rfl
  | ok a => exact h a rfl

theorem bind_cong {β γ : Type} {x x' : Res β} {F F' : β → Res γ} (hx : x = x') (h : ∀ a, x = .ok a → F a = F' a) :
    (x >>= F) = (x' >>= F') := by subst hx; exact bind_same h

/-- Geometry that differs only in the numbers of the soils, in soils that no layer has, and in `theta_wp`. -/
structure GeoSame (g g' : Geo α) : Prop where
  layers : g'.numLayers = g.numLayers
  cum : g'.cum = g.cum
  types : ∀ k, 1 ≤ k → (∃ e, idx g.soilType k = .error e ∧ idx g'.soilType k = .error e) ∨
    ∃ t t', idx g.soilType k = .ok t ∧ idx g'.soilType k = .ok t'
  frozen : g'.frozen = g.frozen
  soil : ∀ k, 1 ≤ k → (∃ e, g.soil k = .error e ∧ g'.soil k = .error e) ∨
    ∃ s w, g.soil k = .ok s ∧ g'.soil k = .ok { s with thetaWp := w }

variable {g g' : Geo α}

theorem GeoSame.bind (h : GeoSame g g') {γ : Type} {k : Nat} (hk : 1 ≤ k) {F F' : SoilProps α → Res γ}
    (hF : ∀ s w, F s = F' { s with thetaWp := w }) : (g.soil k >>= F) = (g'.soil k >>= F') := by
  rcases h.soil k hk with ⟨e, h1, h2⟩ | ⟨s, w, h1, h2⟩
  · rw [h1, h2]; rfl
  · rw [h1, h2]; exact hF s w

theorem GeoSame.skip (h : GeoSame g g') {γ : Type} {k : Nat} (hk : 1 ≤ k) {x x' : Res γ} (hx : x = x') :
    (idx g.soilType k >>= fun _ => x) = (idx g'.soilType k >>= fun _ => x') := by
  rcases h.types k hk with ⟨e, h1, h2⟩ | ⟨t, t', h1, h2⟩
  · rw [h1, h2]; rfl
  · rw [h1, h2]; exact hx

theorem deref_mem {l : List (Front α)} {i : Nat} {c : Front α} (h : deref l i = .ok c) : c ∈ l :=
  List.mem_of_getElem? (deref_ok_iff.1 h)

theorem derefOpt_mem {l : List (Front α)} {i : Option Nat} {c : Front α} (h : derefOpt l i = .ok c) : c ∈ l := by
  cases i with
  | none => simp [derefOpt] at h
  | some i => exact deref_mem h

theorem calcAet_same (h : GeoSame g g') {PET dt wp fc : α} {l : List (Front α)} (hl : Lay l) :
    calcAet PET dt wp fc g l = calcAet PET dt wp fc g' l := by
  unfold calcAet
  refine bind_same fun c hc => h.bind (hl c (deref_mem hc)) fun s w => rfl

theorem psiKOf_same (h : GeoSame g g') {k : Nat} (hk : 1 ≤ k) {th : α} : psiKOf g k th = psiKOf g' k th := by
  unfold psiKOf
  rw [h.frozen]
  exact h.bind hk fun s w => rfl

theorem mergeStep_same (h : GeoSame g g') {cur : Nat} {l : List (Front α)} (hl : Lay l) : mergeStep g cur l = mergeStep g' cur l := by
  unfold mergeStep
  refine bind_same fun c hc => bind_same fun n hn => ?_
  rw [psiKOf_same h (hl c (deref_mem hc))]

theorem mergeStep_placed {cur : Nat} {l : List (Front α)} {r : Nat × List (Front α)} (hn : NumFrom 1 l) (hp : Lay l)
    (hst : mergeStep g cur l = .ok r) : NumFrom 1 r.2 ∧ Lay r.2 := by
  refine ⟨mergeStep_num hn hst, ?_⟩
  rcases mergeStep_inv hn hst with rfl | ⟨a, c, n, nn, b, d, psi, Kc, rfl, _, _, _, _, _, _, _, rfl⟩
  · exact hp
  · intro f hf
    rcases List.mem_append.mp hf with hf | hf
    · exact hp f (by simp [hf])
    · rcases List.mem_cons.mp hf with rfl | hf
      · exact hp c (by simp)
      · exact Lay.of_map (l := nn :: b) (fun x hx => hp x (by simp at hx ⊢; tauto)) (decFronts_layer _) f hf

theorem mergeLoop_same (h : GeoSame g g') : ∀ {fuel wf cur : Nat} {l : List (Front α)}, NumFrom 1 l → Lay l →
    mergeLoop g fuel wf cur l = mergeLoop g' fuel wf cur l
  | 0, _, _, _, _, _ => rfl
  | fuel + 1, wf, cur, l, hn, hl => by
    unfold mergeLoop
    split
    · rfl
    · refine bind_cong (mergeStep_same h hl) fun r hr => ?_
      obtain ⟨h1, h2⟩ := mergeStep_placed hn hl hr
      exact mergeLoop_same h h1 h2

theorem mergeFronts_same (h : GeoSame g g') {l : List (Front α)} (hl : Placed l) : mergeFronts g l = mergeFronts g' l :=
  mergeLoop_same h hl.num hl.lay

theorem crossStep_same (h : GeoSame g g') {cur : Nat} {l : List (Front α)} (hl : Lay l) : crossStep g cur l = crossStep g' cur l := by
  unfold crossStep
  rw [h.frozen, h.cum, h.layers]
  refine bind_same fun c hc => h.bind (hl c (deref_mem hc)) fun s w => bind_same fun ff _ => bind_same fun n _ =>
    bind_same fun bot _ => ?_
  split
  · exact h.bind (by omega) fun s2 w2 => rfl
  · rfl

theorem crossStep_lay {cur : Nat} {l l' : List (Front α)} (hp : Lay l) (hx : crossStep g cur l = .ok l') : Lay l' := by
  rcases crossStep_inv hx with rfl | ⟨a, c, n, nn, b, s, ff, s2, bot, psi, Kc, thetaNew, Se, z, rfl, _, _, _, _, _, _, _, _, _, _,
    _, _, _, rfl⟩
  · exact hp
  · intro f hf
    rcases List.mem_append.mp hf with hf | hf
    · exact hp f (by simp [hf])
    · simp only [List.mem_cons] at hf
      rcases hf with rfl | rfl | rfl | hf
      · exact hp c (by simp)
      · simp
      · exact hp _ (by simp)
      · exact hp f (by simp [hf])

theorem crossLoop_same (h : GeoSame g g') : ∀ {fuel wf cur : Nat} {l : List (Front α)}, Lay l →
    crossLoop g fuel wf cur l = crossLoop g' fuel wf cur l
  | 0, _, _, _, _ => rfl
  | fuel + 1, wf, cur, l, hl => by
    unfold crossLoop
    split
    · rfl
    · exact bind_cong (crossStep_same h hl) fun r hr => crossLoop_same h (crossStep_lay hl hr)

theorem crossLayer_same (h : GeoSame g g') {l : List (Front α)} (hl : Lay l) : crossLayer g l = crossLayer g' l :=
  crossLoop_same h hl

theorem domainLoop_same (h : GeoSame g g') {d : α} {len : Nat} {l : List (Front α)} (hl : Lay l) : ∀ {fuel wf cur : Nat},
    domainLoop g d len fuel wf cur l = domainLoop g' d len fuel wf cur l
  | 0, _, _ => rfl
  | fuel + 1, wf, cur => by
    unfold domainLoop
    split
    · rfl
    split
    · rfl
    refine bind_same fun c hc => ?_
    refine h.skip (hl c (deref_mem hc)) (bind_same fun n _ => ?_)
    rw [psiKOf_same h (hl c (deref_mem hc)), domainLoop_same h hl]

theorem crossDomain_same (h : GeoSame g g') {d : α} {l : List (Front α)} (hl : Lay l) : crossDomain g d l = crossDomain g' d l :=
  domainLoop_same h hl

theorem updAbove_same (h : GeoSame g g') {psi : α} {k : Nat} : ∀ {l : List (Front α)}, Lay l →
    updAbove g psi k l = updAbove g' psi k l
  | [], _ => rfl
  | f :: t, hl => by
    unfold updAbove
    split
    · refine h.bind (hl f (by simp)) fun s w => bind_same fun th _ => ?_
      rw [updAbove_same h fun x hx => hl x (by simp [hx])]
    · rfl

theorem fixDryRepair_same (h : GeoSame g g') {a b : List (Front α)} {c : Front α} {k : Int} (hn : NumFrom k (a ++ c :: b))
    (hl : Lay (a ++ c :: b)) : fixDryRepair g c (a ++ c :: b) = fixDryRepair g' c (a ++ c :: b) := by
  unfold fixDryRepair
  rw [h.cum]
  refine bind_same fun m0 _ => bind_same fun r hr => ?_
  rw [listDeleteFront_num hn, Except.ok.injEq] at hr
  subst hr
  have hrest : Lay (a ++ decFronts b) :=
    Lay.of_map (l := a ++ b) (fun x hx => hl x (by simp at hx ⊢; tauto))
      (by rw [List.map_append, List.map_append, decFronts_layer])
  dsimp only
  split
  · refine bind_same fun d hd => h.bind (hrest d (deref_mem hd)) fun s w => bind_same fun Se _ => bind_same fun psi _ =>
      bind_cong (updAbove_same h ?_) fun _ _ => rfl
    intro x hx
    rcases List.mem_or_eq_of_mem_set hx with hx | rfl
    · exact hrest x hx
    · exact hrest d (deref_mem hd)
  · rfl

theorem fixDryRepair_lay {a b : List (Front α)} {c n : Front α} {r : Nat × List (Front α) × α} {k : Int}
    (hn : NumFrom k (a ++ c :: n :: b)) (hp : Lay (a ++ c :: n :: b)) (hr : fixDryRepair g c (a ++ c :: n :: b) = .ok r) :
    Lay r.2.1 := by
  obtain ⟨m0, m1, l2, _, _, rfl, hc⟩ := fixDryRepair_inv hn hr
  have hrest : Lay (a ++ decFronts (n :: b)) :=
    Lay.of_map (l := a ++ n :: b) (fun x hx => hp x (by simp at hx ⊢; tauto))
      (by rw [List.map_append, List.map_append, decFronts_layer])
  rcases hc with ⟨_, rfl⟩ | ⟨_, d, b', s, Se, psi, hb, _, _, _, hu⟩
  · exact hrest
  · refine Lay.of_map hrest ?_
    rw [updAbove_lay hu]
    simp only [List.cons.injEq] at hb
    obtain ⟨rfl, rfl⟩ := hb
    simp [decFronts_cons]

theorem fixDryLoop_same (h : GeoSame g g') : ∀ {fuel cnt cur : Nat} {l : List (Front α)} {mc : α}, NumFrom 1 l → Lay l →
    fixDryLoop g fuel cnt cur l mc = fixDryLoop g' fuel cnt cur l mc
  | 0, _, _, _, _, _, _ => rfl
  | fuel + 1, cnt, cur, l, mc, hn, hl => by
    unfold fixDryLoop
    split
    · rfl
    split
    · refine bind_same fun c hc => bind_same fun n hn' => ?_
      obtain ⟨a, b, rfl, rfl⟩ := split2 (deref_ok_iff.1 hc) (deref_ok_iff.1 hn')
      split
      · refine bind_cong (fixDryRepair_same h hn hl) fun r hr => bind_same fun _ _ => ?_
        exact fixDryLoop_same h (fixDryRepair_num hn hr) (fixDryRepair_lay hn hl hr)
      · exact fixDryLoop_same h hn hl
    · exact fixDryLoop_same h hn hl

theorem checkFix_same (h : GeoSame g g') {l : List (Front α)} {mc : α} (hl : Placed l) : checkFix g mc l = checkFix g' mc l := by
  unfold checkFix fixDry
  refine bind_same fun b _ => ?_
  split
  · exact bind_same fun _ _ => fixDryLoop_same h hl.num hl.lay
  · rfl

theorem fpBottomSum_same (h : GeoSame g g') : ∀ {n : Nat} {s : α}, fpBottomSum g n s = fpBottomSum g' n s
  | 0, _ => rfl
  | n + 1, s => by
    unfold fpBottomSum
    rw [h.frozen, h.cum]
    refine h.bind (by omega) fun s w => bind_same fun _ _ => bind_same fun _ _ => bind_same fun _ _ => bind_same fun _ _ =>
      fpBottomSum_same h

theorem maxStorageGo_same (h : GeoSame g g') : ∀ {n k : Nat} {s : α}, 1 ≤ k → maxStorageGo g n k s = maxStorageGo g' n k s
  | 0, _, _, _ => rfl
  | n + 1, k, s, hk => by
    unfold maxStorageGo
    rw [h.cum]
    exact h.bind hk fun s w => bind_same fun _ _ => bind_same fun _ _ => maxStorageGo_same h (by omega)

theorem fpPotential_same (h : GeoSame g g') {fuel : Nat} {closed : Bool} {nint : Int} {dt aet ponded precip : α} {nFd : Nat}
    {l : List (Front α)} (hl : Lay l) :
    fpPotential fuel closed nint g dt aet ponded precip nFd l = fpPotential fuel closed nint g' dt aet ponded precip nFd l := by
  unfold fpPotential
  rw [h.frozen, h.cum, h.layers]
  refine bind_same fun fd hfd => bind_same fun h0 hh => h.bind (hl fd (derefOpt_mem hfd)) fun s w => bind_same fun ff _ => ?_
  rcases h.soil _ (hl h0 (deref_mem hh)) with ⟨e, h1, h2⟩ | ⟨s2, w2, h1, h2⟩
  · simp only [h1, h2, fpBottomSum_same h]
  · simp only [h1, h2, fpBottomSum_same h]
    rfl

theorem insertWater_same (h : GeoSame g g') {fuel : Nat} {closed : Bool} {nint : Int} {dt aet ponded volin precip pm : α} {nFd : Nat}
    {l : List (Front α)} (hl : Lay l) :
    insertWater fuel closed nint g dt aet ponded volin precip nFd pm l =
      insertWater fuel closed nint g' dt aet ponded volin precip nFd pm l := by
  unfold insertWater fpCapacity maxStorage
  rw [fpPotential_same h hl, maxStorageGo_same h (le_refl 1), h.cum, h.layers]

theorem createFront_same (h : GeoSame g g') {ponded dry th : α} {l : List (Front α)} :
    createFront g ponded dry th l = createFront g' ponded dry th l := by
  unfold createFront
  rw [h.frozen]
  exact h.bind (le_refl 1) fun s w => rfl

theorem createSurficial_same (h : GeoSame g g') {ponded dry th : α} {l : List (Front α)} (hl : Placed l) :
    createSurficial g ponded dry th l = createSurficial g' ponded dry th l := by
  unfold createSurficial
  refine bind_cong (createFront_same h) fun r hr => ?_
  have p1 := hl.createFront hr
  obtain ⟨a, b, l1⟩ := r
  dsimp only
  split
  · rfl
  · split
    · refine bind_cong (mergeFronts_same h p1) fun l2 h2 => ?_
      rw [crossLayer_same h (p1.merge h2).lay]
    · rfl

theorem calcDryDepth_same (h : GeoSame g g') {fuel : Nat} {closed : Bool} {nint : Int} {dt : α} {l : List (Front α)} (hl : Lay l) :
    calcDryDepth fuel closed nint g dt l = calcDryDepth fuel closed nint g' dt l := by
  unfold calcDryDepth
  rw [h.frozen, h.cum]
  exact bind_same fun c hc => h.bind (hl c (deref_mem hc)) fun s w => rfl

theorem dzdtTerm_same (h : GeoSame g g') {layer k : Nat} {psi : α} (hk : k < layer) :
    dzdtTerm g layer psi k = dzdtTerm g' layer psi k := by
  unfold dzdtTerm
  rw [h.frozen, h.cum]
  exact h.bind (by omega) fun s w => rfl

theorem dzdtDenom_same (h : GeoSame g g') {layer : Nat} {psi : α} : ∀ {n k : Nat} {d : α}, k + n ≤ layer →
    dzdtDenom g layer psi n k d = dzdtDenom g' layer psi n k d
  | 0, _, _, _ => rfl
  | n + 1, k, d, hk => by
    unfold dzdtDenom
    exact bind_cong (dzdtTerm_same h (by omega)) fun _ _ => dzdtDenom_same h (by omega)

theorem dzdtVel_same (h : GeoSame g g') {fuel : Nat} {closed : Bool} {nint : Int} {hp ff w : α} {s : SoilProps α} {c n : Front α}
    (hc : 1 ≤ c.layer) :
    dzdtVel fuel closed nint hp g s ff c n = dzdtVel fuel closed nint hp g' { s with thetaWp := w } ff c n := by
  unfold dzdtVel dzdtOne dzdtBottomSum dzdtRaw
  rw [h.cum]
  simp only [dzdtDenom_same h (layer := c.layer) (n := c.layer - 1) (k := 1) (by omega)]

theorem dzdtGo_same (h : GeoSame g g') {fuel : Nat} {closed : Bool} {nint : Int} {hp : α} : ∀ {l : List (Front α)}, Lay l →
    dzdtGo fuel closed nint hp g l = dzdtGo fuel closed nint hp g' l
  | [], _ => rfl
  | c :: t, hl => by
    unfold dzdtGo
    split
    · rfl
    rw [h.frozen]
    refine h.bind (hl c (by simp)) fun s w => bind_same fun ff _ => ?_
    split
    · rfl
    · rw [dzdtGo_same h fun x hx => hl x (List.mem_cons_of_mem _ hx)]
      exact bind_cong (dzdtVel_same h (hl c (by simp))) fun _ _ => rfl

theorem dzdtCalc_same (h : GeoSame g g') {fuel : Nat} {closed : Bool} {nint : Int} {hp : α} {l : List (Front α)} (hl : Lay l) :
    dzdtCalc fuel closed nint hp g l = dzdtCalc fuel closed nint hp g' l := by
  unfold dzdtCalc
  rw [dzdtGo_same h hl]

theorem tmLayers_same (h : GeoSame g g') {psi : α} {dT dK : List α} : ∀ {n k : Nat} {m : α}, 1 ≤ k →
    tmLayers g psi dT dK n k m = tmLayers g' psi dT dK n k m
  | 0, _, _, _ => rfl
  | n + 1, k, m, hk => by
    unfold tmLayers
    exact h.bind hk fun s w => bind_same fun _ _ => bind_same fun _ _ => bind_same fun _ _ => tmLayers_same h (by omega)

theorem tmMass_same (h : GeoSame g g') {layer : Nat} {s : SoilProps α} {w psi : α} {dT dK : List α} :
    tmMass g layer s dT dK psi = tmMass g' layer { s with thetaWp := w } dT dK psi := by
  unfold tmMass
  simp only [tmLayers_same h (le_refl 1)]

theorem tmLoop_same (h : GeoSame g g') {layer : Nat} {s : SoilProps α} {w prior : α} {dT dK : List α} :
    ∀ {fuel : Nat} {st : TmState α}, tmLoop g layer s dT dK prior fuel st = tmLoop g' layer { s with thetaWp := w } dT dK prior fuel st
  | 0, _ => rfl
  | fuel + 1, st => by
    unfold tmLoop
    simp only [← tmMass_same h (w := w), tmLoop_same h (w := w)]

theorem thetaMassBalance_same (h : GeoSame g g') {fuel layer : Nat} {s : SoilProps α} {w psi m prior aet : α} {dT dK : List α} :
    thetaMassBalance fuel g layer s psi m prior aet dT dK =
      thetaMassBalance fuel g' layer { s with thetaWp := w } psi m prior aet dT dK := by
  unfold thetaMassBalance
  simp only [tmLoop_same h (w := w)]

theorem clampTheta_same {s : SoilProps α} {w : α} {t : Option α} : clampTheta { s with thetaWp := w } t = clampTheta s t := by
  cases t <;> rfl

theorem moveLayers_same (h : GeoSame g g') {po p : α} {b : Option (α × α)} : ∀ {n k : Nat} {a : MoveAcc α}, 1 ≤ k →
    moveLayers g po p b n k a = moveLayers g' po p b n k a
  | 0, _, _, _ => rfl
  | n + 1, k, a, hk => by
    unfold moveLayers
    rw [h.cum]
    refine h.bind hk fun s w => bind_same fun _ _ => ?_
    cases b with
    | none =>
      exact bind_same fun _ _ => bind_same fun _ _ => bind_same fun _ _ => bind_same fun _ _ => bind_same fun _ _ =>
        moveLayers_same h (by omega)
    | some b =>
      exact bind_same fun _ _ => bind_same fun _ _ => bind_same fun _ _ => bind_same fun _ _ => bind_same fun _ _ =>
        moveLayers_same h (by omega)

theorem moveDeepest_same (h : GeoSame g g') {fuel : Nat} {dt precip aet w : α} {b : Bool} {c old : Front α} {s : SoilProps α} :
    moveDeepest fuel g dt precip b c old s aet = moveDeepest fuel g' dt precip b c old { s with thetaWp := w } aet := by
  unfold moveDeepest
  simp only [h.cum, moveLayers_same h (le_refl 1), thetaMassBalance_same h (w := w), clampTheta_same, psiOf]

theorem moveInner_same (h : GeoSame g g') {fuel : Nat} {dt precip aet w : α} {b : Bool} {c n old on os : Front α}
    {s : SoilProps α} : moveInner fuel g dt precip b c n old on os s aet =
      moveInner fuel g' dt precip b c n old on os { s with thetaWp := w } aet := by
  unfold moveInner
  simp only [h.cum, moveLayers_same h (le_refl 1), thetaMassBalance_same h (w := w), clampTheta_same]

theorem moveOne_same (h : GeoSame g g') {fuel : Nat} {dt precip aet : α} {nFd n wf : Nat} {prev l : List (Front α)} (hl : Lay l) :
    moveOne fuel g dt precip nFd n wf prev l aet = moveOne fuel g' dt precip nFd n wf prev l aet := by
  unfold moveOne
  simp only [h.cum, h.layers]
  refine bind_same fun col _ => bind_same fun c hc => h.bind (hl c (derefOpt_mem hc)) fun s w => bind_same fun _ _ => ?_
  simp only [moveInner_same h (w := w), moveDeepest_same h (w := w)]
  rfl

theorem mcLoop_same (h : GeoSame g g') {target col : α} {p : Nat} : ∀ {fuel : Nat} {st : McState α},
    mcLoop g target col p fuel st = mcLoop g' target col p fuel st
  | 0, _ => rfl
  | fuel + 1, st => by
    unfold mcLoop
    simp only [h.cum, h.layers, mcLoop_same h]

theorem crossLoop_ne : ∀ {fuel wf cur : Nat} {l l' : List (Front α)}, wf ≠ 0 → crossLoop g fuel wf cur l = .ok l' → l' ≠ []
  | 0, _, _, _, _, _, h => by simp [crossLoop] at h
  | fuel + 1, wf, cur, l, l', hw, h => by
    unfold crossLoop at h
    split at h
    · rename_i e
      simp only [Except.ok.injEq] at h
      subst h
      intro h0
      subst h0
      exact hw (by simpa using e)
    · simp only [bind_ok_iff] at h
      obtain ⟨r, _, h⟩ := h
      exact crossLoop_ne (by omega) h

theorem freeDrainageGo_ge : ∀ {k : Nat} {l : List (Front α)}, k ≤ freeDrainageGo k l ∧ (l ≠ [] → freeDrainageGo k l < k + l.length)
  | k, [] => ⟨le_refl _, fun h => absurd rfl h⟩
  | k, [f] => ⟨le_refl _, fun _ => by simp [freeDrainageGo]⟩
  | k, f :: n :: t => by
    unfold freeDrainageGo
    split
    · exact ⟨le_refl _, fun _ => by simp⟩
    · obtain ⟨h1, h2⟩ := freeDrainageGo_ge (k := k + 1) (l := n :: t)
      have := h2 (by simp)
      simp only [List.length_cons] at this ⊢
      exact ⟨by omega, fun _ => by omega⟩

theorem freeDrainage_ge {l : List (Front α)} (hl : l ≠ []) : 1 ≤ wettingFrontFreeDrainage l := by
  obtain ⟨h1, h2⟩ := freeDrainageGo_ge (k := 1) (l := l)
  have := h2 hl
  unfold wettingFrontFreeDrainage
  dsimp only
  rw [if_neg (by omega)]
  exact h1

theorem moveTop_same (h : GeoSame g g') {old precip aet : α} {l : List (Front α)} (hl : Lay l) :
    moveTop g old precip l aet = moveTop g' old precip l aet := by
  unfold moveTop
  simp only [h.cum, h.layers]
  refine bind_same fun col _ => bind_cong (crossLayer_same h hl) fun l1 h1 => ?_
  refine h.bind (freeDrainage_ge (crossLoop_ne (by omega) h1)) fun s w => ?_
  simp only [mcLoop_same h]

theorem moveOnes_same (h : GeoSame g g') {fuel : Nat} {dt precip : α} {nFd n : Nat} {prev : List (Front α)} :
    ∀ {wf : Nat} {l : List (Front α)} {aet : α}, NumFrom 1 l → n = l.length → wf ≤ n → Lay l →
    moveOnes fuel g dt precip nFd n prev wf l aet = moveOnes fuel g' dt precip nFd n prev wf l aet
  | 0, _, _, _, _, _, _ => rfl
  | wf + 1, l, aet, hn, he, hw, hl => by
    unfold moveOnes
    refine bind_cong (moveOne_same h hl) fun r hr => ?_
    obtain ⟨l1, aet1⟩ := r
    obtain ⟨c, c', hc, hl1, hm⟩ := moveOne_cases hn he (by omega) hw hr
    have ht : l1.map Front.tag = l.map Front.tag := by
      simp only at hl1; rw [hl1]; exact set_tags hc hm.tag_eq
    exact moveOnes_same h (tags_num ht hn) (by have := congrArg List.length ht; simp at this; omega) (by omega)
      (Placed.skel ⟨hn, hl⟩ (tag_skel ht)).lay

theorem moveMain_same (h : GeoSame g g') {fuel : Nat} {dt old precip aet : α} {nFd : Nat} {prev l : List (Front α)} (hl : Placed l) :
    moveMain fuel g dt old precip nFd prev l aet = moveMain fuel g' dt old precip nFd prev l aet := by
  unfold moveMain
  split
  · rfl
  · exact bind_cong (moveOnes_same h hl.num rfl le_rfl hl.lay) fun r hr => moveTop_same h (hl.moveOnes hr).lay

theorem refresh_same (h : GeoSame g g') : ∀ {l : List (Front α)}, Lay l → refresh g l = refresh g' l
  | [], _ => rfl
  | [f], _ => rfl
  | f :: n :: t, hl => by
    unfold refresh refreshOne
    rw [psiKOf_same h (hl f (by simp)), refresh_same h fun x hx => hl x (List.mem_cons_of_mem _ hx)]

theorem movePost_same (h : GeoSame g g') {l : List (Front α)} {aet flux : α} (hl : Placed l) :
    movePost g l aet flux = movePost g' l aet flux := by
  unfold movePost
  refine bind_cong (checkFix_same h hl) fun r1 h1 => bind_cong (mergeFronts_same h (hl.checkFix h1)) fun l2 h2 => ?_
  have p2 := (hl.checkFix h1).merge h2
  refine bind_cong (crossLayer_same h p2.lay) fun l3 h3 => ?_
  have p3 := p2.cross h3
  refine bind_cong (checkFix_same h p3) fun r4 h4 => bind_cong (mergeFronts_same h (p3.checkFix h4)) fun l5 h5 => ?_
  have p5 := (p3.checkFix h4).merge h5
  rw [h.cum, h.layers]
  refine bind_same fun col _ => bind_cong (crossDomain_same h p5.lay) fun r6 h6 => ?_
  have p6 := p5.domain h6
  refine bind_cong (checkFix_same h p6) fun r7 h7 => ?_
  have p7 := p6.checkFix h7
  dsimp only
  rw [refresh_same h p7.lay]
  refine bind_same fun l8 h8 => bind_cong ?_ fun _ _ => rfl
  unfold fixSingle
  rw [h.cum]

theorem moveFronts_same (h : GeoSame g g') {fuel : Nat} {dt precip old aet : α} {nFd : Nat} {prev l : List (Front α)} (hl : Placed l) :
    moveFronts fuel g dt precip nFd old aet prev l = moveFronts fuel g' dt precip nFd old aet prev l := by
  unfold moveFronts
  exact bind_cong (moveMain_same h hl) fun r hr => movePost_same h (hl.moveMain hr)

section Step
variable {c : StepCfg α}

theorem flowCreate_same (h : GeoSame c.geo g') {s : SubSt α} {prev : List (Front α)} {nFd : Nat} {ponded aet : α}
    (hl : Placed s.head) :
    flowCreate c s prev nFd ponded aet = flowCreate { c with geo := g' } s prev nFd ponded aet := by
  unfold flowCreate
  dsimp only
  refine bind_cong (moveFronts_same h hl) fun r hr => ?_
  have p := hl.moveFronts hr
  refine bind_cong (calcDryDepth_same h p.lay) fun d _ => bind_same fun hd _ => bind_cong (createSurficial_same h p) fun _ _ => rfl

theorem flowMove_same (h : GeoSame c.geo g') {s : SubSt α} {prev : List (Front α)} {nFd : Nat} {rate ponded aet : α}
    (hl : Placed s.head) :
    flowMove c s prev nFd rate ponded aet = flowMove { c with geo := g' } s prev nFd rate ponded aet := by
  unfold flowMove
  refine bind_cong ?_ fun r _ => bind_cong (moveFronts_same h hl) fun _ _ => rfl
  unfold surfaceFlow
  dsimp only
  rw [insertWater_same h hl.lay]

theorem subStep_twin (h : GeoSame c.geo g') {s : SubSt α} {m : α} (hl : Placed s.head) :
    subStep c s = subStep { c with geo := g' } { s with localMb := m } := by
  unfold subStep
  dsimp only
  refine bind_cong ?_ fun aet _ => ?_
  · unfold aetDemand
    dsimp only
    rw [calcAet_same h hl.lay]
  rw [← h.cum]
  refine bind_same fun vs _ => bind_same fun h0 hh => h.bind (hl.lay h0 (deref_mem hh)) fun hs w => ?_
  refine bind_cong ?_ fun f hf => ?_
  · unfold subFlow
    dsimp only
    rw [flowCreate_same h hl, flowMove_same h hl]
    rfl
  · have pf := hl.subFlow hf
    rw [dzdtCalc_same h pf.lay]

theorem subLoop_twin (h : GeoSame c.geo g') : ∀ {n : Nat} {s : SubSt α}, Placed s.head →
    subLoop c n s = subLoop { c with geo := g' } n s
  | 0, _, _ => rfl
  | n + 1, s, hl => by
    unfold subLoop
    refine bind_cong (subStep_twin h (m := s.localMb) hl) fun s' hs' => ?_
    rw [subLoop_twin h (hl.subStep hs')]

theorem subLoop_fresh (h : GeoSame c.geo g') {n : Nat} {s : SubSt α} {m : α} (hl : Placed s.head) :
    subLoop c (n + 1) s = subLoop { c with geo := g' } (n + 1) { s with localMb := m } := by
  unfold subLoop
  refine bind_cong (subStep_twin h (m := m) hl) fun s' hs' => ?_
  rw [subLoop_twin h (hl.subStep hs')]

end Step

theorem Both.bind {β γ : Type} {R : β → β → Prop} {Q : γ → γ → Prop} {x y : Res β} {F F' : β → Res γ} (hx : Both R x y)
    (hf : ∀ a b, x = .ok a → y = .ok b → R a b → Both Q (F a) (F' b)) : Both Q (x >>= F) (y >>= F') := by
  cases x with
  | error e => cases y with
    | error e' => exact hx
    | ok b => exact hx.elim
  | ok a => cases y with
    | error e' => exact hx.elim
    | ok b => exact hf a b rfl rfl hx

theorem Both.refl {β : Type} {R : β → β → Prop} {x : Res β} (h : ∀ a, x = .ok a → R a a) : Both R x x := by
  cases x with
  | error e => rfl
  | ok a => exact h a rfl

theorem SoilsSame.geo {n : Int} {S : List (SoilProps α)} (h : SoilsSame n g.soils S)
    (ht : ∀ k t, 1 ≤ k → g.soilType[k]? = some t → 1 ≤ t ∧ t ≤ n) : GeoSame g { g with soils := S } := by
  refine ⟨rfl, rfl, fun k hk => ?_, rfl, fun k hk => ?_⟩
  · cases e : idx g.soilType k with
    | error er => exact .inl ⟨er, rfl, rfl⟩
    | ok t => exact .inr ⟨t, t, rfl, rfl⟩
  unfold Geo.soil
  dsimp only
  cases e : idx g.soilType k with
  | error er => exact .inl ⟨er, rfl, rfl⟩
  | ok t =>
    rw [idx_ok_iff] at e
    obtain ⟨t1, t2⟩ := ht k t hk e
    simp only [ok_bind]
    have h0 : ¬ t < 0 := by omega
    unfold idxI
    rw [if_neg h0, if_neg h0]
    cases e2 : g.soils[t.toNat]? with
    | none =>
      refine .inl ⟨.ub "array index out of range", by unfold idx; rw [e2], ?_⟩
      have : S[t.toNat]? = none := by
        rw [List.getElem?_eq_none_iff] at e2 ⊢
        rw [h.len]; exact e2
      unfold idx; rw [this]
    | some x =>
      obtain ⟨x', g1, w, rfl⟩ := h.get t.toNat (by omega) (by omega) x e2
      exact .inr ⟨x, w, by unfold idx; rw [e2], by unfold idx; rw [g1]⟩

theorem SoilsSame.set {n : Int} {S S' : List (SoilProps α)} (h : SoilsSame n S S') {t : Nat} {x x' : SoilProps α}
    (hx : SoilSame x x') : SoilsSame n (S.set t x) (S'.set t x') := by
  refine ⟨by simp [h.len], fun k h1 h2 y hy => ?_⟩
  by_cases e : t = k
  · subst e
    rw [List.getElem?_set_self'] at hy ⊢
    have hlt : t < S.length := by
      by_contra hc
      rw [List.getElem?_eq_none (by omega)] at hy
      simp at hy
    rw [List.getElem?_eq_getElem hlt] at hy
    rw [List.getElem?_eq_getElem (by rw [h.len]; exact hlt)]
    simp only [Option.map_eq_map, Option.map_some, Function.const_apply, Option.some.injEq] at hy ⊢
    subst hy
    exact ⟨x', rfl, hx⟩
  · rw [List.getElem?_set_ne e] at hy ⊢
    exact h.get k h1 h2 y hy

theorem calibFront_same {n : Int} {st : List Int} {cal : Calib α} {S S' : List (SoilProps α)} {f : Front α} (h : SoilsSame n S S')
    (ht : ∀ k t, 1 ≤ k → st[k]? = some t → 1 ≤ t ∧ t ≤ n) (hf : 1 ≤ f.layer) :
    Both (fun a b => SoilsSame n a.1 b.1 ∧ b.2 = a.2) (calibFront st cal S f) (calibFront st cal S' f) := by
  unfold calibFront
  refine Both.bind (Both.refl (R := fun a b => b = a) fun _ _ => rfl) fun t t' et _ e => ?_
  cases e
  rw [idx_ok_iff] at et
  obtain ⟨t1, t2⟩ := ht _ _ hf et
  have h0 : ¬ t < 0 := by omega
  unfold idxI
  rw [if_neg h0, if_neg h0]
  refine Both.bind (R := SoilSame) ?_ fun s s' _ _ hs => ?_
  · cases e2 : S[t.toNat]? with
    | none =>
      have : S'[t.toNat]? = none := by
        rw [List.getElem?_eq_none_iff] at e2 ⊢
        rw [h.len]; exact e2
      unfold idx; rw [e2, this]; rfl
    | some x =>
      obtain ⟨x', g1, hx⟩ := h.get t.toNat (by omega) (by omega) x e2
      unfold idx; rw [e2, g1]; exact hx
  · obtain ⟨w, rfl⟩ := hs
    dsimp only
    iterate 7
      refine Both.bind (Both.refl (R := fun a b => b = a) fun _ _ => rfl) fun _ _ _ _ e => ?_
      subst e
    exact ⟨h.set ⟨w, rfl⟩, rfl⟩

theorem calibLoop_same {n : Int} {st : List Int} {cal : Calib α} (ht : ∀ k t, 1 ≤ k → st[k]? = some t → 1 ≤ t ∧ t ≤ n) :
    ∀ {i : Nat} {S S' : List (SoilProps α)} {l : List (Front α)}, SoilsSame n S S' → Lay l →
    Both (fun a b => SoilsSame n a.1 b.1 ∧ b.2 = a.2) (calibLoop st cal i S l) (calibLoop st cal i S' l)
  | 0, S, S', l, h, _ => ⟨h, rfl⟩
  | i + 1, S, S', [], h, _ => rfl
  | i + 1, S, S', f :: t, h, hl => by
    unfold calibLoop
    refine Both.bind (calibFront_same h ht (hl f (by simp))) fun a b _ _ hab => ?_
    obtain ⟨S1, f1⟩ := a
    obtain ⟨S1', f1'⟩ := b
    obtain ⟨hs, rfl⟩ := hab
    refine Both.bind (calibLoop_same ht hs fun x hx => hl x (List.mem_cons_of_mem _ hx)) fun a b _ _ hab => ?_
    obtain ⟨S2, t2⟩ := a
    obtain ⟨S2', t2'⟩ := b
    obtain ⟨hs2, rfl⟩ := hab
    exact ⟨hs2, rfl⟩

section Upd
variable {n : Int} {fresh : Prop} {s s' : State α}

theorem SoilsSame.symm_get {S S' : List (SoilProps α)} (h : SoilsSame n S S') : SoilsSame n S' S := by
  refine ⟨h.len.symm, fun t h1 h2 x hx => ?_⟩
  have hlt : t < S.length := by
    rw [← h.len]
    by_contra hc
    rw [List.getElem?_eq_none (by omega)] at hx
    simp at hx
  obtain ⟨x', g1, w, rfl⟩ := h.get t h1 h2 _ (List.getElem?_eq_getElem hlt)
  rw [hx] at g1
  obtain rfl := Option.some.inj g1
  exact ⟨_, List.getElem?_eq_getElem hlt, _, rfl⟩

theorem Twin.applyFrozen (h : Twin n fresh s s') :
    Both (fun a b => Twin n True a b ∧ (∃ fs, a.p = { s.p with frozen := fs }) ∧ a.head = s.head) (applyFrozen s) (applyFrozen s') := by
  unfold LGAR.applyFrozen
  rw [h.p]
  split
  · refine Both.bind (Both.refl (R := fun a b => b = a) fun _ _ => rfl) fun fs fs' _ _ e => ?_
    cases e
    refine ⟨?_, ⟨fs, rfl⟩, rfl⟩
    exact { h with p := by simp only [h.p], filled := fun hf => absurd trivial hf }
  · exact ⟨{ h with filled := fun hf => absurd trivial hf }, ⟨s.p.frozen, rfl⟩, rfl⟩

theorem Twin.applyCalib (h : Twin n True s s') (ht : TypesIn n s) (hl : Placed s.head) :
    Both (fun a b => Twin n True a.1 b.1 ∧ b.2 = a.2 ∧ a.1.p.layerSoilType = s.p.layerSoilType ∧ Placed a.1.head)
      (applyCalib s) (applyCalib s') := by
  unfold LGAR.applyCalib
  rw [h.p]
  split
  · refine Both.bind (R := fun a b => Twin n True a.1 b.1 ∧ b.2 = a.2 ∧ a.1.p.layerSoilType = s.p.layerSoilType ∧ Placed a.1.head) ?_ ?_
    · unfold updateCalib
      rw [h.p, h.head, h.calib]
      refine Both.bind (Both.refl (R := fun a b => b = a) fun _ _ => rfl) fun v v' _ _ e => ?_
      cases e
      refine Both.bind (calibLoop_same ht h.soils hl.lay) fun a b ha hb hab => ?_
      obtain ⟨S, l⟩ := a
      obtain ⟨S', l'⟩ := b
      obtain ⟨hs, rfl⟩ := hab
      refine Both.bind (Both.refl (R := fun a b => b = a) fun _ _ => rfl) fun v v' _ _ e => ?_
      cases e
      refine ⟨?_, rfl, rfl, ?_⟩
      · exact { h with head := rfl, calib := rfl, soils := hs, p := rfl }
      · have e := congrArg (List.map (fun x : α × α × α × Nat × Int × Bool × α =>
          (x.2.2.2.1, x.2.2.2.2.1, x.2.2.2.2.2.1, x.2.2.2.2.2.2))) (calibLoop_frame ha).1
        rw [List.map_map, List.map_map] at e
        exact hl.skel e
    · rintro ⟨a, d⟩ ⟨b, d'⟩ _ _ ⟨h1, rfl, h2, h3⟩
      dsimp only at h1 h2 h3
      exact ⟨{ h1 with p := by simp only [h1.p] }, rfl, h2, h3⟩
  · exact ⟨h, rfl, rfl, hl⟩

theorem Twin.updatePre (h : Twin n fresh s s') (ht : TypesIn n s) (hl : Placed s.head) :
    Both (fun a b => Twin n True a.1 b.1 ∧ b.2 = a.2 ∧ TypesIn n a.1 ∧ Placed a.1.head) (updatePre s) (updatePre s') := by
  unfold LGAR.updatePre
  refine Both.bind h.applyFrozen fun a b _ _ hab => ?_
  obtain ⟨h1, ⟨fs, e⟩, e2⟩ := hab
  have ht1 : TypesIn n a := by unfold TypesIn; rw [e]; exact ht
  refine Both.bind (h1.applyCalib ht1 (e2 ▸ hl)) fun a1 b1 _ _ hab => ?_
  obtain ⟨a1, d⟩ := a1
  obtain ⟨b1, d'⟩ := b1
  obtain ⟨h2, rfl, e3, p1⟩ := hab
  dsimp only at h2 e3 p1 ⊢
  rw [h2.precip, h2.pet, h2.p, h2.onT]
  refine Both.bind (Both.refl (R := fun a b => b = a) fun _ _ => rfl) fun _ _ _ _ _ => ?_
  refine Both.bind (Both.refl (R := fun a b => b = a) fun _ _ => rfl) fun _ _ _ _ _ => ?_
  refine Both.bind (Both.refl (R := fun a b => b = a) fun _ _ => rfl) fun q q' _ _ e => ?_
  cases e
  refine ⟨{ h2 with p := rfl, precip := rfl, pet := rfl, filled := fun hf => absurd trivial hf }, rfl, ?_, p1⟩
  unfold TypesIn
  dsimp only
  rw [e3]; exact ht1

theorem Twin.updatePost (h : Twin n True s s') {d : α} {u : SubSt α} {m : α} (hm : 0 < s.p.forcingInterval → m = u.localMb) :
    Both (Twin n False) (updatePost s d u) (updatePost s' d { u with localMb := m }) := by
  unfold LGAR.updatePost
  rw [h.numGiuh, h.giuhOrd, h.giuhQueue]
  refine Both.bind (Both.refl (R := fun a b => b = a) fun _ _ => rfl) fun q q' _ _ e => ?_
  cases e
  exact { head := rfl, prev := rfl, p := by simp only [h.p], precip := rfl, pet := rfl, calib := h.calib, numGiuh := rfl,
          giuhOrd := rfl, giuhQueue := rfl, soils := h.soils, onT := rfl, QgwT := rfl, start := h.start, last := rfl,
          precipTot := by simp only [h.precipTot], inTot := by simp only [h.inTot], on := rfl,
          runoffTot := by simp only [h.runoffTot], aetTot := by simp only [h.aetTot], petTot := by simp only [h.petTot],
          rechTot := by simp only [h.rechTot], giuhTot := by simp only [h.giuhTot], QTot := by simp only [h.QTot],
          calibTot := by simp only [h.calibTot],
          filled := fun _ => ⟨rfl, by simp only [h.start, h.precipTot, h.inTot, h.runoffTot, h.aetTot, h.petTot, h.rechTot, h.giuhTot, h.QTot, h.calibTot],
            fun hf => by simp only [hm hf, and_self]⟩ }

theorem Twin.update (h : Twin n fresh s s') (ht : TypesIn n s) (hl : Placed s.head) (hv : s.p.invalidSoil = false) {fuel : Nat}
    {sa : Bool} : Both (Twin n False) (update fuel sa s) (update fuel sa s') := by
  unfold LGAR.update
  rw [h.p, hv, if_neg Bool.false_ne_true, if_neg Bool.false_ne_true]
  refine Both.bind (h.updatePre ht hl) fun a b _ _ hab => ?_
  obtain ⟨a, d⟩ := a
  obtain ⟨b, d'⟩ := b
  obtain ⟨h1, rfl, ht1, p1⟩ := hab
  dsimp only at h1 ht1 p1 ⊢
  rw [h1.p, h1.head]
  refine Both.bind (Both.refl (R := fun a b => b = a) fun _ _ => rfl) fun v v' _ _ e => ?_
  cases e
  have eg : stepCfg fuel sa b = { stepCfg fuel sa a with geo := { a.geo with soils := b.soils } } := by
    unfold stepCfg State.geo
    simp only [h1.p]
  have gs : GeoSame (stepCfg fuel sa a).geo { a.geo with soils := b.soils } := SoilsSame.geo h1.soils ht1
  have ei : subInit b v = { subInit a v with localMb := b.mb.localMb } := by
    unfold subInit
    simp only [h1.p, h1.head, h1.prev, h1.precip, h1.pet, h1.onT]
  rw [eg, ei]
  cases k : a.p.forcingInterval.toNat with
  | zero =>
    refine h1.updatePost (u := subInit a v) fun hf => by omega
  | succ k =>
    rw [← subLoop_fresh gs (s := subInit a v) p1]
    refine Both.bind (Both.refl (R := fun a b => b = a) fun _ _ => rfl) fun u u' _ _ e => ?_
    cases e
    exact h1.updatePost (u := u) (m := u.localMb) fun _ => rfl

theorem Twin.set (h : Twin n fresh s s') (x : Drive α) : Twin n True (x.set s) (x.set s') :=
  { h with precip := rfl, pet := rfl, calib := rfl, p := by unfold Drive.set; simp only [h.p], filled := fun hf => absurd trivial hf }

theorem Twin.drives {fuel : Nat} {sa : Bool} : ∀ {xs : List (Drive α)} {fresh : Prop} {s s' : State α}, Twin n fresh s s' →
    TypesIn n s → Placed s.head → s.p.invalidSoil = false →
    Both (Twin n (fresh ∧ xs = [])) (drives fuel sa xs s) (drives fuel sa xs s')
  | [], fresh, s, s', h, _, _, _ => by simpa [Both, LGAR.drives] using h
  | x :: xs, fresh, s, s', h, ht, hl, hv => by
    unfold LGAR.drives
    refine Both.bind ((h.set x).update ht hl hv) fun a b ha hb hab => ?_
    obtain ⟨_, _, e1, e2, _⟩ := update_fixed ha
    have ht1 : TypesIn n a := by unfold TypesIn; rw [e1]; exact ht
    have := Twin.drives (fuel := fuel) (sa := sa) (xs := xs) hab ht1 (Placed.update (s := x.set s) hl ha) (e2.trans hv)
    simpa using this

end Upd

section Start
variable {env env' : Env α}

theorem cstod_same (h : env.SameFiles env') : cstod env' = cstod env := by
  funext v; unfold cstod; rw [h.stod]

theorem readVecLoop_same (h : env.SameFiles env') : ∀ (fuel : Nat) (z : List Char), readVecLoop env' fuel z = readVecLoop env fuel z
  | 0, _ => rfl
  | fuel + 1, z => by
    unfold readVecLoop
    simp only [cstod_same h, readVecLoop_same h fuel]

theorem readConfig_same (h : env.SameFiles env') : ∀ {c : Cfg α} {lines : List (List Char)},
    readConfig env' c lines = readConfig env c lines
  | _, [] => rfl
  | c, line :: rest => by
    unfold readConfig
    have e : configLine env' c line = configLine env c line := by
      unfold configLine
      split
      · rfl
      · rename_i k _
        cases k <;> simp only [applyKey, readVector, setNumTypes, setEndtime, cstod_same h, readVecLoop_same h, h.stoi]
    rw [e]
    exact bind_same fun c' _ => readConfig_same h

theorem soilOfRec_same {wp wp' : α} {old old' : SoilProps α} {r : SoilRec α} (hr : 1 < r.n) :
    Both SoilSame (soilOfRec wp old r) (soilOfRec wp' old' r) := by
  unfold soilOfRec
  split
  · rfl
  split
  · rfl
  split
  · rfl
  iterate 5
    refine Both.bind (Both.refl (R := fun a b => b = a) fun _ _ => rfl) fun _ _ _ _ e => ?_
    cases e
  refine Both.bind (Both.refl (R := fun a b => b = a) fun _ _ => rfl) fun _ _ _ _ e => ?_
  simp only [ok_bind]
  iterate 2
    refine Both.bind (Both.refl (R := fun a b => b = a) fun _ _ => rfl) fun _ _ _ _ e => ?_
    cases e
  exact ⟨wp', rfl⟩

theorem SoilsSame.mono {n m : Int} {S S' : List (SoilProps α)} (h : SoilsSame n S S') (hm : m ≤ n) : SoilsSame m S S' :=
  ⟨h.len, fun t h1 h2 => h.get t h1 (h2.trans hm)⟩

theorem readSoilsGo_same {scanF : List Char → Option (α × List Char)} {wp wp' : α} {numTypes : Int} :
    ∀ {lines : List (List Char)} {soil : Nat} {r r' : SoilRec α} {S S' : List (SoilProps α)},
    (soil : Int) ≤ numTypes → (∀ line ∈ lines.take (numTypes - soil).toNat, FullLine scanF line) → SoilsSame soil S S' →
    S.length = (numTypes + 1).toNat →
    Both (fun a b => b.2 = a.2 ∧ SoilsSame a.2 a.1 b.1 ∧ min numTypes (soil + lines.length) ≤ a.2)
      (readSoilsGo scanF wp numTypes lines (soil + 1) soil r S) (readSoilsGo scanF wp' numTypes lines (soil + 1) soil r' S')
  | [], soil, r, r', S, S', _, _, hs, _ => ⟨rfl, hs, by simp⟩
  | line :: rest, soil, r, r', S, S', h1, hf, hs, hlen => by
    unfold readSoilsGo
    by_cases e : (soil : Int) = numTypes
    · have l1 : S[soil + 1]? = none := List.getElem?_eq_none (by omega)
      have l2 : S'[soil + 1]? = none := List.getElem?_eq_none (by rw [hs.len]; omega)
      simp only [idx, l1, l2, error_bind]
      rfl
    obtain ⟨k, hk⟩ : ∃ k, (numTypes - soil).toNat = k + 1 := ⟨(numTypes - soil).toNat - 1, by omega⟩
    rw [hk, List.take_succ_cons] at hf
    obtain ⟨r1, hn, hr⟩ := hf line (by simp)
    simp only [hr]
    have l1 : soil + 1 < S.length := by omega
    have l2 : soil + 1 < S'.length := by rw [hs.len]; omega
    refine Both.bind (R := fun _ _ => True) ?_ fun old old' _ _ _ => ?_
    · simp only [idx, List.getElem?_eq_getElem l1, List.getElem?_eq_getElem l2]; trivial
    refine Both.bind (soilOfRec_same hn) fun x x' _ _ hx => ?_
    simp only [setIdx, if_pos l1, if_pos l2, ok_bind]
    have hs' : SoilsSame ((soil + 1 : Nat) : Int) (S.set (soil + 1) x) (S'.set (soil + 1) x') := by
      refine ⟨by simp [hs.len], fun t g1 g2 y hy => ?_⟩
      by_cases et : soil + 1 = t
      · subst et
        rw [List.getElem?_set_self l1] at hy
        rw [List.getElem?_set_self l2]
        obtain rfl := Option.some.inj hy
        exact ⟨x', rfl, hx⟩
      · rw [List.getElem?_set_ne et] at hy ⊢
        exact hs.get t g1 (by omega) y hy
    split
    · rename_i e2
      refine ⟨rfl, ?_, ?_⟩
      · exact_mod_cast hs'
      · dsimp only; omega
    · rename_i e2
      have := readSoilsGo_same (scanF := scanF) (wp := wp) (wp' := wp') (numTypes := numTypes) (lines := rest) (soil := soil + 1) (r := r1) (r' := r1)
        (by push_cast; omega) (fun l hl => hf l (List.mem_cons_of_mem _ (by
          rw [show (numTypes - ((soil + 1 : Nat) : Int)).toNat = k by omega] at hl; exact hl))) hs' (by simpa using hlen)
      simp only [List.length_cons, Nat.cast_add, Nat.cast_one] at this ⊢
      rw [show (soil : Int) + (rest.length + 1) = soil + 1 + rest.length by ring]
      exact this

theorem calibInit_same {g g' : Geo α} (h : GeoSame g g') : ∀ {n k : Nat}, 1 ≤ k →
    Both (fun a b => List.Forall₂ SoilSame a b) (calibInit g n k) (calibInit g' n k)
  | 0, _, _ => List.Forall₂.nil
  | n + 1, k, hk => by
    unfold calibInit
    refine Both.bind (R := SoilSame) ?_ fun x x' _ _ hx => Both.bind (calibInit_same h (by omega)) fun a b _ _ hab => .cons hx hab
    rcases h.soil k hk with ⟨e, h1, h2⟩ | ⟨x, w, h1, h2⟩
    · rw [h1, h2]; rfl
    · rw [h1, h2]; exact ⟨w, rfl⟩

theorem initFronts_same {g g' : Geo α} (h : GeoSame g g') {psi : α} : ∀ {n k : Nat} {l : List (Front α)}, 1 ≤ k →
    initFrontsGo g psi n k l = initFrontsGo g' psi n k l
  | 0, _, _, _ => rfl
  | n + 1, k, l, hk => by
    unfold initFrontsGo
    rw [h.cum, h.frozen]
    refine h.bind hk fun s w => ?_
    dsimp only
    refine bind_same fun th _ => bind_same fun c _ => bind_same fun r _ => bind_same fun f _ => bind_same fun se _ => bind_same fun ff _ =>
      bind_same fun K _ => initFronts_same h (by omega)

theorem Forall₂.map_same {β : Type} {F : SoilProps α → β} (hF : ∀ x x', SoilSame x x' → F x' = F x) : ∀ {a b : List (SoilProps α)},
    List.Forall₂ SoilSame a b → b.map F = a.map F
  | _, _, .nil => rfl
  | _, _, .cons h t => by simp only [List.map_cons, hF _ _ h, Forall₂.map_same hF t]

theorem invalidTypes_in {types : List Int} {numTypes : Int} (h : ∀ k t, 1 ≤ k → types[k]? = some t → t ≤ numTypes) {b : Bool} :
    ∀ {n k : Nat}, 1 ≤ k → invalidTypes types numTypes n k = .ok b → b = false
  | 0, _, _, h1 => by simp [invalidTypes] at h1; exact h1
  | n + 1, k, hk, h1 => by
    unfold invalidTypes at h1
    obtain ⟨t, ht, h1⟩ := bind_ok_iff.mp h1
    rw [idx_ok_iff] at ht
    rw [if_neg (not_lt.mpr (h k t hk ht))] at h1
    exact invalidTypes_in h (by omega) h1

theorem lgarInit_same (h : env.SameFiles env') {c : Cfg α} (hf : SoilFileFull env c) :
    Both (fun s s' => ∃ n, Twin n True s s' ∧ TypesIn n s ∧ s.p.invalidSoil = false) (lgarInit env c) (lgarInit env' c) := by
  unfold lgarInit
  dsimp only
  rw [h.files, h.scanF]
  refine Both.bind (Both.refl (R := fun a b => b = a) fun _ _ => rfl) fun ts _ hts _ e => ?_
  cases e
  refine Both.bind (Both.refl (R := fun a b => b = a) fun _ _ => rfl) fun file _ hfile _ e => ?_
  cases e
  refine Both.bind (Both.refl (R := fun a b => b = a) fun _ _ => rfl) fun _ _ hn _ e => ?_
  cases e
  refine Both.bind (Both.refl (R := fun a b => b = a) fun _ _ => rfl) fun lines _ hlines _ e => ?_
  cases e
  have hn0 : ¬ c.numTypes.getD 15 + 1 < 0 := by
    intro hc
    rw [if_pos hc] at hn
    simp [need] at hn
  have hts' : c.soilType = some ts := by
    cases hc : c.soilType with
    | none => rw [hc] at hts; simp [need] at hts
    | some x => rw [hc] at hts; simp [need] at hts; rw [hts]
  have hfile' : c.soilFile = some file := by
    cases hc : c.soilFile with
    | none => rw [hc] at hfile; simp [need] at hfile
    | some x => rw [hc] at hfile; simp [need] at hfile; rw [hfile]
  have hlines' : env.files file = some lines := by
    cases hc : env.files file with
    | none => rw [hc] at hlines; simp [need] at hlines
    | some x => rw [hc] at hlines; simp [need] at hlines; rw [hlines]
  obtain ⟨hfull, hty⟩ := hf ts file lines hts' hfile' hlines'
  have hty' : ∀ k t, 1 ≤ k → (typeArray ts)[k]? = some t → 1 ≤ t ∧ t ≤ c.numTypes.getD 15 ∧ t < lines.length := by
    intro k t hk ht
    obtain ⟨j, rfl⟩ : ∃ j, k = j + 1 := ⟨k - 1, by omega⟩
    exact hty t (List.mem_of_getElem? ht)
  refine Both.bind (R := fun a b => SoilsSame (min (c.numTypes.getD 15) (lines.length - 1)) a.1 b.1) ?_ fun a b _ _ hab => ?_
  · unfold readSoils
    by_cases h0 : (0 : Int) ≤ c.numTypes.getD 15
    · have key := readSoilsGo_same (scanF := env.scanF) (wp := env.junk) (wp' := env'.junk) (numTypes := c.numTypes.getD 15)
        (lines := lines.drop 1) (soil := 0) (r := env.junkRec) (r' := env'.junkRec)
        (S := List.replicate (c.numTypes.getD 15 + 1).toNat env.junkSoil) (S' := List.replicate (c.numTypes.getD 15 + 1).toNat env'.junkSoil)
        (by simpa using h0) (by simpa using hfull) ⟨by simp, fun t h1 h2 => by omega⟩ (by simp)
      simp only [Nat.cast_zero] at key
      revert key
      generalize readSoilsGo env.scanF env.junk (c.numTypes.getD 15) (lines.drop 1) (0 + 1) 0 env.junkRec
        (List.replicate (c.numTypes.getD 15 + 1).toNat env.junkSoil) = x
      generalize readSoilsGo env.scanF env'.junk (c.numTypes.getD 15) (lines.drop 1) (0 + 1) 0 env'.junkRec
        (List.replicate (c.numTypes.getD 15 + 1).toNat env'.junkSoil) = y
      intro key
      cases x with
      | error e => cases y with
        | error e' => exact key
        | ok b => exact key.elim
      | ok a => cases y with
        | error e' => exact key.elim
        | ok b =>
          refine SoilsSame.mono key.2.1 (le_trans ?_ key.2.2)
          simp only [List.length_drop]
          omega
    · have e : (c.numTypes.getD 15 + 1).toNat = 0 := by omega
      rw [e]
      cases lines.drop 1 with
      | nil => exact ⟨rfl, fun t h1 h2 x hx => by simp at hx⟩
      | cons l r => rfl
  obtain ⟨S, cnt⟩ := a
  obtain ⟨S', cnt'⟩ := b
  dsimp only at hab ⊢
  refine Both.bind (Both.refl (R := fun a b => b = a) fun _ _ => rfl) fun thick _ hthick _ e => ?_
  cases e
  refine Both.bind (Both.refl (R := fun a b => b = a) fun _ _ => rfl) fun invalid _ hinv _ e => ?_
  cases e
  iterate 12
    refine Both.bind (Both.refl (R := fun a b => b = a) fun _ _ => rfl) fun _ _ _ _ e => ?_
    cases e
  have ht1 : ∀ k t, 1 ≤ k → (typeArray ts)[k]? = some t → 1 ≤ t ∧ t ≤ min (c.numTypes.getD 15) (lines.length - 1) := by
    intro k t hk ht
    obtain ⟨h1, h2, h3⟩ := hty' k t hk ht
    exact ⟨h1, le_min h2 (by omega)⟩
  have gs : GeoSame { numLayers := thick.length, cum := cumThickness thick, soilType := typeArray ts, frozen := List.replicate (thick.length + 1) 1, soils := S }
      { numLayers := thick.length, cum := cumThickness thick, soilType := typeArray ts, frozen := List.replicate (thick.length + 1) 1, soils := S' } :=
    SoilsSame.geo (g := { numLayers := thick.length, cum := cumThickness thick, soilType := typeArray ts, frozen := List.replicate (thick.length + 1) 1, soils := S }) hab ht1
  unfold initFronts
  rw [← initFronts_same gs le_rfl]
  iterate 2
    refine Both.bind (Both.refl (R := fun a b => b = a) fun _ _ => rfl) fun _ _ _ _ e => ?_
    cases e
  refine Both.bind (Both.refl (R := fun a b => b = a) fun _ _ => rfl) fun _ _ _ _ _ => ?_
  refine Both.bind (calibInit_same gs le_rfl) fun cs cs' _ _ hcs => ?_
  refine ⟨_, ?_, ht1, invalidTypes_in (fun k t hk ht => (hty' k t hk ht).2.1) le_rfl hinv⟩
  exact { head := rfl, prev := rfl, p := rfl, precip := rfl, pet := rfl,
          calib := by
            simp only [Calib.mk.injEq]
            exact ⟨Forall₂.map_same (by rintro x _ ⟨w, rfl⟩; rfl) hcs, Forall₂.map_same (by rintro x _ ⟨w, rfl⟩; rfl) hcs,
              Forall₂.map_same (by rintro x _ ⟨w, rfl⟩; rfl) hcs, Forall₂.map_same (by rintro x _ ⟨w, rfl⟩; rfl) hcs,
              Forall₂.map_same (by rintro x _ ⟨w, rfl⟩; rfl) hcs, trivial, trivial⟩,
          numGiuh := rfl, giuhOrd := rfl, giuhQueue := rfl, soils := hab, onT := rfl, QgwT := rfl, start := rfl, last := rfl, precipTot := rfl,
          inTot := rfl, on := rfl, runoffTot := rfl, aetTot := rfl, petTot := rfl, rechTot := rfl, giuhTot := rfl, QTot := rfl,
          calibTot := rfl, filled := fun hf => absurd trivial hf }

theorem bmiInitialize_same (h : env.SameFiles env') {lines : List (List Char)}
    (hf : ∀ c, readConfig env {} lines = .ok c → SoilFileFull env c) :
    Both (fun s s' => ∃ n, Twin n True s s' ∧ TypesIn n s ∧ s.p.invalidSoil = false) (bmiInitialize env lines) (bmiInitialize env' lines) := by
  unfold bmiInitialize
  rw [readConfig_same h]
  refine Both.bind (Both.refl (R := fun a b => b = a) fun _ _ => rfl) fun c _ hc _ e => ?_
  cases e
  exact lgarInit_same h (hf c hc)

end Start

end Free
end LGAR
