import Verif.Spec.Renum
import Verif.Lemmas.Twin
import Verif.Lemmas.Init
/-
Objects that differ only in the numbers of their soils stay so.
-/
namespace LGAR

section Free
variable {α : Type} [Add α] [Sub α] [Mul α] [Div α] [Neg α] [Zero α] [One α] [OfScientific α]
  [LT α] [LE α] [DecidableLT α] [DecidableLE α] [BEq α] [CMath α]
variable {ps : List (Int × Int)} {fresh : Prop} {s s' : State α}

/-- The two soil numbers of a layer. -/
theorem typeArray_pair {k : Nat} (hk : 1 ≤ k) :
    (idx (typeArray (ps.map Prod.fst)) k = .error (.ub "array index out of range") ∧
      idx (typeArray (ps.map Prod.snd)) k = .error (.ub "array index out of range")) ∨
    ∃ p ∈ ps, idx (typeArray (ps.map Prod.fst)) k = .ok p.1 ∧ idx (typeArray (ps.map Prod.snd)) k = .ok p.2 := by
  obtain ⟨j, rfl⟩ : ∃ j, k = j + 1 := ⟨k - 1, by omega⟩
  unfold idx typeArray
  simp only [List.getElem?_cons_succ, List.getElem?_map]
  cases e : ps[j]? with
  | none => exact .inl ⟨rfl, rfl⟩
  | some p => exact .inr ⟨p, List.mem_of_getElem? e, rfl, rfl⟩

theorem idxI_of {S : List (SoilProps α)} {t : Int} {x : SoilProps α} (h0 : 0 ≤ t) (h : S[t.toNat]? = some x) : idxI S t = .ok x := by
  unfold idxI
  rw [if_neg (by omega), idx_ok_iff]; exact h

theorem SoilsVia.geo {S S' : List (SoilProps α)} (h : SoilsVia ps S S') {N : Nat} {cum fr : List α} :
    GeoSame { numLayers := N, cum := cum, soilType := typeArray (ps.map Prod.fst), frozen := fr, soils := S }
      { numLayers := N, cum := cum, soilType := typeArray (ps.map Prod.snd), frozen := fr, soils := S' } := by
  refine ⟨rfl, rfl, fun k hk => ?_, rfl, fun k hk => ?_⟩
  · rcases typeArray_pair (ps := ps) hk with ⟨h1, h2⟩ | ⟨p, _, h1, h2⟩
    · exact .inl ⟨_, h1, h2⟩
    · exact .inr ⟨_, _, h1, h2⟩
  · unfold Geo.soil
    dsimp only
    rcases typeArray_pair (ps := ps) hk with ⟨h1, h2⟩ | ⟨p, hp, h1, h2⟩
    · rw [h1, h2]; exact .inl ⟨_, rfl, rfl⟩
    · obtain ⟨t0, t1, x, _, g1, g2, w, rfl⟩ := h p hp
      rw [h1, h2]
      exact .inr ⟨x, w, idxI_of t0 g1, idxI_of t1 g2⟩

theorem SoilsVia.set {S S' : List (SoilProps α)} (hi : SameSharing ps) (h : SoilsVia ps S S') {p : Int × Int}
    (hp : p ∈ ps) {x x' : SoilProps α} (hx : SoilSame x x') : SoilsVia ps (S.set p.1.toNat x) (S'.set p.2.toNat x') := by
  intro u hu
  obtain ⟨u0, u1, y, y', g1, g2, hy⟩ := h u hu
  obtain ⟨t0, t1, z, z', k1, k2, _⟩ := h p hp
  refine ⟨u0, u1, ?_⟩
  have hpu := hi p hp u hu
  by_cases e : p.1 = u.1
  · refine ⟨x, x', ?_, ?_, hx⟩
    · rw [← e, List.getElem?_set_self]; exact (List.getElem?_eq_some_iff.mp k1).1
    · rw [← hpu.mp e, List.getElem?_set_self]; exact (List.getElem?_eq_some_iff.mp k2).1
  · have e' : p.2 ≠ u.2 := fun hc => e (hpu.mpr hc)
    exact ⟨y, y', by rw [List.getElem?_set_ne (by omega)]; exact g1, by rw [List.getElem?_set_ne (by omega)]; exact g2, hy⟩

theorem calibFront_via {cal : Calib α} {S S' : List (SoilProps α)} {f : Front α} (hi : SameSharing ps)
    (h : SoilsVia ps S S') (hf : 1 ≤ f.layer) :
    Both (fun a b => SoilsVia ps a.1 b.1 ∧ b.2 = a.2) (calibFront (typeArray (ps.map Prod.fst)) cal S f)
      (calibFront (typeArray (ps.map Prod.snd)) cal S' f) := by
  unfold calibFront
  rcases typeArray_pair (ps := ps) hf with ⟨h1, h2⟩ | ⟨p, hp, h1, h2⟩
  · rw [h1, h2]; rfl
  obtain ⟨t0, t1, x, x', g1, g2, hx⟩ := h p hp
  rw [h1, h2]
  simp only [ok_bind, idxI_of t0 g1, idxI_of t1 g2]
  obtain ⟨w, rfl⟩ := hx
  iterate 7
    refine Both.bind (Both.refl (R := fun a b => b = a) fun _ _ => rfl) fun _ _ _ _ e => ?_
    subst e
  exact ⟨h.set hi hp ⟨w, rfl⟩, rfl⟩

theorem calibLoop_via {cal : Calib α} (hi : SameSharing ps) :
    ∀ {i : Nat} {S S' : List (SoilProps α)} {l : List (Front α)}, SoilsVia ps S S' → Lay l →
    Both (fun a b => SoilsVia ps a.1 b.1 ∧ b.2 = a.2) (calibLoop (typeArray (ps.map Prod.fst)) cal i S l)
      (calibLoop (typeArray (ps.map Prod.snd)) cal i S' l)
  | 0, S, S', l, h, _ => ⟨h, rfl⟩
  | i + 1, S, S', [], h, _ => rfl
  | i + 1, S, S', f :: t, h, hl => by
    unfold calibLoop
    refine Both.bind (calibFront_via hi h (hl f (by simp))) fun a b _ _ hab => ?_
    obtain ⟨S1, f1⟩ := a
    obtain ⟨S1', f1'⟩ := b
    obtain ⟨hs, rfl⟩ := hab
    refine Both.bind (calibLoop_via hi hs fun x hx => hl x (List.mem_cons_of_mem _ hx)) fun a b _ _ hab => ?_
    obtain ⟨S2, t2⟩ := a
    obtain ⟨S2', t2'⟩ := b
    obtain ⟨hs2, rfl⟩ := hab
    exact ⟨hs2, rfl⟩

theorem Alike.applyFrozen (h : Alike ps fresh s s') :
    Both (fun a b => Alike ps True a b ∧ a.head = s.head) (applyFrozen s) (applyFrozen s') := by
  unfold LGAR.applyFrozen
  rw [show s'.p.sftCoupled = s.p.sftCoupled by rw [h.p], show s'.p.cum = s.p.cum by rw [h.p], show s'.p.soilTempZ = s.p.soilTempZ by rw [h.p],
    show s'.p.soilTemp = s.p.soilTemp by rw [h.p], show s'.p.frozen = s.p.frozen by rw [h.p]]
  split
  · refine Both.bind (Both.refl (R := fun a b => b = a) fun _ _ => rfl) fun fs fs' _ _ e => ?_
    cases e
    refine ⟨?_, rfl⟩
    exact { h with p := by rw [h.p], filled := fun hf => absurd trivial hf }
  · exact ⟨{ h with filled := fun hf => absurd trivial hf }, rfl⟩

theorem Alike.applyCalib (h : Alike ps True s s') (hl : Placed s.head) :
    Both (fun a b => Alike ps True a.1 b.1 ∧ b.2 = a.2 ∧ Placed a.1.head) (applyCalib s) (applyCalib s') := by
  unfold LGAR.applyCalib
  rw [show s'.p.calibFlag = s.p.calibFlag by rw [h.p]]
  split
  · rename_i hcal
    have hi := h.share hcal
    refine Both.bind (R := fun a b => Alike ps True a.1 b.1 ∧ b.2 = a.2 ∧ Placed a.1.head) ?_ ?_
    · unfold updateCalib
      rw [show s'.p.cum = s.p.cum by rw [h.p], show s'.p.numWf = s.p.numWf by rw [h.p], h.head, h.calib, h.types, h.types']
      refine Both.bind (Both.refl (R := fun a b => b = a) fun _ _ => rfl) fun v v' _ _ e => ?_
      cases e
      refine Both.bind (calibLoop_via hi h.soils hl.lay) fun a b ha hb hab => ?_
      obtain ⟨S, l⟩ := a
      obtain ⟨S', l'⟩ := b
      obtain ⟨hs, rfl⟩ := hab
      refine Both.bind (Both.refl (R := fun a b => b = a) fun _ _ => rfl) fun v v' _ _ e => ?_
      cases e
      refine ⟨?_, rfl, ?_⟩
      · exact { h with head := rfl, calib := rfl, soils := hs, p := by rw [h.p], types := h.types, types' := h.types' }
      · have e := congrArg (List.map (fun x : α × α × α × Nat × Int × Bool × α =>
          (x.2.2.2.1, x.2.2.2.2.1, x.2.2.2.2.2.1, x.2.2.2.2.2.2))) (calibLoop_frame ha).1
        rw [List.map_map, List.map_map] at e
        exact hl.skel e
    · rintro ⟨a, d⟩ ⟨b, d'⟩ _ _ ⟨h1, rfl, h3⟩
      dsimp only at h1 h3
      exact ⟨{ h1 with p := by rw [h1.p], share := fun hc => by simp at hc }, rfl, h3⟩
  · exact ⟨h, rfl, hl⟩

theorem Alike.chooseTimestep (h : Alike ps fresh s s') {a b : α} : chooseTimestep s'.p a b = chooseTimestep s.p a b := by
  unfold LGAR.chooseTimestep
  rw [h.p]

theorem Alike.updatePre (h : Alike ps fresh s s') (hl : Placed s.head) :
    Both (fun a b => Alike ps True a.1 b.1 ∧ b.2 = a.2 ∧ Placed a.1.head) (updatePre s) (updatePre s') := by
  unfold LGAR.updatePre
  refine Both.bind h.applyFrozen fun a b _ _ hab => ?_
  obtain ⟨h1, e2⟩ := hab
  refine Both.bind (h1.applyCalib (e2 ▸ hl)) fun a1 b1 _ _ hab => ?_
  obtain ⟨a1, d⟩ := a1
  obtain ⟨b1, d'⟩ := b1
  obtain ⟨h2, rfl, p1⟩ := hab
  dsimp only at h2 p1 ⊢
  rw [h2.precip, h2.pet, h2.onT, h2.chooseTimestep, show b1.p.forcingResH = a1.p.forcingResH by rw [h2.p]]
  refine Both.bind (Both.refl (R := fun a b => b = a) fun _ _ => rfl) fun _ _ _ _ _ => ?_
  refine Both.bind (Both.refl (R := fun a b => b = a) fun _ _ => rfl) fun _ _ _ _ _ => ?_
  refine Both.bind (Both.refl (R := fun a b => b = a) fun _ _ => rfl) fun q q' _ _ e => ?_
  cases e
  exact ⟨{ h2 with p := by rw [h2.p], precip := rfl, pet := rfl, filled := fun hf => absurd trivial hf }, rfl, p1⟩

theorem Alike.updatePost (h : Alike ps True s s') {d : α} {u : SubSt α} {m : α} (hm : 0 < s.p.forcingInterval → m = u.localMb) :
    Both (Alike ps False) (updatePost s d u) (updatePost s' d { u with localMb := m }) := by
  unfold LGAR.updatePost
  rw [h.numGiuh, h.giuhOrd, h.giuhQueue]
  refine Both.bind (Both.refl (R := fun a b => b = a) fun _ _ => rfl) fun q q' _ _ e => ?_
  cases e
  exact { types := h.types, types' := h.types', share := h.share,
          head := rfl, prev := rfl, p := by rw [h.p], precip := rfl, pet := rfl, calib := h.calib, numGiuh := rfl,
          giuhOrd := rfl, giuhQueue := rfl, soils := h.soils, onT := rfl, QgwT := rfl, start := h.start, last := rfl,
          precipTot := by simp only [h.precipTot], inTot := by simp only [h.inTot], on := rfl,
          runoffTot := by simp only [h.runoffTot], aetTot := by simp only [h.aetTot], petTot := by simp only [h.petTot],
          rechTot := by simp only [h.rechTot], giuhTot := by simp only [h.giuhTot], QTot := by simp only [h.QTot],
          calibTot := by simp only [h.calibTot],
          filled := fun _ => ⟨rfl, by simp only [h.start, h.precipTot, h.inTot, h.runoffTot, h.aetTot, h.petTot, h.rechTot, h.giuhTot, h.QTot, h.calibTot],
            fun hf => by simp only [hm hf, and_self]⟩ }

theorem Alike.update (h : Alike ps fresh s s') (hl : Placed s.head)
    (hv : s.p.invalidSoil = false) {fuel : Nat} {sa : Bool} : Both (Alike ps False) (update fuel sa s) (update fuel sa s') := by
  unfold LGAR.update
  rw [show s'.p.invalidSoil = s.p.invalidSoil by rw [h.p], hv, if_neg Bool.false_ne_true, if_neg Bool.false_ne_true]
  refine Both.bind (h.updatePre hl) fun a b _ _ hab => ?_
  obtain ⟨a, d⟩ := a
  obtain ⟨b, d'⟩ := b
  obtain ⟨h1, rfl, p1⟩ := hab
  dsimp only at h1 p1 ⊢
  rw [show b.p.cum = a.p.cum by rw [h1.p], show b.p.forcingInterval = a.p.forcingInterval by rw [h1.p], h1.head]
  refine Both.bind (Both.refl (R := fun a b => b = a) fun _ _ => rfl) fun v v' _ _ e => ?_
  cases e
  have eg : stepCfg fuel sa b = { stepCfg fuel sa a with geo := b.geo } := by
    unfold stepCfg
    rw [h1.p]
  have gs : GeoSame (stepCfg fuel sa a).geo b.geo := by
    have := h1.soils.geo (N := a.p.numLayers) (cum := a.p.cum) (fr := a.p.frozen)
    rw [← h1.types, ← h1.types'] at this
    have e : b.geo = { numLayers := a.p.numLayers, cum := a.p.cum, soilType := b.p.layerSoilType, frozen := a.p.frozen, soils := b.soils } := by
      unfold State.geo
      rw [h1.p]
    rw [e]
    exact this
  have ei : subInit b v = { subInit a v with localMb := b.mb.localMb } := by
    unfold subInit
    rw [h1.p, h1.head, h1.prev, h1.precip, h1.pet, h1.onT]
  rw [eg, ei]
  cases k : a.p.forcingInterval.toNat with
  | zero =>
    refine h1.updatePost (u := subInit a v) fun hf => by omega
  | succ k =>
    rw [← subLoop_fresh gs (s := subInit a v) p1]
    refine Both.bind (Both.refl (R := fun a b => b = a) fun _ _ => rfl) fun u u' _ _ e => ?_
    cases e
    exact h1.updatePost (u := u) (m := u.localMb) fun _ => rfl

theorem Alike.set (h : Alike ps fresh s s') (x : Drive α) : Alike ps True (x.set s) (x.set s') :=
  { h with precip := rfl, pet := rfl, calib := rfl, p := by unfold Drive.set; rw [h.p], filled := fun hf => absurd trivial hf }

theorem Alike.drives {fuel : Nat} {sa : Bool} :
    ∀ {xs : List (Drive α)} {fresh : Prop} {s s' : State α}, Alike ps fresh s s' →
    Placed s.head → s.p.invalidSoil = false →
    Both (Alike ps (fresh ∧ xs = [])) (drives fuel sa xs s) (drives fuel sa xs s')
  | [], fresh, s, s', h, _, _ => by simpa [Both, LGAR.drives] using h
  | x :: xs, fresh, s, s', h, hl, hv => by
    unfold LGAR.drives
    refine Both.bind ((h.set x).update hl hv) fun a b ha hb hab => ?_
    obtain ⟨_, _, e1, e2, _⟩ := update_fixed ha
    have := Alike.drives (fuel := fuel) (sa := sa) (xs := xs) hab (Placed.update (s := x.set s) hl ha) (e2.trans hv)
    simpa using this

end Free
end LGAR
