import Verif.Lemmas.MoveSafe
import Verif.Lemmas.Init
import Verif.Lemmas.Giuh
/-
Safety of a whole Update.
-/
set_option linter.unusedSectionVars false
namespace LGAR

section Exact
variable {K : Type} [Field K] [LinearOrder K] [IsStrictOrderedRing K] [CMath K] [LawfulNum K] {fb : Guard} {u : Bool}

/-- The queue of the routing has one entry more than there are ordinates, and there are ordinates. -/
structure QueueFits (s : State K) : Prop where
  num : s.numGiuh = s.giuhOrd.length
  pos : s.giuhOrd ≠ []
  len : s.giuhQueue.length = s.giuhOrd.length + 1

theorem giuhConv_fits {s : State K} (h : QueueFits s) (r : K) :
    ∃ x q, giuhConv r s.numGiuh s.giuhOrd s.giuhQueue = .ok (x, q) ∧ q.length = s.giuhQueue.length := by
  obtain ⟨hn, hp, hl⟩ := h
  rw [hn]
  obtain ⟨o, os, ho⟩ := List.exists_cons_of_ne_nil hp
  rw [ho] at hl ⊢
  have hne : s.giuhQueue ≠ [] := by intro e; rw [e] at hl; simp at hl
  rcases List.eq_nil_or_concat s.giuhQueue with e | ⟨q, x, e⟩
  · exact absurd e hne
  rw [List.concat_eq_append] at e
  rw [e] at hl ⊢
  cases q with
  | nil => simp at hl
  | cons a q =>
    have hq : q.length = os.length := by simpa using hl
    have := giuhConv_eq r x a o q os hq
    rw [show (o :: os).length = q.length + 1 by simp [hq]]
    refine ⟨_, _, this, ?_⟩
    simp only [List.length_append, List.length_cons, List.length_nil]
    have : (giuhMix r q os).length = q.length := by
      simp only [giuhMix, List.length_zipWith]; omega
    omega

theorem frozenFactor_len {cum : List K} {cells : List (K × K)} {old fs : List K} (h : frozenFactor cum cells old = .ok fs)
    (hold : old ≠ []) : fs.length = cum.length - 1 + 1 := by
  unfold frozenFactor at h
  simp only [bind_ok_iff, pure_eq_ok, Except.ok.injEq] at h
  obtain ⟨r, hr, rfl⟩ := h
  have : ∀ {bs : List K} {cells : List (K × K)} {fs : List K}, frozenLayers bs cells = .ok fs → fs.length = bs.length := by
    intro bs
    induction bs with
    | nil => intro cells fs h; simp [frozenLayers] at h; subst h; rfl
    | cons b bs ih =>
      intro cells fs h
      unfold frozenLayers at h
      simp only [bind_ok_iff, Prod.exists, cassert_ok_iff, pure_eq_ok, Except.ok.injEq] at h
      obtain ⟨_, _, _, _, _, _, _, _, fs', hfs, rfl⟩ := h
      simp [ih hfs]
  cases old with
  | nil => exact absurd rfl hold
  | cons o os => simp [this hr]

theorem valid_pre {s s1 : State K} {d : K} (hg : s.geo.Valid) (h : updatePre s = .ok (s1, d)) : s1.geo.Valid := by
  obtain ⟨_, _, fs, soils, l, fc, pm, q, _, e, hf, hc⟩ := updatePre_inv h
  have hso : soils.length = s.soils.length := by
    rcases hc with ⟨_, _, _, hl, _⟩ | ⟨_, _, _, _, rfl, _⟩
    · exact (calibLoop_frame hl).2
    · rfl
  have hfl : s.p.numLayers < fs.length := by
    rcases hf with ⟨_, hf⟩ | ⟨_, rfl⟩
    · have h1 := hg.cum_len
      have h2 := hg.frozen_len
      have h3 := frozenFactor_len hf (by intro e; simp only [State.geo, e] at h2; simp at h2)
      simp only [State.geo] at h1
      omega
    · exact hg.frozen_len
  subst e
  exact ⟨hg.cum_len, hfl, hg.soil_len, fun k h1 h2 => by
    obtain ⟨t, a, b, c⟩ := hg.soil_ok k h1 h2
    exact ⟨t, a, b, by show t.toNat < soils.length; rw [hso]; exact c⟩⟩

theorem valid_update {fuel : Nat} {sa : Bool} {s s' : State K} (hg : s.geo.Valid) (h : update fuel sa s = .ok s') :
    s'.geo.Valid := by
  rcases update_inv h with ⟨_, rfl⟩ | ⟨_, s1, d, v, u, h1, _, _, h2⟩
  · exact hg
  · obtain ⟨_, _, _, _, _, hs, _, _, _, _, _, _, hp, _⟩ := updatePost_inv h2
    have e : s'.geo = s1.geo := by unfold State.geo; rw [hs, hp]
    rw [e]; exact valid_pre hg h1

theorem Good.pre {s s1 : State K} {d : K} (hl : Good s.geo s.head) (h : updatePre s = .ok (s1, d)) : Good s1.geo s1.head := by
  have h1 := h
  obtain ⟨_, _, fs, soils, l, fc, pm, q, _, e, _, hcal⟩ := updatePre_inv h
  subst e
  refine Good.geo (g := s.geo) ?_ rfl rfl
  rcases hcal with ⟨_, _, _, hl', _⟩ | ⟨_, _, _, rfl, _⟩
  · refine ⟨hl.sound.skel (updatePre_skel h1), col_congr ?_ hl.col⟩
    have e := congrArg (List.map (fun x : K × K × K × Nat × Int × Bool × K => (x.1, x.2.2.2.1, x.2.2.2.2.2.1)))
      (calibLoop_frame hl').1
    rw [List.map_map, List.map_map] at e
    exact e.symm
  · exact hl

theorem spec_updatePre {s : State K} (hg : s.geo.Valid) (hl : Good s.geo s.head) (hnw : s.p.numWf = (s.head.length : Int))
    (hi : InputsFit s) : Spec fb (updatePre s) fun _ => True := by
  unfold updatePre
  refine Spec.bind (fun s1 => ∃ fs, s1 = { s with p := { s.p with frozen := fs } }) ?_ fun s1 _ hs1 => ?_
  · unfold applyFrozen
    refine Spec.ite (fun hf => ?_) fun _ => Spec.ok ⟨s.p.frozen, rfl⟩
    refine Spec.bindT ?_ fun fs _ => Spec.ok ⟨fs, rfl⟩
    unfold frozenFactor
    refine Spec.bindT (spec_frozenLayers_reach ?_) fun _ _ => Spec.pure trivial
    obtain ⟨c, hc, hb⟩ := hi.cells hf
    right
    refine ⟨c, hc, fun b hb' => hb b ?_⟩
    generalize s.p.cum = cum at hb'
    cases cum with
    | nil => simp at hb'
    | cons x t =>
      cases t with
      | nil => simp at hb'
      | cons y t => simp only [List.drop_one, List.tail_cons] at hb'; rw [List.dropLast_cons_cons]; exact List.mem_cons_of_mem _ hb'
  obtain ⟨fs, rfl⟩ := hs1
  refine Spec.bindT ?_ fun r _ => ?_
  · unfold applyCalib
    refine Spec.ite (fun hc => ?_) fun _ => Spec.ok trivial
    refine Spec.bindT ?_ fun _ _ => Spec.ok trivial
    unfold updateCalib
    refine Spec.bindT (spec_massBalGo hg _ hl.range _) fun _ _ => ?_
    refine Spec.bindT (spec_calibLoop hg (hi.calib hc) (by simp only [hnw]; simp) hl.range rfl) fun r hr => ?_
    have hrr : InRange s.geo.numLayers r.2 := by
      have e := (calibLoop_frame hr).1
      intro f hf
      have hm := List.mem_map_of_mem (f := fun f : Front K => (f.depth, f.psi, f.K, f.layer, f.front, f.toBottom, f.dzdt)) hf
      rw [e] at hm
      obtain ⟨x, hx, hxe⟩ := List.mem_map.mp hm
      simp only [Prod.mk.injEq] at hxe
      rw [← hxe.2.2.2.1]; exact hl.range x hx
    refine Spec.bindT (spec_massBalGo hg _ hrr _) fun _ _ => Spec.pure trivial
  refine Spec.bindT (spec_cassert fun _ => trivial) fun _ _ => ?_
  refine Spec.bindT (spec_cassert fun _ => trivial) fun _ _ => ?_
  refine Spec.bindT (spec_cdiv fun _ => trivial) fun _ _ => Spec.pure trivial

/-- No front is drained in an Update. -/
def UpdateUndrained (fuel : Nat) (standalone : Bool) (s : State K) : Prop :=
  Res.Holds (updatePre s) fun (s1, _) =>
    Res.Holds (massBal s1.p.cum s1.head) fun v =>
      LoopUndrained (stepCfg fuel standalone s1) s1.p.forcingInterval.toNat (subInit s1 v)

theorem spec_update {fuel : Nat} {sa : Bool} {s : State K} (hg : s.geo.Valid) (hinc : s.p.cum.Pairwise (· < ·))
    (hl : Good s.geo s.head) (hnw : s.p.numWf = (s.head.length : Int)) (hq : QueueFits s) (hi : InputsFit s)
    (ht : s.p.numLayers = 1 ∨ UpdateTieFree fuel sa s) (hd : u = true → UpdateUndrained fuel sa s) :
    Spec ⟨false, u⟩ (update fuel sa s) fun _ => True := by
  unfold update
  refine Spec.ite (fun _ => Spec.ok trivial) fun _ => ?_
  refine Spec.bindT (spec_updatePre hg hl hnw hi) fun r h1 => ?_
  obtain ⟨s1, d⟩ := r
  have g1 := hl.pre h1
  have v1 := valid_pre hg h1
  obtain ⟨_, _, fs, soils, l, fc, pm, q, _, e, _, _⟩ := updatePre_inv h1
  have e1 : s1.p.cum = s.p.cum := by rw [e]
  have e2 : s1.p.numLayers = s.p.numLayers := by rw [e]
  have q1 : QueueFits s1 := by rw [e]; exact ⟨hq.num, hq.pos, hq.len⟩
  refine Spec.bindT (spec_massBalGo v1 _ g1.range _) fun v hv => ?_
  refine Spec.bindT (spec_subLoop (c := stepCfg fuel sa s1) v1 (by show s1.p.cum.Pairwise _; rw [e1]; exact hinc) g1
    ((ht.imp_right fun t => (t.of_ok h1).of_ok hv).imp_left fun e => by show s1.p.numLayers = 1; rw [e2, e])
    fun h => ((hd h).of_ok h1).of_ok hv) fun w _ => ?_
  unfold updatePost
  obtain ⟨x, qq, hx, _⟩ := giuhConv_fits q1 w.runoffT
  rw [hx, ok_bind]
  exact Spec.pure trivial

theorem queue_update {fuel : Nat} {sa : Bool} {s s' : State K} (hq : QueueFits s) (h : update fuel sa s = .ok s') :
    QueueFits s' := by
  rcases update_inv h with ⟨_, rfl⟩ | ⟨_, s1, d, v, u, h1, _, _, h2⟩
  · exact ⟨hq.num, hq.pos, hq.len⟩
  · obtain ⟨_, _, fs, soils, l, fc, pm, q, _, e, _, _⟩ := updatePre_inv h1
    have q1 : QueueFits s1 := by rw [e]; exact ⟨hq.num, hq.pos, hq.len⟩
    obtain ⟨giuh, queue, hgc, _, _, _, _, _, hqu, _, hn, ho, _⟩ := updatePost_inv h2
    obtain ⟨x, qq, hx, hlen⟩ := giuhConv_fits q1 u.runoffT
    rw [hx] at hgc
    simp only [Except.ok.injEq, Prod.mk.injEq] at hgc
    exact ⟨by rw [hn, ho]; exact q1.num, by rw [ho]; exact q1.pos, by rw [hqu, ho, ← hgc.2, hlen]; exact q1.len⟩

theorem valid_init {env : Env K} {lines : List (List Char)} {s : State K} (h : bmiInitialize env lines = .ok s) :
    s.geo.Valid := by
  have h0 := h
  obtain ⟨c, _, h, hne⟩ := bmiInitialize_inv h
  obtain ⟨ts, file, fl, soils, cnt, thick, psi, dt, endt, wp, fc, res, ords, inv, giuh, soilZ, q, depth, vs, cs, _, _, _, _, _,
    hthick, _, _, _, _, _, _, _, _, _, _, _, _, _, hgeo, hhead, _, hlen, _, hs⟩ := lgarInit_inv h
  obtain ⟨i1, _, i2⟩ := initFronts_inv hhead
  have hN : s.geo.numLayers = thick.length := by rw [hgeo]
  have hk : ∀ k, 1 ≤ k → k ≤ s.geo.numLayers → ∃ t, s.geo.soilType[k]? = some t ∧ 0 ≤ t ∧ t.toNat < s.geo.soils.length := by
    intro k h1 h2
    obtain ⟨sp, th, c, ff, Se, K, hsoil, _⟩ := i2 (k - 1) _ (List.getElem?_eq_getElem (by omega : k - 1 < s.head.length))
    rw [Nat.sub_add_cancel h1] at hsoil
    unfold Geo.soil at hsoil
    simp only [bind_ok_iff, idx_ok_iff, idxI_ok_iff] at hsoil
    obtain ⟨t, ht, h0, hx⟩ := hsoil
    exact ⟨t, ht, h0, (List.getElem?_eq_some_iff.mp hx).1⟩
  have hpos : 1 ≤ s.geo.numLayers := by
    obtain ⟨f, hf, _⟩ := (Sound.initialize h0).1.last
    have : s.head ≠ [] := by intro e; rw [e] at hf; simp at hf
    have := List.length_pos_of_ne_nil this
    omega
  refine ⟨?_, ?_, ?_, hk⟩
  · rw [hgeo]; exact cumThickness_length _
  · rw [hgeo]; simp
  · obtain ⟨t, ht, _⟩ := hk _ hpos le_rfl
    exact (List.getElem?_eq_some_iff.mp ht).1

end Exact
end LGAR
