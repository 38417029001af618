import Verif.Lemmas.Finish
import Verif.Lemmas.Init
import Verif.Lemmas.Bounded
import Verif.Props.Driver
/-
Every Update after Initialize and every run of the driver finishes.
-/
namespace LGAR

section Calib
variable {K : Type} [Field K] [LinearOrder K] [IsStrictOrderedRing K] [CMath K] [LawfulNum K] [LawfulPow K]

theorem calibFront_phys {types : List Int} {cal : Calib K} {soils : List (SoilProps K)} {f : Front K}
    {r : List (SoilProps K) × Front K} {g : Geo K} (ht : g.soilType = types) (hg : PhysGeo { g with soils := soils })
    (hc : cal.Physical) (h : calibFront types cal soils f = .ok r) : PhysGeo { g with soils := r.1 } := by
  unfold calibFront at h
  simp only [bind_ok_iff, idx_ok_iff, idxPred_ok_iff] at h
  obtain ⟨t, htt, s, hs, te, ⟨_, hte⟩, tr, ⟨_, htr⟩, n, ⟨_, hn⟩, q, hq, a, ⟨_, ha⟩, k, ⟨_, hk⟩, th, hth, h⟩ := h
  simp only [pure_eq_ok, Except.ok.injEq] at h
  subst h
  obtain ⟨c1, c2, c3, c4, c5⟩ := hc _ _ _ _ _ _ hte htr hn ha hk
  intro k' s' hk1 hs'
  unfold Geo.soil at hs'
  simp only [bind_ok_iff, idx_ok_iff] at hs'
  obtain ⟨t', ht', hs'⟩ := hs'
  by_cases e : t' = t
  · subst e
    rw [idxI_ok_iff] at hs' hs
    have hlt : t'.toNat < soils.length := (List.getElem?_eq_some_iff.mp hs.2).1
    rw [List.getElem?_set_self hlt, Option.some.injEq] at hs'
    obtain ⟨_, rfl⟩ := hs'
    rw [cdiv_ok_iff] at hq
    exact ⟨c1, c2, c3, c4, by rw [hq.2], c5⟩
  · refine hg k' s' hk1 ?_
    unfold Geo.soil
    simp only [bind_ok_iff, idx_ok_iff]
    refine ⟨t', ht', ?_⟩
    rw [idxI_ok_iff] at hs' hs ⊢
    refine ⟨hs'.1, ?_⟩
    rw [← hs'.2, List.getElem?_set_ne]
    intro e2; exact e (by omega)

theorem calibLoop_phys {types : List Int} {cal : Calib K} {g : Geo K} (ht : g.soilType = types) (hc : cal.Physical) :
    ∀ {n : Nat} {soils : List (SoilProps K)} {l : List (Front K)} {r : List (SoilProps K) × List (Front K)},
      PhysGeo { g with soils := soils } → calibLoop types cal n soils l = .ok r → PhysGeo { g with soils := r.1 }
  | 0, soils, l, r, hg, h => by simp [calibLoop] at h; subst h; exact hg
  | n + 1, soils, [], r, hg, h => by simp [calibLoop] at h
  | n + 1, soils, f :: t, r, hg, h => by
    unfold calibLoop at h
    simp only [bind_ok_iff, Prod.exists, pure_eq_ok, Except.ok.injEq] at h
    obtain ⟨s1, f1, h1, s2, t2, h2, rfl⟩ := h
    exact calibLoop_phys (r := (s2, t2)) ht hc (calibFront_phys ht hg hc h1) h2

theorem updatePre_phys {s s1 : State K} {d : K} (hp : PhysGeo s.geo) (hc : s.p.calibFlag = true → s.calib.Physical)
    (h : updatePre s = .ok (s1, d)) : PhysGeo s1.geo := by
  obtain ⟨_, _, fs, soils, l, fc, pm, q, _, rfl, _, hcase⟩ := updatePre_inv h
  rcases hcase with ⟨hf, _, _, hl, _⟩ | ⟨_, _, _, _, rfl, _⟩
  · exact PhysGeo.congr (calibLoop_phys (g := s.geo) rfl (hc hf) hp hl) rfl rfl
  · exact PhysGeo.congr hp rfl rfl

end Calib

section Free
variable {α : Type} [Add α] [Sub α] [Mul α] [Div α] [Neg α] [Zero α] [One α] [OfScientific α]
  [LT α] [LE α] [DecidableLT α] [DecidableLE α] [BEq α] [CMath α]

theorem Placed.initialize {env : Env α} {lines : List (List Char)} {s : State α} (h : bmiInitialize env lines = .ok s) :
    Placed s.head ∧ s.p.nint = 120 := by
  obtain ⟨c, _, h, _⟩ := bmiInitialize_inv h
  obtain ⟨ts, file, fl, soils, cnt, thick, psi, dt, endt, wp, fc, res, ords, inv, giuh, soilZ, q, depth, vs, cs, _, _, _, _, _,
    hthick, _, _, _, _, _, _, _, _, _, _, _, _, _, hgeo, hhead, _, hlen, _, hs⟩ := lgarInit_inv h
  obtain ⟨_, hn, hall⟩ := initFronts_inv hhead
  refine ⟨⟨hn, fun f hf => ?_⟩, by rw [hs]⟩
  obtain ⟨i, hi⟩ := List.mem_iff_getElem?.mp hf
  obtain ⟨s1, th, c, ff, Se, K, _, _, _, _, _, _, rfl⟩ := hall i f hi
  exact Nat.le_add_left 1 i

theorem run_placed {s0 s : State α} {hist : List (State α)} (h0 : Placed s0.head) (hr : Run s0 hist s) :
    Placed s.head ∧ s.p.nint = s0.p.nint := by
  induction hr with
  | nil => exact ⟨h0, rfl⟩
  | step _ hi hu ih =>
    obtain ⟨a, b⟩ := ih
    obtain ⟨i1, _, _, _, _, _, _, _, _, ip⟩ := hi.frame
    obtain ⟨_, _, _, _, _, _, _, _, _, _, _, _, _, _, _, e, _⟩ := update_fixed hu
    rw [← i1] at a
    exact ⟨Placed.update a hu, by rw [e, ip]; exact b⟩

theorem NF.cstod {env : Env α} {s : List Char} : NF (cstod env s) := by unfold LGAR.cstod; nofuel

theorem findChar_lt {c : Char} : ∀ {l : List Char} {i : Nat}, findChar c l = some i → i < l.length
  | [], i, h => by simp [findChar] at h
  | x :: xs, i, h => by
    unfold findChar at h
    split at h
    · simp only [Option.some.injEq] at h; subst h; simp
    · simp only [Option.map_eq_some_iff] at h
      obtain ⟨j, hj, rfl⟩ := h
      have := findChar_lt hj
      simp; omega

theorem NF.readVecLoop {env : Env α} : ∀ {n : Nat} {z : List Char}, z.length < n → NF (readVecLoop env n z)
  | 0, z, h => by omega
  | n + 1, z, h => by
    unfold LGAR.readVecLoop
    split
    · exact NF.ok
    · rename_i pos hp
      refine NF.bind NF.cstod fun _ _ => ?_
      dsimp only
      split
      · exact NF.bind NF.cstod fun _ _ => NF.pure
      · refine NF.bind (NF.readVecLoop ?_) fun _ _ => NF.pure
        have := findChar_lt hp
        rw [List.length_drop]; omega

theorem NF.readVector {env : Env α} {z : List Char} : NF (readVector env z) := by
  unfold LGAR.readVector
  split
  · exact NF.bind NF.cstod fun _ _ => NF.pure
  · exact NF.readVecLoop (Nat.lt_succ_self _)

theorem NF.parseBool {v : List Char} : NF (parseBool v) := by unfold LGAR.parseBool; nofuel
theorem NF.parseBool01 {v : List Char} : NF (parseBool01 v) := by unfold LGAR.parseBool01; nofuel

theorem NF.applyKey {env : Env α} {c : Cfg α} {v u : List Char} {k : Key} : NF (applyKey env c v u k) := by
  cases k <;> unfold LGAR.applyKey
  case thick | soilType | giuh | soilZ => exact NF.bind NF.readVector fun _ _ => NF.pure
  case initialPsi | wp | fc | pondMax => exact NF.bind NF.cstod fun _ _ => NF.pure
  case closed | sft | calib => exact NF.bind NF.parseBool fun _ _ => NF.pure
  case adaptive => exact NF.bind NF.parseBool01 fun _ _ => NF.pure
  case timestep | forcingRes => exact NF.bind NF.cstod fun _ _ => NF.bind NF.cassert fun _ _ => NF.pure
  case soilFile => exact NF.ok
  case numTypes => dsimp only; unfold setNumTypes; nofuel
  case endtime =>
    dsimp only; unfold setEndtime
    split
    · refine NF.bind NF.cstod fun _ _ => ?_
      nofuel
    · nofuel

theorem NF.readConfig {env : Env α} : ∀ {l : List (List Char)} {c : Cfg α}, NF (readConfig env c l)
  | [], c => by unfold LGAR.readConfig; exact NF.ok
  | x :: l, c => by
    unfold LGAR.readConfig
    refine NF.bind ?_ fun _ _ => NF.readConfig
    unfold configLine
    split
    · exact NF.ok
    · exact NF.applyKey

theorem NF.need {β : Type} {e : Err} (h : e ≠ .fuel) {o : Option β} : NF (need e o) := by
  unfold LGAR.need; split
  · exact NF.err h
  · exact NF.ok

theorem NF.soilOfRec {wp : α} {old : SoilProps α} {r : SoilRec α} : NF (soilOfRec wp old r) := by
  unfold LGAR.soilOfRec; nofuel

theorem NF.readSoils {scanF : List Char → Option (α × List Char)} {wp : α} {n : Int} {lines : List (List Char)} {r0 : SoilRec α}
    {fresh : List (SoilProps α)} : NF (readSoils scanF wp n lines r0 fresh) := by
  unfold LGAR.readSoils
  generalize lines.drop 1 = ls
  generalize (1 : Nat) = k
  generalize (0 : Int) = c
  induction ls generalizing k c r0 fresh with
  | nil => unfold readSoilsGo; exact NF.ok
  | cons x t ih =>
    unfold readSoilsGo
    refine NF.bind NF.idx fun _ _ => NF.bind NF.soilOfRec fun _ _ => NF.bind NF.setIdx fun _ _ => ?_
    split
    · exact NF.pure
    · exact ih _ _

theorem NF.invalidTypes {ts : List Int} {m : Int} : ∀ {n k : Nat}, NF (invalidTypes ts m n k)
  | 0, k => by unfold LGAR.invalidTypes; exact NF.ok
  | n + 1, k => by
    unfold LGAR.invalidTypes
    refine NF.bind NF.idx fun _ _ => ?_
    split
    · exact NF.pure
    · exact NF.invalidTypes

theorem NF.giuhResample {n : Nat} : ∀ {l : List α}, NF (giuhResample n l)
  | [] => by unfold LGAR.giuhResample; exact NF.ok
  | x :: l => by
    unfold LGAR.giuhResample
    refine NF.bind ?_ fun _ _ => NF.bind NF.giuhResample fun _ _ => NF.pure
    unfold giuhPart; nofuel

theorem NF.calibInit {g : Geo α} : ∀ {n k : Nat}, NF (calibInit g n k)
  | 0, k => by unfold LGAR.calibInit; exact NF.ok
  | n + 1, k => by
    unfold LGAR.calibInit
    exact NF.bind NF.soil fun _ _ => NF.bind NF.calibInit fun _ _ => NF.pure

theorem NF.insertGo {link : Front α} : ∀ {l : List (Front α)}, NF (insertGo link l)
  | [] => by unfold LGAR.insertGo; nofuel
  | x :: l => by
    have := NF.insertGo (link := link) (l := l)
    unfold LGAR.insertGo; nofuel

theorem NF.initFrontsGo {g : Geo α} {psi : α} : ∀ {n k : Nat} {l : List (Front α)}, NF (initFrontsGo g psi n k l)
  | 0, k, l => by unfold LGAR.initFrontsGo; exact NF.ok
  | n + 1, k, l => by
    unfold LGAR.initFrontsGo
    refine NF.bind NF.soil fun _ _ => NF.bind NF.thetaH fun _ _ => NF.bind NF.idx fun _ _ => NF.bind2 ?_ fun _ _ =>
      NF.bind NF.derefOpt fun _ _ => NF.bind NF.seTheta fun _ _ => NF.bind NF.idx fun _ _ => NF.bind NF.kSe fun _ _ =>
      NF.initFrontsGo
    unfold listInsertFront
    nofuel
    exact NF.insertGo

theorem NF.lgarInit {env : Env α} {c : Cfg α} : NF (lgarInit env c) := by
  unfold LGAR.lgarInit
  refine NF.bind (NF.need (by simp)) fun _ _ => NF.bind (NF.need (by simp)) fun _ _ => NF.bind (NF.need (by simp)) fun _ _ =>
    NF.bind (NF.need (by simp)) fun _ _ => NF.bind2 NF.readSoils fun _ _ => NF.bind (NF.need (by simp)) fun _ _ =>
    NF.bind NF.invalidTypes fun _ _ => NF.bind (NF.need (by simp)) fun _ _ => NF.bind (NF.need (by simp)) fun _ _ =>
    NF.bind (NF.need (by simp)) fun _ _ => NF.bind (NF.need (by simp)) fun _ _ => NF.bind (NF.need (by simp)) fun _ _ =>
    NF.bind (NF.need (by simp)) fun _ _ => NF.bind (NF.need (by simp)) fun _ _ => NF.bind NF.cdiv fun _ _ =>
    NF.bind NF.giuhResample fun _ _ => NF.bind (NF.need (by simp)) fun _ _ => NF.bind NF.cdiv fun _ _ =>
    NF.bind NF.idx fun _ _ => NF.bind NF.initFrontsGo fun _ _ => NF.bind NF.massBal fun _ _ => NF.bind NF.cassert fun _ _ =>
    NF.bind NF.calibInit fun _ _ => NF.pure

theorem NF.bmiInitialize {env : Env α} {lines : List (List Char)} : NF (bmiInitialize env lines) := by
  unfold LGAR.bmiInitialize
  exact NF.bind NF.readConfig fun _ _ => NF.lgarInit

theorem NF.forcingLine {env : Env α} {f : Forcing α} {l : List Char} : NF (forcingLine env f l) := by
  unfold LGAR.forcingLine
  split
  · exact NF.ok
  · exact NF.ok
  · exact NF.bind NF.cstod fun _ _ => NF.pure
  · exact NF.bind NF.cstod fun _ _ => NF.bind NF.cstod fun _ _ => NF.pure

/-- Calls of getline left before the stream fails. -/
def IStream.left (st : IStream) : Nat := if st.fail then 0 else if st.eof then 1 else st.rest.length + 2

theorem splitAt1_shorter {c : Char} : ∀ {s a r : List Char}, splitAt1 c s = (a, some r) → r.length < s.length
  | [], a, r, h => by simp [splitAt1] at h
  | x :: s, a, r, h => by
    unfold splitAt1 at h
    split at h
    · simp only [Prod.mk.injEq, Option.some.injEq] at h; obtain ⟨_, rfl⟩ := h; simp
    · simp only [Prod.mk.injEq] at h
      have := splitAt1_shorter (c := c) (s := s) (a := (splitAt1 c s).1) (r := r) (by rw [← h.2])
      simp; omega

theorem getline_left (st : IStream) (old : List Char) (h : st.fail = false) : (getline st old).1.left < st.left := by
  unfold getline
  split
  · rename_i hc
    have he : st.eof = true := by simpa [h] using hc
    simp [IStream.left, h, he]
  · rename_i hc
    have he : st.eof = false := by simpa [h] using hc
    split
    · rename_i l r hs
      have := splitAt1_shorter hs
      simp [IStream.left, h, he]; omega
    · simp [IStream.left, h, he]
    · simp [IStream.left, h, he]

theorem NF.forcingLoop {env : Env α} : ∀ {n : Nat} {st : IStream} {line : List Char} {f : Forcing α}, st.left < n →
    NF (forcingLoop env n st line f)
  | 0, st, line, f, h => by omega
  | n + 1, st, line, f, h => by
    unfold LGAR.forcingLoop
    split
    · exact NF.ok
    · rename_i hf
      have := getline_left st line (by simpa using hf)
      dsimp only
      exact NF.bind NF.forcingLine fun _ _ => NF.forcingLoop (st := (getline st line).1) (by omega)

theorem NF.readForcing {env : Env α} {content : List Char} : NF (readForcing env content) := by
  unfold LGAR.readForcing
  refine NF.forcingLoop (st := (getline { rest := content } []).1) ?_
  have h := getline_left { rest := content } [] rfl
  have h2 : IStream.left { rest := content } = content.length + 2 := by simp [IStream.left]
  omega

theorem NF.ite {β : Type} {p : Prop} [Decidable p] {x y : Res β} (hx : NF x) (hy : NF y) : NF (if p then x else y) := by
  split
  · exact hx
  · exact hy

theorem NF.valuePtr {n : String} : NF (valuePtr n) := by
  unfold LGAR.valuePtr
  repeat' first | exact NF.ok | exact NF.err (by simp) | refine NF.ite ?_ ?_

theorem NF.getValue {s : State α} {n : String} : NF (getValue s n) := by
  unfold LGAR.getValue
  refine NF.bind NF.valuePtr fun _ _ => NF.bind ?_ fun _ _ => ?_
  · unfold memcpyCount; nofuel
  · split
    · refine NF.bind ?_ fun _ _ => NF.pure
      unfold readN; nofuel
    · refine NF.bind ?_ fun _ _ => NF.pure
      unfold readN; nofuel

theorem NF.getAll {s : State α} : ∀ {l : List String}, NF (getAll s l)
  | [] => by unfold LGAR.getAll; exact NF.ok
  | n :: l => by
    unfold LGAR.getAll
    exact NF.bind NF.getValue fun _ _ => NF.bind NF.getAll fun _ _ => NF.pure

theorem calibInit_at {g : Geo α} : ∀ {n layer : Nat} {cs : List (SoilProps α)}, calibInit g n layer = .ok cs →
    ∀ i s, cs[i]? = some s → g.soil (layer + i) = .ok s
  | 0, layer, cs, h, i, s, hs => by simp only [calibInit, Except.ok.injEq] at h; subst h; simp at hs
  | n + 1, layer, cs, h, i, s, hs => by
    unfold calibInit at h
    simp only [bind_ok_iff, pure_eq_ok, Except.ok.injEq] at h
    obtain ⟨s0, h0, r, hr, rfl⟩ := h
    cases i with
    | zero => simp only [List.getElem?_cons_zero, Option.some.injEq] at hs; subst hs; exact h0
    | succ i =>
      simp only [List.getElem?_cons_succ] at hs
      have := calibInit_at hr i s hs
      rw [show layer + (i + 1) = layer + 1 + i by omega]; exact this

end Free

section Reals

/-- A state from which the next Update is sure to finish. -/
structure Ready (s : State ℝ) : Prop where
  placed : Placed s.head
  nint : 0 < s.p.nint
  phys : PhysGeo s.geo
  cal : s.p.calibFlag = true → s.calib.Physical

theorem Ready.finishes {s : State ℝ} (h : Ready s) (sa : Bool) : Finishes fun fuel => update fuel sa s :=
  update_finishes h.placed h.nint fun _ _ _ h1 => updatePre_phys h.phys h.cal h1

theorem Ready.update {s s' : State ℝ} {fuel : Nat} {sa : Bool} (h : Ready s) (hu : LGAR.update fuel sa s = .ok s') : Ready s' := by
  obtain ⟨_, _, e3, _, _, _, _, _, _, _, ecal, _, _, _, _, e, _⟩ := update_fixed hu
  refine ⟨Placed.update h.placed hu, by rw [e]; exact h.nint, ?_, ?_⟩
  · rcases update_inv hu with ⟨_, rfl⟩ | ⟨_, s1, d, v, u, h1, _, _, h2⟩
    · exact PhysGeo.congr h.phys rfl rfl
    · have hp := updatePre_phys h.phys h.cal h1
      obtain ⟨_, _, _, _, _, hso, _, _, _, _, _, _, hpp, _⟩ := updatePost_inv h2
      refine PhysGeo.congr hp ?_ hso
      show s'.p.layerSoilType = s1.p.layerSoilType
      rw [hpp]
  · intro hc
    rw [ecal]
    rcases update_inv hu with ⟨_, rfl⟩ | ⟨_, s1, d, v, u, h1, _, _, h2⟩
    · exact h.cal hc
    · obtain ⟨_, _, _, _, _, _, _, _, _, _, _, _, hpp, _⟩ := updatePost_inv h2
      obtain ⟨_, _, fs, soils, l, fc, pm, q, _, rfl, _⟩ := updatePre_inv h1
      rw [hpp] at hc
      simp at hc

theorem Ready.init {env : Env ℝ} {lines : List (List Char)} {s : State ℝ} (h : bmiInitialize env lines = .ok s)
    (hp : PhysGeo s.geo) : Ready s := by
  obtain ⟨h1, h2⟩ := Placed.initialize h
  refine ⟨h1, by rw [h2]; norm_num, hp, fun _ => ?_⟩
  obtain ⟨c, _, h, _⟩ := bmiInitialize_inv h
  obtain ⟨ts, file, fl, soils, cnt, thick, psi, dt, endt, wp, fc, res, ords, inv, giuh, soilZ, q, depth, vs, cs, _, _, _, _, _,
    hthick, _, _, _, _, _, _, _, _, _, _, _, _, _, hgeo, hhead, _, hlen, hcs, hs⟩ := lgarInit_inv h
  intro i e r n a k he hr hn ha hk
  rw [hs] at he hr hn ha hk
  simp only [List.getElem?_map, Option.map_eq_some_iff] at he hr hn ha hk
  obtain ⟨x, hx, rfl⟩ := he
  obtain ⟨_, h', rfl⟩ := hr; rw [hx] at h'; obtain rfl := Option.some.inj h'
  obtain ⟨_, h', rfl⟩ := hn; rw [hx] at h'; obtain rfl := Option.some.inj h'
  obtain ⟨_, h', rfl⟩ := ha; rw [hx] at h'; obtain rfl := Option.some.inj h'
  obtain ⟨_, h', rfl⟩ := hk; rw [hx] at h'; obtain rfl := Option.some.inj h'
  have := hp (1 + i) x (by omega) (calibInit_at hcs i x hx)
  exact ⟨this.res, this.gap, this.alpha, this.n, this.ksat⟩

theorem Ready.inputs {s : State ℝ} (h : Ready s) (p e : ℝ) : Ready { s with precipMm := p, petMm := e } :=
  ⟨h.placed, h.nint, h.phys, h.cal⟩

theorem driverStep_finishes {sa : Bool} {f : Forcing ℝ} {i : Nat} {s : State ℝ} (h : Ready s) :
    Finishes fun fuel => driverStep fuel sa f i s := by
  unfold driverStep
  refine .bindC NF.idx.ne fun p _ => .bindC NF.idx.ne fun e _ => .bindC NF.idx.ne fun t _ => ?_
  simp only [set_precip, set_pet, ok_bind]
  refine .bind ((h.inputs p e).finishes sa) fun s2 _ => ?_
  exact .const (NF.bind NF.getValue fun _ _ => NF.bind NF.getValue fun _ _ => NF.bind NF.getAll fun _ _ => NF.pure).ne

theorem driverLoop_finishes {sa : Bool} {f : Forcing ℝ} : ∀ {n i : Nat} {s : State ℝ}, Ready s →
    Finishes fun fuel => driverLoop fuel sa f n i s
  | 0, i, s, h => by simp only [driverLoop]; exact .ok _
  | n + 1, i, s, h => by
    simp only [driverLoop]
    refine .bind (driverStep_finishes h) fun r hr => ?_
    obtain ⟨m, hm⟩ := hr.eventually
    obtain ⟨s2, row⟩ := r
    dsimp only at hm ⊢
    obtain ⟨p, e, _, _, _, hu, _⟩ := driverStep_inv hm
    have h2 : Ready s2 := (h.inputs p e).update hu
    exact .bind (driverLoop_finishes h2) fun _ _ => .pure _

end Reals
end LGAR
