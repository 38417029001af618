import Verif.Model.Blocks
import Verif.Spec.Heap
import Verif.Lemmas.Tools
/-
Lemmas about the lifetime of arrays: which variables hold a live address of their own after each kind of call.
-/
namespace LGAR

/-- The history at each address: complete pairs, then one more `malloc` if the address is in use. -/
def BlockLog (m : Store) : Prop :=
  ∀ a, ∃ k, m.log.filter (fun e => e.addr == a) =
    (List.replicate k [Ev.malloc a, Ev.free a]).flatten ++ (if a ∈ m.live then [Ev.malloc a] else [])

/-- The variables in `P` hold live addresses, no two the same. -/
structure Held (m : Store) (P : Block → Prop) : Prop where
  nodup : m.live.Nodup
  log : BlockLog m
  live : ∀ b, P b → ∃ a ∈ m.live, m.ptr b = .addr a
  inj : ∀ b c, P b → P c → m.ptr b = m.ptr c → b = c
  /-- The two arrays of the object are nullptr or held. -/
  obj : ∀ b, b = .objOrdinates ∨ b = .objQueue → m.ptr b = .null ∨ P b

theorem Held.congr {m : Store} {P Q : Block → Prop} (h : Held m P) (e : ∀ b, Q b ↔ P b) : Held m Q := by
  obtain rfl : Q = P := funext fun b => propext (e b)
  exact h

theorem held_construct : Held Store.construct fun _ => False where
  nodup := by simp [Store.construct]
  log := fun a => ⟨0, by simp [Store.construct]⟩
  live := by simp
  inj := by simp
  obj := by
    intro b hb
    rcases hb with rfl | rfl <;> exact .inl rfl

theorem reach_ok {m : Store} {P : Block → Prop} (h : Held m P) {b : Block} (hb : b.inObject = true ∨ P .state) :
    m.reach b = .ok () := by
  unfold Store.reach
  split
  · rfl
  · obtain ⟨a, ha, e⟩ := h.live .state (hb.resolve_left ‹_›)
    simp only [e, if_pos ha]

theorem replicate_snoc (k : Nat) (a : Nat) :
    (List.replicate k [Ev.malloc a, Ev.free a]).flatten ++ [Ev.malloc a] ++ [Ev.free a] =
      (List.replicate (k + 1) [Ev.malloc a, Ev.free a]).flatten := by
  rw [List.replicate_succ', List.flatten_append]
  simp

theorem new_ok (pick : Store → Nat) (m : Store) (b : Block) (hr : m.reach b = .ok ()) :
    ∃ m', m.new pick b = .ok m' ∧ m'.live = pick m :: m.live ∧ m'.log = m.log ++ [.malloc (pick m)] ∧
      m'.ptr = fun c => if c = b then .addr (pick m) else if b = .state ∧ c.inObject = false then .unset else m.ptr c := by
  refine ⟨⟨fun c => if c = b then .addr (pick m) else if b = .state ∧ c.inObject = false then .unset else m.ptr c,
    pick m :: m.live, m.log ++ [.malloc (pick m)]⟩, ?_, rfl, rfl, rfl⟩
  unfold Store.new
  rw [hr]
  rfl

theorem log_new {m m' : Store} {a : Nat} (h : BlockLog m) (ha : a ∉ m.live) (hl : m'.live = a :: m.live)
    (hg : m'.log = m.log ++ [.malloc a]) : BlockLog m' := by
  intro c
  obtain ⟨k, hk⟩ := h c
  refine ⟨k, ?_⟩
  rw [hg, List.filter_append, hk, hl]
  by_cases hc : c = a
  · subst hc
    simp [Ev.addr, ha]
  · have : (a == c) = false := by simpa using fun e : a = c => hc e.symm
    simp [Ev.addr, hc, this]

/-- `new` for a variable other than `state`. -/
theorem Held.new {pick : Store → Nat} (hp : ∀ m, pick m ∉ m.live) {m : Store} {P : Block → Prop} (h : Held m P) {b : Block}
    (hb : b.inObject = true ∨ P .state) (hs : b ≠ .state) :
    ∃ m', m.new pick b = .ok m' ∧ Held m' (fun c => P c ∨ c = b) ∧ m'.live.length = m.live.length + 1 := by
  obtain ⟨m', e, hl, hg, hptr⟩ := new_ok pick m b (reach_ok h hb)
  have hold : ∀ c, c ≠ b → m'.ptr c = m.ptr c := by
    intro c hc
    rw [hptr]
    simp [hc, hs]
  have hnew : m'.ptr b = .addr (pick m) := by rw [hptr]; simp
  have hne : ∀ c, P c → c ≠ b → m.ptr c ≠ .addr (pick m) := by
    intro c hc _ e
    obtain ⟨a, ha, e'⟩ := h.live c hc
    rw [e, Ptr.addr.injEq] at e'
    exact hp m (e' ▸ ha)
  refine ⟨m', e, ⟨?_, log_new h.log (hp m) hl hg, ?_, ?_, ?_⟩, by rw [hl]; rfl⟩
  · rw [hl]; exact List.nodup_cons.mpr ⟨hp m, h.nodup⟩
  · intro c hc
    by_cases hcb : c = b
    · subst hcb; exact ⟨_, by rw [hl]; exact List.mem_cons_self, hnew⟩
    · obtain ⟨a, ha, e'⟩ := h.live c (hc.resolve_right hcb)
      exact ⟨a, by rw [hl]; exact List.mem_cons_of_mem _ ha, by rw [hold c hcb, e']⟩
  · intro c d hc hd e'
    by_cases hcb : c = b <;> by_cases hdb : d = b
    · rw [hcb, hdb]
    · rw [hcb, hnew, hold d hdb] at e'
      exact absurd e'.symm (hne d (hd.resolve_right hdb) hdb)
    · rw [hdb, hnew, hold c hcb] at e'
      exact absurd e' (hne c (hc.resolve_right hcb) hcb)
    · rw [hold c hcb, hold d hdb] at e'
      exact h.inj c d (hc.resolve_right hcb) (hd.resolve_right hdb) e'
  · intro c hc
    by_cases hcb : c = b
    · exact .inr (.inr hcb)
    · rw [hold c hcb]
      exact (h.obj c hc).imp_right .inl

/-- `new` for `state`: the members of the structure become uninitialised. -/
theorem Held.newState {pick : Store → Nat} (hp : ∀ m, pick m ∉ m.live) {m : Store} {P : Block → Prop} (h : Held m P) :
    ∃ m', m.new pick .state = .ok m' ∧ Held m' (fun c => (P c ∧ c.inObject = true) ∨ c = .state) ∧
      m'.live.length = m.live.length + 1 := by
  obtain ⟨m', e, hl, hg, hptr⟩ := new_ok pick m .state (reach_ok h (.inl rfl))
  have hold : ∀ c, c ≠ .state → c.inObject = true → m'.ptr c = m.ptr c := by
    intro c hc hi
    rw [hptr]
    simp [hc, hi]
  have hnew : m'.ptr .state = .addr (pick m) := by rw [hptr]; simp
  have hne : ∀ c, P c → m.ptr c ≠ .addr (pick m) := by
    intro c hc e
    obtain ⟨a, ha, e'⟩ := h.live c hc
    rw [e, Ptr.addr.injEq] at e'
    exact hp m (e' ▸ ha)
  refine ⟨m', e, ⟨?_, log_new h.log (hp m) hl hg, ?_, ?_, ?_⟩, by rw [hl]; rfl⟩
  · rw [hl]; exact List.nodup_cons.mpr ⟨hp m, h.nodup⟩
  · intro c hc
    by_cases hcb : c = .state
    · subst hcb; exact ⟨_, by rw [hl]; exact List.mem_cons_self, hnew⟩
    · have hc := hc.resolve_right hcb
      obtain ⟨a, ha, e'⟩ := h.live c hc.1
      exact ⟨a, by rw [hl]; exact List.mem_cons_of_mem _ ha, by rw [hold c hcb hc.2, e']⟩
  · intro c d hc hd e'
    by_cases hcb : c = .state <;> by_cases hdb : d = .state
    · rw [hcb, hdb]
    · have hd := hd.resolve_right hdb
      rw [hcb, hnew, hold d hdb hd.2] at e'
      exact absurd e'.symm (hne d hd.1)
    · have hc := hc.resolve_right hcb
      rw [hdb, hnew, hold c hcb hc.2] at e'
      exact absurd e' (hne c hc.1)
    · have hd := hd.resolve_right hdb
      have hc := hc.resolve_right hcb
      rw [hold c hcb hc.2, hold d hdb hd.2] at e'
      exact h.inj c d hc.1 hd.1 e'
  · intro c hc
    have hi : c.inObject = true := by rcases hc with rfl | rfl <;> rfl
    have hs : c ≠ .state := by rcases hc with rfl | rfl <;> simp
    rw [hold c hs hi]
    exact (h.obj c hc).imp_right fun hP => .inl ⟨hP, hi⟩

/-- Several `new` for members of `*state` and the arrays of the object. -/
theorem Held.news {pick : Store → Nat} (hp : ∀ m, pick m ∉ m.live) {bs : List Block} (hs : Block.state ∉ bs) :
    ∀ {m : Store} {P : Block → Prop}, Held m P → P .state →
    ∃ m', m.news pick bs = .ok m' ∧ Held m' (fun c => P c ∨ c ∈ bs) ∧ m'.live.length = m.live.length + bs.length := by
  induction bs with
  | nil => intro m P h _; exact ⟨m, rfl, h.congr (by simp), rfl⟩
  | cons b bs ih =>
    intro m P h hst
    rw [List.mem_cons, not_or] at hs
    obtain ⟨m1, e1, h1, l1⟩ := h.new hp (b := b) (.inr hst) (Ne.symm hs.1)
    obtain ⟨m2, e2, h2, l2⟩ := ih hs.2 h1 (.inl hst)
    refine ⟨m2, by rw [Store.news, e1]; exact e2, h2.congr fun c => by simp [or_assoc], ?_⟩
    rw [l2, l1, List.length_cons]; omega

theorem log_del {m m' : Store} {a : Nat} (h : BlockLog m) (ha : a ∈ m.live) (hn : m.live.Nodup) (hl : m'.live = m.live.erase a)
    (hg : m'.log = m.log ++ [.free a]) : BlockLog m' := by
  intro c
  obtain ⟨k, hk⟩ := h c
  by_cases hc : c = a
  · subst hc
    refine ⟨k + 1, ?_⟩
    rw [hg, List.filter_append, hk, hl, if_pos ha, if_neg (hn.not_mem_erase), ← replicate_snoc]
    simp [Ev.addr]
  · refine ⟨k, ?_⟩
    have h1 : (a == c) = false := by simpa using fun e : a = c => hc e.symm
    have h2 : c ∈ m.live.erase a ↔ c ∈ m.live := List.mem_erase_of_ne hc
    rw [hg, List.filter_append, hk, hl]
    simp [Ev.addr, h1, h2]

/-- `delete` for a held variable. -/
theorem Held.del {m : Store} {P : Block → Prop} (h : Held m P) {b : Block} (hb : b.inObject = true ∨ P .state) (hP : P b)
    (ho : b ≠ .objOrdinates ∧ b ≠ .objQueue) :
    ∃ m', m.del b = .ok m' ∧ Held m' (fun c => P c ∧ c ≠ b) ∧ m'.live.length + 1 = m.live.length := by
  obtain ⟨a, ha, e⟩ := h.live b hP
  have hlen : (m.live.erase a).length + 1 = m.live.length := by
    rw [List.length_erase_of_mem ha]
    have := List.length_pos_of_mem ha
    omega
  refine ⟨{ m with live := m.live.erase a, log := m.log ++ [.free a] }, ?_, ⟨h.nodup.erase a, log_del h.log ha h.nodup rfl rfl, ?_, ?_, ?_⟩, hlen⟩
  · unfold Store.del
    rw [reach_ok h hb, ok_bind, e]
    simp only [if_pos ha]
  · intro c hc
    obtain ⟨a', ha', e'⟩ := h.live c hc.1
    refine ⟨a', (List.mem_erase_of_ne ?_).mpr ha', e'⟩
    rintro rfl
    exact hc.2 (h.inj c b hc.1 hP (e'.trans e.symm))
  · intro c d hc hd e'
    exact h.inj c d hc.1 hd.1 e'
  · intro c hc
    refine (h.obj c hc).imp_right fun hPc => ⟨hPc, ?_⟩
    rintro rfl
    exact hc.elim ho.1 ho.2

/-- Several `delete` of different held members of `*state`. -/
theorem Held.dels {bs : List Block} (hn : bs.Nodup) (hs : ∀ b ∈ bs, b.inObject = false) :
    ∀ {m : Store} {P : Block → Prop}, Held m P → P .state → (∀ b ∈ bs, P b) →
    ∃ m', m.dels bs = .ok m' ∧ Held m' (fun c => P c ∧ c ∉ bs) ∧ m'.live.length + bs.length = m.live.length := by
  induction bs with
  | nil => intro m P h _ _; exact ⟨m, rfl, h.congr (by simp), rfl⟩
  | cons b bs ih =>
    intro m P h hst hP
    rw [List.nodup_cons] at hn
    have hb := hs b List.mem_cons_self
    obtain ⟨m1, e1, h1, l1⟩ := h.del (b := b) (.inr hst) (hP b List.mem_cons_self)
      ⟨(by rintro rfl; cases hb), (by rintro rfl; cases hb)⟩
    obtain ⟨m2, e2, h2, l2⟩ := ih hn.2 (fun c hc => hs c (List.mem_cons_of_mem _ hc)) h1
      ⟨hst, by rintro rfl; cases hb⟩
      (fun c hc => ⟨hP c (List.mem_cons_of_mem _ hc), by rintro rfl; exact hn.1 hc⟩)
    refine ⟨m2, by rw [Store.dels, e1]; exact e2, h2.congr fun c => by simp [and_assoc], ?_⟩
    rw [List.length_cons]; omega

theorem news_append (pick : Store → Nat) (m : Store) (bs cs : List Block) :
    m.news pick (bs ++ cs) = (m.news pick bs >>= fun m => m.news pick cs) := by
  induction bs generalizing m with
  | nil => rfl
  | cons b bs ih =>
    simp only [List.cons_append, Store.news]
    cases m.new pick b with
    | error e => rfl
    | ok m1 => exact ih m1

theorem dels_append (m : Store) (bs cs : List Block) : m.dels (bs ++ cs) = (m.dels bs >>= fun m => m.dels cs) := by
  induction bs generalizing m with
  | nil => rfl
  | cons b bs ih =>
    simp only [List.cons_append, Store.dels]
    cases m.del b with
    | error e => rfl
    | ok m1 => exact ih m1

theorem lineBlocks_ne {line : List Char} {b : Block} (h : b ∈ lineBlocks line) : b.inObject = false := by
  unfold lineBlocks at h
  split at h <;> simp at h
  · rcases h with rfl | rfl <;> rfl
  · subst h; rfl
  · subst h; rfl

/-- Initialize from any state of the object. -/
theorem Held.initialize {pick : Store → Nat} (hp : ∀ m, pick m ∉ m.live) (lines : List (List Char)) (coupled : Bool)
    {m : Store} {P : Block → Prop} (h : Held m P) :
    ∃ m', m.initialize pick lines coupled = .ok m' ∧
      Held m' (fun c => c = .state ∨ c ∈ lines.flatMap lineBlocks ∨ c ∈ initBlocks coupled) ∧
      m'.live.length = m.live.length + 1 + (lines.flatMap lineBlocks).length + (initBlocks coupled).length := by
  obtain ⟨m1, e1, h1, l1⟩ := h.newState hp
  obtain ⟨m2, e2, h2, l2⟩ := h1.news hp (bs := lines.flatMap lineBlocks ++ initBlocks coupled) (by
    intro hm
    rcases List.mem_append.mp hm with hm | hm
    · obtain ⟨l, -, hl⟩ := List.mem_flatMap.mp hm
      cases lineBlocks_ne hl
    · cases coupled <;> simp [initBlocks] at hm) (.inr rfl)
  refine ⟨m2, ?_, h2.congr fun c => ?_, ?_⟩
  · unfold Store.initialize
    rw [List.cons_append, Store.news, e1]
    exact e2
  · rw [List.mem_append]
    constructor
    · rintro (rfl | hc | hc)
      · exact .inl (.inr rfl)
      · exact .inr (.inl hc)
      · exact .inr (.inr hc)
    · rintro ((⟨-, hc⟩ | rfl) | hc | hc)
      · rcases c with _ | _ | _ <;> first | exact .inl rfl | (cases hc)
        all_goals exact .inr (.inr (by cases coupled <;> decide))
      · exact .inl rfl
      · exact .inr (.inl hc)
      · exact .inr (.inr hc)
  · rw [l2, l1, List.length_append]; omega

/-- realloc_soil. -/
theorem Held.reallocSoil {pick : Store → Nat} (hp : ∀ m, pick m ∉ m.live) {m : Store} {P : Block → Prop} (h : Held m P)
    (hs : P .state) (hd : P .depthWf) (hm : P .moistureWf) :
    ∃ m', m.reallocSoil pick = .ok m' ∧ Held m' P ∧ m'.live.length = m.live.length := by
  obtain ⟨m1, e1, h1, l1⟩ := h.dels (bs := [.depthWf, .moistureWf]) (by decide) (by decide) hs (by simp [hd, hm])
  obtain ⟨m2, e2, h2, l2⟩ := h1.news hp (bs := [.depthWf, .moistureWf]) (by decide) ⟨hs, by decide⟩
  refine ⟨m2, by unfold Store.reallocSoil; rw [e1]; exact e2, h2.congr fun c => ?_, ?_⟩
  · constructor
    · intro hc
      by_cases h' : c ∈ [Block.depthWf, Block.moistureWf]
      · exact .inr h'
      · exact .inl ⟨hc, h'⟩
    · rintro (hc | hc)
      · exact hc.1
      · simp only [List.mem_cons, List.not_mem_nil, or_false] at hc
        rcases hc with rfl | rfl
        · exact hd
        · exact hm
  · simp only [List.length_cons, List.length_nil] at l1 l2
    omega

/-- Update. -/
theorem Held.update {pick : Store → Nat} (hp : ∀ m, pick m ∉ m.live) (invalidSoil : Bool) {m : Store} {P : Block → Prop}
    (h : Held m P) (hs : P .state) (hd : P .depthWf) (hm : P .moistureWf) :
    ∃ m', m.update pick invalidSoil = .ok m' ∧ Held m' P ∧ m'.live.length = m.live.length := by
  unfold Store.update
  cases invalidSoil with
  | true => exact ⟨m, rfl, h, rfl⟩
  | false => exact h.reallocSoil hp hs hd hm

/-- Updates. -/
theorem Held.updates {pick : Store → Nat} (hp : ∀ m, pick m ∉ m.live) (invalidSoil : Bool) (n : Nat) {m : Store}
    {P : Block → Prop} (h : Held m P) (hs : P .state) (hd : P .depthWf) (hm : P .moistureWf) :
    ∃ m', m.updates pick invalidSoil n = .ok m' ∧ Held m' P ∧ m'.live.length = m.live.length := by
  induction n generalizing m with
  | zero => exact ⟨m, rfl, h, rfl⟩
  | succ n ih =>
    obtain ⟨m1, e1, h1, l1⟩ := h.update hp invalidSoil hs hd hm
    obtain ⟨m2, e2, h2, l2⟩ := ih h1
    exact ⟨m2, by rw [Store.updates, e1]; exact e2, h2, l2.trans l1⟩

/-- Finalize, when all members of `*state` are held. -/
theorem Held.finalize {m : Store} {P : Block → Prop} (h : Held m P) (hs : P .state) (hP : ∀ b, b.inObject = false → P b) :
    ∃ m', m.finalize = .ok m' ∧ Held m' (fun c => P c ∧ (c = .objOrdinates ∨ c = .objQueue)) ∧
      m'.live.length + 17 = m.live.length := by
  obtain ⟨m1, e1, h1, l1⟩ := h.dels (bs := [.soils, .depthWf, .moistureWf, .temp, .tempZ, .soilType, .thetaE, .thetaR, .vgN,
    .vgAlpha, .Ksat, .thickness, .cum, .ordinates, .frozen, .input]) (by decide) (by decide) hs
    (fun b hb => hP b ((by decide : ∀ b ∈ [Block.soils, .depthWf, .moistureWf, .temp, .tempZ, .soilType, .thetaE, .thetaR,
      .vgN, .vgAlpha, .Ksat, .thickness, .cum, .ordinates, .frozen, .input], b.inObject = false) b hb))
  obtain ⟨m2, e2, h2, l2⟩ := h1.del (b := .state) (.inl rfl) ⟨hs, by decide⟩ (by decide)
  refine ⟨m2, ?_, h2.congr fun c => ?_, ?_⟩
  · show m.dels ([.soils, .depthWf, .moistureWf, .temp, .tempZ, .soilType, .thetaE, .thetaR, .vgN,
      .vgAlpha, .Ksat, .thickness, .cum, .ordinates, .frozen, .input] ++ [.state]) = _
    rw [dels_append, e1, ok_bind, Store.dels, e2]
    rfl
  · cases c <;> simp
  · simp only [List.length_cons, List.length_nil] at l1
    omega

theorem del_inv {m m' : Store} {b : Block} {a : Nat} (h : m.del b = .ok m') (ha : m.ptr b = .addr a) :
    m'.log = m.log ++ [.free a] ∧ m'.ptr = m.ptr := by
  unfold Store.del at h
  simp only [bind_ok_iff, ha] at h
  obtain ⟨-, -, h⟩ := h
  split at h
  · cases h; exact ⟨rfl, rfl⟩
  · cases h

theorem new_inv {pick : Store → Nat} {m m' : Store} {b : Block} (h : m.new pick b = .ok m') (hs : b ≠ .state) :
    (∃ a, m'.log = m.log ++ [.malloc a]) ∧ ∀ c, c ≠ b → m'.ptr c = m.ptr c := by
  unfold Store.new at h
  simp only [bind_ok_iff] at h
  obtain ⟨-, -, h⟩ := h
  cases h
  exact ⟨⟨_, rfl⟩, fun c hc => by simp [hc, hs]⟩

/-- What realloc_soil does to the history and to the other variables. -/
theorem reallocSoil_inv {pick : Store → Nat} {m m' : Store} (h : m.reallocSoil pick = .ok m') {d w : Nat}
    (hd : m.ptr .depthWf = .addr d) (hw : m.ptr .moistureWf = .addr w) :
    (∃ x y, m'.log = m.log ++ [.free d, .free w, .malloc x, .malloc y]) ∧
    ∀ c, c ≠ .depthWf → c ≠ .moistureWf → m'.ptr c = m.ptr c := by
  unfold Store.reallocSoil at h
  simp only [Store.dels, Store.news, bind_ok_iff, Except.ok.injEq] at h
  obtain ⟨_, ⟨m1, h1, m2, h2, rfl⟩, m3, h3, m4, h4, rfl⟩ := h
  obtain ⟨g1, p1⟩ := del_inv h1 hd
  obtain ⟨g2, p2⟩ := del_inv h2 (by rw [p1, hw])
  obtain ⟨⟨x, g3⟩, p3⟩ := new_inv h3 (by decide)
  obtain ⟨⟨y, g4⟩, p4⟩ := new_inv h4 (by decide)
  refine ⟨⟨x, y, by rw [g4, g3, g2, g1]; simp⟩, fun c hc hc' => ?_⟩
  rw [p4 c hc', p3 c hc, p2, p1]

/-- The destructor releases the two arrays of the object if there are any. -/
theorem Held.destroy {m : Store} {P : Block → Prop} (h : Held m P) :
    ∃ m', m.destroy = .ok m' ∧ BlockLog m' ∧ ((P .objOrdinates ∧ P .objQueue) → m'.live.length + 2 = m.live.length) := by
  have one : ∀ (m : Store) (b : Block), b.inObject = true → m.live.Nodup → BlockLog m →
      (m.ptr b = .null ∨ ∃ a ∈ m.live, m.ptr b = .addr a) →
      ∃ m', m.del b = .ok m' ∧ m'.ptr = m.ptr ∧ m'.live.Nodup ∧ BlockLog m' ∧
        (∀ a, m.ptr b = .addr a → m'.live = m.live.erase a) ∧ (m.ptr b = .null → m'.live = m.live) := by
    intro m b hb hn hlog hc
    have hr : m.reach b = .ok () := by unfold Store.reach; rw [if_pos hb]
    unfold Store.del
    rw [hr, ok_bind]
    rcases hc with e | ⟨a, ha, e⟩
    · rw [e]
      exact ⟨m, rfl, rfl, hn, hlog, by simp, fun _ => rfl⟩
    · rw [e]
      simp only [if_pos ha]
      refine ⟨_, rfl, rfl, hn.erase a, log_del hlog ha hn rfl rfl, ?_, by simp⟩
      intro a' e'
      rw [Ptr.addr.injEq] at e'
      rw [e']
  have cases1 := (h.obj .objOrdinates (.inl rfl)).imp_right (h.live _)
  have cases2 := (h.obj .objQueue (.inr rfl)).imp_right (h.live _)
  obtain ⟨m1, e1, p1, n1, g1, a1, b1⟩ := one m .objOrdinates rfl h.nodup h.log cases1
  have cases3 : m1.ptr .objQueue = .null ∨ ∃ a ∈ m1.live, m1.ptr .objQueue = .addr a := by
    rw [p1]
    refine (h.obj .objQueue (.inr rfl)).imp_right fun hq => ?_
    obtain ⟨a, ha, e⟩ := h.live _ hq
    refine ⟨a, ?_, e⟩
    rcases h.obj .objOrdinates (.inl rfl) with ho | ho
    · rw [b1 ho]; exact ha
    · obtain ⟨a', ha', e'⟩ := h.live _ ho
      rw [a1 a' e']
      refine (List.mem_erase_of_ne ?_).mpr ha
      rintro rfl
      cases h.inj _ _ ho hq (e'.trans e.symm)
  obtain ⟨m2, e2, p2, n2, g2, a2, b2⟩ := one m1 .objQueue rfl n1 g1 cases3
  refine ⟨m2, ?_, g2, ?_⟩
  · unfold Store.destroy
    rw [Store.dels, e1, ok_bind, Store.dels, e2]
    rfl
  · rintro ⟨ho, hq⟩
    obtain ⟨a, ha, e⟩ := h.live _ ho
    obtain ⟨c, hc, e'⟩ := h.live _ hq
    have hne : c ≠ a := by
      rintro rfl
      cases h.inj _ _ ho hq (e.trans e'.symm)
    have hc1 : c ∈ m.live.erase a := (List.mem_erase_of_ne hne).mpr hc
    rw [a2 c (by rw [p1]; exact e'), a1 a e, List.length_erase_of_mem hc1, List.length_erase_of_mem ha]
    have h1 := List.length_pos_of_mem ha
    have h2 := List.length_pos_of_mem hc1
    rw [List.length_erase_of_mem ha] at h2
    omega

end LGAR
