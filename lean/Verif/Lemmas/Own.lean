import Verif.Lemmas.Heap
/-
Helper lemmas: each command of `Own` keeps the ownership invariant and does to the contents what the list functions say.
-/
set_option linter.unusedSectionVars false
namespace LGAR
variable {α : Type}

/-- The invariant of `Own`. -/
def Tidy (o : Own α) : Prop := LogOk o.mem ∧ Finite o.mem ∧ ∃ ns os, Owned o ns os

theorem tidy_start : Tidy (Own.start : Own α) :=
  ⟨fun a => ⟨0, by simp [Own.start]⟩, ⟨0, fun _ _ => rfl⟩, [], [], rfl, rfl, by simp, by simp [Own.start]⟩

theorem IsList.all_of_owned {o : Own α} {ns os : List (Nat × Front α)} (h : Owned o ns os) {a : Nat}
    (h1 : a ∉ addrs ns) (h2 : a ∉ addrs os) : o.mem.cell a = none := by
  cases hc : o.mem.cell a with
  | none => rfl
  | some n => rcases h.2.2.2 a (by rw [hc]; rfl) with e | e <;> contradiction

/-- The two lists of an object, not sharing a node, in a memory that may hold other nodes. -/
def Holds (o : Own α) (ns os : List (Nat × Front α)) : Prop :=
  IsList o.mem o.head ns ∧ IsList o.mem o.prev os ∧ ∀ a ∈ addrs ns, a ∉ addrs os

/-- From memory `m` to `m'` only the nodes `xs` were touched and became the nodes `ys`: nothing else changed, what was in
`xs` and is not in `ys` is released, and what is new in `ys` was free. -/
def Touches (m m' : Mem α) (xs ys : Nat → Prop) : Prop :=
  (∀ a, ¬ xs a → ¬ ys a → m'.cell a = m.cell a) ∧ (∀ a, xs a → ¬ ys a → m'.cell a = none) ∧
  ∀ a, ys a → ¬ xs a → m.cell a = none

theorem exec_frame [Zero α] (A : Alloc α) (hA : A.Fresh) (o : Own α) (c : Cmd α) (hl : LogOk o.mem) (hfin : Finite o.mem)
    {ns os : List (Nat × Front α)} (h : Holds o ns os) :
    Calm (o.exec A c) fun o' => LogOk o'.mem ∧ Finite o'.mem ∧ ∃ ns' os', Holds o' ns' os' ∧
      c.Does (vals ns, vals os) (vals ns', vals os') ∧ (c ≠ .snapshot → os' = os) ∧
      Touches o.mem o'.mem (fun a => a ∈ addrs ns ∨ a ∈ addrs os) (fun a => a ∈ addrs ns' ∨ a ∈ addrs os') := by
  have h0 := h
  obtain ⟨hh, hp, hd⟩ := h
  cases c with
  | snapshot =>
    -- the old snapshot goes
    have hdel : ∃ m, (match o.prev with
        | none => (.ok o.mem : Res (Mem α))
        | some a => hDelete o.mem.bound o.mem (some a)) = .ok m ∧
        (∀ a, m.cell a = if a ∈ addrs os then none else o.mem.cell a) ∧ LogOk m := by
      cases hpr : o.prev with
      | none =>
        rw [hpr] at hp
        obtain rfl : os = [] := by
          cases os with
          | nil => rfl
          | cons y s => cases (show (none : Option Nat) = some y.1 from hp.1)
        exact ⟨o.mem, rfl, by simp, hl⟩
      | some a =>
        rw [hpr] at hp
        obtain ⟨m, e, c, -, k⟩ := hDelete_spec hp (hp.bound hl)
        exact ⟨m, e, c, k hl⟩
    obtain ⟨m, em, cm, lm⟩ := hdel
    have hh' : IsList m o.head ns := hh.congr fun a ha => by rw [cm a, if_neg (hd a ha)]
    have fm : Finite m := hfin.of_le fun a ha => by rw [cm a]; split <;> [rfl; exact ha]
    obtain ⟨p', m', os', e, l, v, fr, f', fin', k'⟩ := hCopy_spec hA hh' fm (hh'.bound lm)
    refine Calm.of_ok ⟨{ mem := m', head := o.head, prev := p' }, ?_, k' lm, fin', ns, os', ⟨?_, l, ?_⟩, ?_,
      fun hc => absurd rfl hc, ?_, ?_, ?_⟩
    · cases hpr : o.prev with
      | none =>
        rw [hpr] at em
        simp only [Own.exec, hpr, em, ok_bind, e, pure_eq_ok]
      | some a =>
        rw [hpr] at em
        simp only [Own.exec, hpr, em, ok_bind, e, pure_eq_ok]
    · refine hh'.congr fun a ha => f' a fun hb => ?_
      obtain ⟨n, hn⟩ := hh'.live ha
      rw [fr a hb] at hn; cases hn
    · intro a ha hb
      obtain ⟨n, hn⟩ := hh'.live ha
      rw [fr a hb] at hn; cases hn
    · change (vals ns, vals os') = (vals ns, listCopy (vals ns))
      rw [listCopy_eq, v]
    · intro a ha hb
      rw [not_or] at ha hb
      show m'.cell a = _
      rw [f' a hb.2, cm a, if_neg ha.2]
    · intro a ha hb
      rw [not_or] at hb
      show m'.cell a = none
      rw [f' a hb.2, cm a, if_pos (ha.resolve_left hb.1)]
    · intro a ha hb
      rw [not_or] at hb
      have := fr a (ha.resolve_left hb.1)
      rwa [cm a, if_neg hb.2] at this
  | insertFirst d t n ly b =>
    obtain ⟨w, m', ns', psi0, K0, e, l, ea, v, hw, f', fin', k'⟩ := hInsertFirst_spec hA hh hfin (hh.bound hl) d t n ly b
    have hwo : w ∉ addrs os := fun hb => by
      obtain ⟨n, hn⟩ := hp.live hb
      rw [hw] at hn; cases hn
    refine Calm.of_ok ⟨{ o with mem := m', head := some w }, ?_, k' hl, fin', ns', os, ⟨l, ?_, ?_⟩,
      ⟨psi0, K0, ?_⟩, fun _ => rfl, ?_, ?_, ?_⟩
    · unfold Own.exec; simp only [e, ok_bind]; rfl
    · refine hp.congr fun a ha => f' a (fun e => hwo (e ▸ ha)) fun hb => hd a hb ha
    · intro a ha
      rw [ea] at ha
      rcases List.mem_cons.mp ha with e | e
      · exact e ▸ hwo
      · exact hd a e
    · rw [v]
    · intro a ha hb
      rw [ea] at hb
      simp only [List.mem_cons, not_or] at ha hb
      exact f' a hb.1.1 ha.1
    · intro a ha hb
      rw [ea] at hb
      simp only [List.mem_cons, not_or] at hb
      tauto
    · intro a ha hb
      rw [ea] at ha
      simp only [List.mem_cons] at ha
      have : a = w := by tauto
      rw [this, hw]
  | insertFront d t n ly b =>
    cases hd0 : ns with
    | nil =>
      subst hd0
      have hhead : o.head = none := hh
      by_cases hn : n = 1
      · have hfr := hfin.fresh hA
        set w := A.pick o.mem with hw
        set m1 := (o.mem.malloc A).2 with hm1
        have em : o.mem.malloc A = (w, m1) := rfl
        have c1 : ∀ b, b ≠ w → m1.cell b = o.mem.cell b := fun b hb => by simp [hm1, Mem.malloc, Mem.put, ← hw, hb]
        have c1w : m1.cell w = some (A.junk o.mem) := by simp [hm1, Mem.malloc, Mem.put, ← hw]
        have hwo : w ∉ addrs os := fun hb => by
          obtain ⟨n, hn⟩ := hp.live hb
          rw [hfr] at hn; cases hn
        refine Calm.of_ok ⟨{ o with mem := m1.put w ⟨newNode A o.mem d t n ly b, none⟩, head := some w }, ?_,
          (LogOk.malloc hl hfr).put c1w, Finite.put hfin.malloc, [(w, newNode A o.mem d t n ly b)], os,
          ⟨⟨rfl, none, Mem.put_self .., rfl⟩, ?_, ?_⟩, ⟨(A.junk o.mem).f.psi, (A.junk o.mem).f.K, some 0,
            [newNode A o.mem d t n ly b], ?_, rfl⟩, fun _ => rfl, ?_, ?_, ?_⟩
        · unfold Own.exec
          simp only [hhead, hInsertFront, hn, if_true, em, Mem.load_some c1w, ok_bind, Mem.store_some c1w]
          rfl
        · refine hp.congr fun a ha => ?_
          have : a ≠ w := fun e => hwo (e ▸ ha)
          exact (Mem.put_ne _ _ this).trans (c1 a this)
        · intro a ha
          have : a = w := by simpa using ha
          exact this ▸ hwo
        · simp [listInsertFront, hn, newNode]
        · intro a ha hb
          have : a ≠ w := fun e => hb (Or.inl (by simp [e]))
          exact (Mem.put_ne _ _ this).trans (c1 a this)
        · intro a ha hb
          exact absurd (ha.resolve_left (by simp)) fun e => hb (Or.inr e)
        · intro a ha hb
          have : a = w := by
            rcases ha with h | h
            · simpa using h
            · exact absurd (Or.inr h) hb
          rw [this]; exact hfr
      · refine Calm.of_ok ⟨o, ?_, hl, hfin, [], os, h0, ⟨(A.junk o.mem).f.psi, (A.junk o.mem).f.K, none, [], ?_, rfl⟩,
          fun _ => rfl, fun _ _ _ => rfl, fun _ x y => absurd x y, fun _ x y => absurd x y⟩
        · unfold Own.exec
          simp only [hhead, hInsertFront, hn, if_false, ok_bind, pure_eq_ok]
          congr 1
          cases o; simp_all
        · simp [listInsertFront, hn]
    | cons x t' =>
      rw [← hd0]
      have hhead : o.head = some x.1 := by rw [hd0] at hh; exact hh.1
      by_cases hex : ∃ y ∈ ns, y.2.front = n - 1
      · obtain ⟨s, c, f, r, hns, hk, hs⟩ := first_split hex
        rw [hns] at hh hd
        have hbd := hh.bound hl
        obtain ⟨i1, i2⟩ := hInsertGo_spec hA (depth := d) (theta := t) (layer := ly) (bottom := b) hh hs hk hfin
          (fuel := o.mem.bound) (by simp at hbd; omega)
        by_cases hr : r = []
        · obtain ⟨w, m', e, l', hw, f', fin', k'⟩ := i2 hr
          subst hr
          have hwo : w ∉ addrs os := fun hb => by
            obtain ⟨n, hn⟩ := hp.live hb
            rw [hw] at hn; cases hn
          have hcn : c ∈ addrs (s ++ [(c, f)]) := by simp
          refine Calm.of_ok ⟨{ o with mem := m' }, ?_, k' hl, fin',
            s ++ [(c, f), (w, newNode A o.mem d t n ly b)], os, ⟨l', ?_, ?_⟩, ?_, fun _ => rfl, ?_, ?_, ?_⟩
          · unfold Own.exec
            rw [hhead] at e
            simp only [hhead, hInsertFront, e, ok_bind, pure_eq_ok]
          · refine hp.congr fun a ha => f' a (fun e => hwo (e ▸ ha)) fun e => hd c hcn (e ▸ ha)
          · intro a ha
            have : a ∈ addrs (s ++ [(c, f)]) ∨ a = w := by
              simp only [addrs, List.map_append, List.map_cons, List.mem_append, List.mem_cons, List.map_nil,
                List.mem_nil_iff, or_false] at ha ⊢
              tauto
            rcases this with h | h
            · exact hd a h
            · exact h ▸ hwo
          · refine ⟨(A.junk o.mem).f.psi, (A.junk o.mem).f.K, some (vals ns).length,
              vals s ++ [f, newNode A o.mem d t n ly b], ?_, ?_⟩
            · have e1 : vals ns = vals s ++ [f] := by rw [hns]; simp [vals]
              have e2 : ∀ g ∈ vals s, g.front ≠ n - 1 := fun g hg => by
                obtain ⟨y, hy, rfl⟩ := List.mem_map.mp hg
                exact hs y hy
              have e3 : insertGo (newNode A o.mem d t n ly b) (vals s ++ [f]) =
                  .ok (vals s ++ [f, newNode A o.mem d t n ly b]) := by
                have := insertGo_split (link := newNode A o.mem d t n ly b) (p := f) (a := vals s) (b := []) hk e2
                simpa using this
              change listInsertFront _ _ d t n ly b (vals ns) = _
              rw [e1]
              unfold listInsertFront
              cases hv : vals s ++ [f] with
              | nil => simp at hv
              | cons g gs =>
                simp only
                rw [← hv]
                rw [show ({ depth := d, theta := t, psi := (A.junk o.mem).f.psi, K := (A.junk o.mem).f.K, layer := ly,
                            front := n, toBottom := b, dzdt := 0 } : Front α) = newNode A o.mem d t n ly b from rfl, e3]
                simp
            · simp [vals]
          · intro a ha hb
            rw [hns] at ha
            simp only [addrs, List.map_append, List.map_cons, List.mem_append, List.mem_cons, List.map_nil,
              List.mem_nil_iff, or_false, not_or] at ha hb
            exact f' a hb.1.2.2 hb.1.2.1
          · intro a ha hb
            rw [hns] at ha
            simp only [addrs, List.map_append, List.map_cons, List.mem_append, List.mem_cons, List.map_nil,
              List.mem_nil_iff, or_false, not_or] at ha hb
            tauto
          · intro a ha hb
            rw [hns] at hb
            simp only [addrs, List.map_append, List.map_cons, List.mem_append, List.mem_cons, List.map_nil,
              List.mem_nil_iff, or_false, not_or] at ha hb
            have : a = w := by tauto
            rw [this, hw]
        · obtain ⟨w, e⟩ := i1 hr
          unfold Own.exec
          rw [hhead] at e
          simp only [hhead, hInsertFront, e, error_bind]
          exact ⟨by simp, by simp⟩
      · push Not at hex
        have e := hInsertGo_none (A := A) (depth := d) (theta := t) (layer := ly) (bottom := b) hh hex (hh.bound hl)
        unfold Own.exec
        rw [hhead] at e
        simp only [hhead, hInsertFront, e, error_bind]
        exact ⟨by simp, by simp⟩
  | deleteFront k =>
    by_cases hex : ∃ y ∈ ns, y.2.front = k
    · obtain ⟨s, c, f, r, hns, hk, hs⟩ := first_split hex
      rw [hns] at hh hd
      have hnd := hh.nodup
      obtain ⟨q, p', m', e, l', -, hc, f', g', k'⟩ := hDeleteFront_spec hh hs hk (hh.bound hl)
      have hadd : ∀ a, a ∈ addrs (s ++ decNodes r) ↔ a ∈ addrs s ∨ a ∈ addrs r := by
        intro a
        have := addrs_decNodes r
        simp only [addrs] at this ⊢
        rw [List.map_append, this, List.mem_append]
      have hadd0 : ∀ a, a ∈ addrs (s ++ (c, f) :: r) ↔ a ∈ addrs s ∨ a = c ∨ a ∈ addrs r := by
        intro a
        simp only [addrs, List.map_append, List.map_cons, List.mem_append, List.mem_cons]
      refine Calm.of_ok ⟨{ o with mem := m', head := p' }, ?_, k' hl, ?_, s ++ decNodes r, os, ⟨l', ?_, ?_⟩, ?_,
        fun _ => rfl, ?_, ?_, ?_⟩
      · unfold Own.exec; simp only [e, ok_bind]; rfl
      · refine hfin.of_le fun a ha => ?_
        by_cases hm : a ∈ addrs (s ++ (c, f) :: r)
        · obtain ⟨n, hn⟩ := hh.live hm
          rw [ha] at hn; cases hn
        · show m'.cell a = none
          rw [f' a hm]; exact ha
      · exact hp.congr fun a ha => f' a fun hb => hd a hb ha
      · intro a ha
        exact hd a ((hadd0 a).mpr (((hadd a).mp ha).imp id Or.inr))
      · refine ⟨s.length, vals s ++ decFronts (vals r), ?_, ?_⟩
        · change listDeleteFront k (vals ns) = _
          rw [hns, show vals (s ++ (c, f) :: r) = vals s ++ f :: vals r by simp [vals]]
          rw [listDeleteFront_split hk (fun g hg => by
            obtain ⟨x, hx, rfl⟩ := List.mem_map.mp hg
            exact hs x hx)]
          simp [decFronts]
        · rw [← vals_decNodes]; simp [vals]
      · intro a ha hb
        rw [hns] at ha
        exact f' a fun hm => ha (Or.inl hm)
      · intro a ha hb
        rw [hns, hadd0] at ha
        simp only [hadd] at hb
        have : a = c := by tauto
        rw [this]; exact hc
      · intro a ha hb
        rw [hns] at hb
        simp only [hadd0] at hb
        rw [hadd] at ha
        tauto
    · push Not at hex
      simp only [Own.exec, hDeleteFront_absent hh hex (hh.bound hl), error_bind]
      exact ⟨by simp, by simp⟩
  | write i u =>
    obtain ⟨i1, i2⟩ := hWrite_spec (u := u) hh i
    rcases Nat.lt_or_ge i ns.length with hi | hi
    · obtain ⟨m', e, l', f', g', k'⟩ := i2 ns[i].1 ns[i].2 (by simp [hi])
      have hmem : ns[i].1 ∈ addrs ns := List.mem_map.mpr ⟨_, List.getElem_mem hi, rfl⟩
      have hset : addrs (ns.set i (ns[i].1, u ns[i].2)) = addrs ns := by
        simp only [addrs, List.map_set]
        rw [show (ns[i].1) = (ns.map Prod.fst)[i]'(by simpa using hi) by simp]
        exact List.set_getElem_self ..
      refine Calm.of_ok ⟨{ o with mem := m' }, ?_, k' hl, ?_, _, os, ⟨l', ?_, ?_⟩, ⟨ns[i].2, ?_, ?_⟩, fun _ => rfl,
        ?_, ?_, ?_⟩
      · unfold Own.exec; simp only [e, ok_bind]; rfl
      · refine hfin.of_le fun a ha => ?_
        have : a ≠ ns[i].1 := by
          rintro rfl
          obtain ⟨n, hn⟩ := hh.live hmem
          rw [ha] at hn; cases hn
        show m'.cell a = none
        rw [f' a this]; exact ha
      · exact hp.congr fun a ha => f' a fun e => hd _ hmem (e ▸ ha)
      · rw [hset]; exact hd
      · simp [vals, hi]
      · simp [vals, List.map_set]
      · intro a ha hb
        exact f' a fun e => ha (Or.inl (e ▸ hmem))
      · intro a ha hb
        rw [hset] at hb
        exact absurd ha hb
      · intro a ha hb
        rw [hset] at ha
        exact absurd ha hb
    · obtain ⟨w, e⟩ := i1 hi
      simp only [Own.exec, e, error_bind]
      exact ⟨by simp, by simp⟩

theorem exec_spec [Zero α] (A : Alloc α) (hA : A.Fresh) (o : Own α) (c : Cmd α) (hl : LogOk o.mem) (hfin : Finite o.mem)
    {ns os : List (Nat × Front α)} (h : Owned o ns os) :
    Calm (o.exec A c) fun o' => LogOk o'.mem ∧ Finite o'.mem ∧ ∃ ns' os', Owned o' ns' os' ∧
      c.Does (vals ns, vals os) (vals ns', vals os') ∧ (c ≠ .snapshot → os' = os) := by
  have := exec_frame A hA o c hl hfin (ns := ns) (os := os) ⟨h.1, h.2.1, h.2.2.1⟩
  revert this
  cases o.exec A c with
  | error e => exact id
  | ok o' =>
    rintro ⟨hl', hf', ns', os', ⟨h1, h2, h3⟩, hd, hs, t1, t2, -⟩
    refine ⟨hl', hf', ns', os', ⟨h1, h2, h3, fun a ha => ?_⟩, hd, hs⟩
    by_contra hn
    by_cases hx : a ∈ addrs ns ∨ a ∈ addrs os
    · rw [t2 a hx hn] at ha; cases ha
    · rw [t1 a hx hn] at ha; exact hx (h.2.2.2 a ha)

theorem run_spec [Zero α] (A : Alloc α) (hA : A.Fresh) (cs : List (Cmd α)) (o : Own α) (hl : LogOk o.mem)
    (hfin : Finite o.mem) {ns os : List (Nat × Front α)} (h : Owned o ns os) :
    Calm (Own.run A cs o) fun o' => LogOk o'.mem ∧ Finite o'.mem ∧ ∃ ns' os', Owned o' ns' os' ∧
      Cmd.DoesAll cs (vals ns, vals os) (vals ns', vals os') ∧ ((∀ c ∈ cs, c ≠ .snapshot) → os' = os) := by
  induction cs generalizing o ns os with
  | nil => exact ⟨hl, hfin, ns, os, h, rfl, fun _ => rfl⟩
  | cons c cs ih =>
    unfold Own.run
    refine Calm.bind _ (exec_spec A hA o c hl hfin h) ?_
    rintro o' ⟨hl', hfin', ns', os', h', hd, hs⟩
    have := ih o' hl' hfin' h'
    revert this
    cases Own.run A cs o' with
    | error e => exact id
    | ok o2 =>
      rintro ⟨hl2, hfin2, ns2, os2, h2, hd2, hs2⟩
      refine ⟨hl2, hfin2, ns2, os2, h2, ⟨_, hd, hd2⟩, fun hc => ?_⟩
      rw [hs2 fun c hm => hc c (List.mem_cons_of_mem _ hm), hs (hc c (List.mem_cons_self ..))]

end LGAR
