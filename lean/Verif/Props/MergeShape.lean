import Verif.Lemmas.NoFuel
import Verif.Lemmas.SinglePass
import Verif.Spec.Place
import Verif.Spec.Samples
/-
C94: what merging does to the shape of the profile.
-/
namespace LGAR
attribute [-instance] Rat.instOfScientific

/-- The first of two neighbouring fronts of a layer lies deeper than the second, which is not at the bottom of the layer. -/
def Overtakes {α : Type} [LT α] (l : List (Front α)) (i : Nat) : Prop :=
  ∃ c n, l[i]? = some c ∧ l[i + 1]? = some n ∧ c.layer = n.layer ∧ n.depth < c.depth ∧ n.toBottom = false

section Free
variable {α : Type} [Add α] [Sub α] [Mul α] [Div α] [Neg α] [Zero α] [One α] [OfScientific α]
  [LT α] [LE α] [DecidableLT α] [DecidableLE α] [BEq α] [CMath α]

/-- C94, any arithmetic: merging only removes fronts; the layers, moisture values, speeds and marks of those that stay are what they were,
in the same order, and the first front stays. -/
theorem C94_moisture (g : Geo α) (l l' : List (Front α)) (hnum : Consecutive l) (h : mergeFronts g l = .ok l') :
    (l'.map fun f => (f.layer, f.theta, f.dzdt, f.toBottom)).Sublist (l.map fun f => (f.layer, f.theta, f.dzdt, f.toBottom)) ∧
      (l'.head?.map fun f => (f.layer, f.theta)) = l.head?.map fun f => (f.layer, f.theta) := by
  refine (mergeLoop_ind (P := fun m => (m.map fun f => (f.layer, f.theta, f.dzdt, f.toBottom)).Sublist
    (l.map fun f => (f.layer, f.theta, f.dzdt, f.toBottom)) ∧
      (m.head?.map fun f => (f.layer, f.theta)) = l.head?.map fun f => (f.layer, f.theta)) ?_ ((consecutive_iff l).mp hnum)
      ⟨List.Sublist.refl _, rfl⟩ h).2
  intro cur m r hn ⟨hp, hq⟩ hs
  rcases mergeStep_inv hn hs with rfl | ⟨a, c, n, nn, b, d, psi, Kc, rfl, _, _, _, _, _, _, _, rfl⟩
  · exact ⟨hp, hq⟩
  · refine ⟨List.Sublist.trans ?_ hp, ?_⟩
    · simp only [List.map_append, List.map_cons, decFronts, List.map_map]
      refine List.Sublist.append_left (List.Sublist.cons_cons _ (List.Sublist.cons _ ?_)) _
      refine List.Sublist.cons_cons _ ?_
      exact List.Sublist.refl _
    · rw [← hq]
      cases a <;> rfl

/-- The loop from position `cur`, if no merge happens: it ends with the list it started with and every pair from there on was seen. -/
theorem mergeLoop_quiet {g : Geo α} : ∀ {fuel cur : Nat} {l l' : List (Front α)}, NumFrom 1 l →
    mergeLoop g fuel (cur + 1) cur l = .ok l' → l'.length ≤ l.length ∧
      (l'.length = l.length → l' = l ∧ ∀ i, cur ≤ i → ¬ Overtakes l i)
  | 0, _, _, _, _, h => by simp [mergeLoop] at h
  | fuel + 1, cur, l, l', hn, h => by
    unfold mergeLoop at h
    split at h
    · rename_i hlen
      simp only [Except.ok.injEq] at h
      subst h
      refine ⟨le_rfl, fun _ => ⟨rfl, fun i hi ⟨c, n, _, h2, _⟩ => ?_⟩⟩
      have := (List.getElem?_eq_some_iff.mp h2).1
      omega
    · simp only [bind_ok_iff] at h
      obtain ⟨r, hr, h⟩ := h
      have hnum := mergeStep_num hn hr
      have hcase := mergeStep_inv hn hr
      obtain ⟨cur', m⟩ := r
      simp only at h hnum
      rcases hcase with e | ⟨a, c, n, nn, b, d, psi, Kc, rfl, _, _, _, _, _, _, _, e⟩
      · simp only [Prod.mk.injEq] at e
        obtain ⟨rfl, rfl⟩ := e
        obtain ⟨h1, h2⟩ := mergeLoop_quiet hnum h
        refine ⟨h1, fun hlen => ?_⟩
        obtain ⟨rfl, h3⟩ := h2 hlen
        refine ⟨rfl, fun i hi hov => ?_⟩
        rcases Nat.eq_or_lt_of_le hi with rfl | hlt
        · -- the pair looked at now
          obtain ⟨c, n, k1, k2, k3, k4, k5⟩ := hov
          unfold mergeStep at hr
          simp only [bind_ok_iff, deref_ok_iff] at hr
          obtain ⟨c', e1, n', e2, hr⟩ := hr
          rw [k1, Option.some.injEq] at e1
          rw [k2, Option.some.injEq] at e2
          subst e1 e2
          rw [if_pos ⟨k4, k3, k5⟩] at hr
          simp only [bind_ok_iff, deref_ok_iff, cassert_ok_iff, Prod.exists] at hr
          obtain ⟨nn, hnn, d, hd, _, hpos, psi, Kc, hpk, del, l2, hdel, cur', hcur, hr⟩ := hr
          obtain ⟨a, b, e, rfl⟩ := split3 k1 k2 hnn
          simp only [pure_eq_ok, Except.ok.injEq, Prod.mk.injEq] at hr
          obtain ⟨-, rfl⟩ := hr
          have hlen2 := congrArg List.length e
          have hn3 := hn
          rw [e] at hn3
          rw [e, set_append_cons] at hdel
          have hn2 : NumFrom 1 (a ++ { c with depth := d, psi := psi, K := Kc } :: n :: nn :: b) := by
            rw [← set_append_cons a _ c]
            exact hn3.set _ _ (by intro x hx; simp at hx; subst hx; rfl)
          have e' : a ++ { c with depth := d, psi := psi, K := Kc } :: n :: nn :: b =
              (a ++ [{ c with depth := d, psi := psi, K := Kc }]) ++ n :: (nn :: b) := by simp
          rw [e'] at hdel hn2
          rw [listDeleteFront_num hn2] at hdel
          simp only [Except.ok.injEq, Prod.mk.injEq] at hdel
          have := congrArg List.length hdel.2
          simp [decFronts] at this hlen2
        · exact h3 i hlt hov
      · simp only [Prod.mk.injEq] at e
        obtain ⟨rfl, rfl⟩ := e
        obtain ⟨h1, -⟩ := mergeLoop_quiet hnum h
        have : l'.length ≤ a.length + (1 + (1 + b.length)) := by simpa [decFronts, Nat.add_comm, Nat.add_left_comm] using h1
        constructor
        · simp; omega
        · intro hlen; simp at hlen; omega

theorem mergeLoop_none {g : Geo α} : ∀ {fuel wf cur : Nat} {l l' : List (Front α)}, (∀ i, ¬ Overtakes l i) → NumFrom 1 l →
    mergeLoop g fuel wf cur l = .ok l' → l' = l
  | 0, _, _, _, _, _, _, h => by simp [mergeLoop] at h
  | fuel + 1, wf, cur, l, l', hno, hn, h => by
    unfold mergeLoop at h
    split at h
    · simpa using h.symm
    · simp only [bind_ok_iff] at h
      obtain ⟨r, hr, h⟩ := h
      rcases mergeStep_inv hn hr with rfl | ⟨a, c, n, nn, b, d, psi, Kc, e, ha, k1, k2, k3, _⟩
      · exact mergeLoop_none hno hn h
      · exact (hno cur ⟨c, n, by rw [e, ← ha]; simp, by rw [e, ← ha]; simp, k2, k1, k3⟩).elim

/-- C94, any arithmetic: merging changes nothing if no front has overtaken another. -/
theorem C94_nothing_to_merge (g : Geo α) (l l' : List (Front α)) (hnum : Consecutive l) (h : mergeFronts g l = .ok l')
    (hno : ∀ i, ¬ Overtakes l i) : l' = l := mergeLoop_none hno ((consecutive_iff l).mp hnum) h

/-- C94, any arithmetic: a merging pass that removes no front leaves the list as it was, and then no front has overtaken another. -/
theorem C94_finds_all (g : Geo α) (l l' : List (Front α)) (hnum : Consecutive l) (h : mergeFronts g l = .ok l')
    (hlen : l'.length = l.length) : l' = l ∧ ∀ i, ¬ Overtakes l i := by
  obtain ⟨h1, h2⟩ := (mergeLoop_quiet ((consecutive_iff l).mp hnum) h).2 hlen
  exact ⟨h1, fun i => h2 i (Nat.zero_le i)⟩

end Free

variable {K : Type} [Field K] [LinearOrder K] [IsStrictOrderedRing K] [CMath K] [LawfulNum K]

/-- C94: in a stacked profile that is wetter above, every front after merging lies between two fronts that its layer had before, and the
profile is still wetter above. -/
theorem C94_between (g : Geo K) (l l' : List (Front K)) (hnum : Consecutive l) (hcol : Column g.numLayers g.cum l)
    (hwet : WetterAbove l) (h : mergeFronts g l = .ok l') :
    WetterAbove l' ∧ ∀ f ∈ l', ∃ a ∈ l, ∃ b ∈ l, a.layer = f.layer ∧ b.layer = f.layer ∧ a.depth ≤ f.depth ∧ f.depth ≤ b.depth := by
  have hd : StrictlyDrying l := strictlyDrying_iff.mpr hwet
  have key := (mergeLoop_ind (P := fun m => Col g.numLayers g.cum 1 m ∧ StrictlyDrying m ∧
    ∀ f ∈ m, ∃ a ∈ l, ∃ b ∈ l, a.layer = f.layer ∧ b.layer = f.layer ∧ a.depth ≤ f.depth ∧ f.depth ≤ b.depth) ?_
    ((consecutive_iff l).mp hnum) ⟨(column_iff _ _ _).mp hcol, hd, fun f hf => ⟨f, hf, f, hf, rfl, rfl, le_rfl, le_rfl⟩⟩ h).2
  · exact ⟨strictlyDrying_iff.mp key.2.1, key.2.2⟩
  intro cur m r hn ⟨hc, hs, hb⟩ hst
  refine ⟨mergeStep_col hn hc hst, ?_⟩
  rcases mergeStep_inv hn hst with rfl | ⟨a, c, n, nn, b, d, psi, Kc, rfl, _, hd0, hl, hbot, hd, _, _, rfl⟩
  · exact ⟨hs, hb⟩
  have hs' := hs.suffix (a := a)
  have hnl : n.layer = nn.layer := by
    have := (hc.suffix (a := a)).tail
    rw [col_cons_iff] at this
    by_contra hne
    have := this.2.2.1.mpr hne
    simp [hbot] at this
  have h1 := hs'.1 hl
  have h2 := hs'.2.1 hnl
  have hpos : 0 < c.theta - nn.theta := by linarith
  refine ⟨strictlyDrying_congr (by simp [decFronts]) (hs.remove hl), fun f hf => ?_⟩
  simp only [List.mem_append, List.mem_cons] at hf
  rcases hf with hf | rfl | hf
  · exact hb f (by simp [hf])
  · obtain ⟨p, hp, -, -, q1, -, q3, -⟩ := hb n (by simp)
    obtain ⟨-, -, p', hp', -, q2, -, q4⟩ := hb c (by simp)
    refine ⟨p, hp, p', hp', q1.trans hl.symm, q2, q3.trans ?_, le_trans ?_ q4⟩
    · simp only
      rw [(cdiv_ok.mp hd).2, le_div_iff₀ hpos]
      nlinarith
    · simp only
      rw [(cdiv_ok.mp hd).2, div_le_iff₀ hpos]
      nlinarith
  · simp only [decFronts, List.mem_map] at hf
    obtain ⟨f0, hf0, rfl⟩ := hf
    exact hb f0 (by simp [List.mem_cons.mp hf0 |>.elim Or.inl Or.inr])

/-- The front at position i lies below the bottom of its layer, which is not the lowest one, and the next front at that bottom. -/
def Crosses (g : Geo K) (l : List (Front K)) (i : Nat) : Prop :=
  ∃ c n bot, l[i]? = some c ∧ l[i + 1]? = some n ∧ g.cum[c.layer]? = some bot ∧ bot < c.depth ∧ n.depth = bot ∧ c.layer ≠ g.numLayers

theorem crossLoop_keeps {g : Geo K} : ∀ {fuel wf cur : Nat} {l l' : List (Front K)}, crossLoop g fuel wf cur l = .ok l' →
    ∀ i < cur, l'[i]? = l[i]?
  | 0, _, _, _, _, h, _, _ => by simp [crossLoop] at h
  | fuel + 1, wf, cur, l, l', h, i, hi => by
    unfold crossLoop at h
    split at h
    · simp only [Except.ok.injEq] at h
      rw [h]
    · simp only [bind_ok_iff] at h
      obtain ⟨m, hm, h⟩ := h
      rw [crossLoop_keeps h i (by omega)]
      rcases crossStep_inv hm with rfl | ⟨a, c, n, nn, b, s, ff, s2, bot, psi, Kc, thetaNew, Se, z, rfl, ha, _, _, _, _, _, _, _, _, _,
        _, _, _, rfl⟩
      · rfl
      · rw [List.getElem?_append_left (by omega), List.getElem?_append_left (by omega)]

theorem crossLoop_quiet {g : Geo K} : ∀ {fuel cur : Nat} {l : List (Front K)}, crossLoop g fuel (cur + 1) cur l = .ok l →
    ∀ i, cur ≤ i → ¬ Crosses g l i
  | 0, _, _, h, _, _ => by simp [crossLoop] at h
  | fuel + 1, cur, l, h, i, hi => by
    unfold crossLoop at h
    split at h
    · rintro ⟨c, n, bot, _, h2, _⟩
      have := (List.getElem?_eq_some_iff.mp h2).1
      omega
    · simp only [bind_ok_iff] at h
      obtain ⟨m, hm, h⟩ := h
      have hk := crossLoop_keeps h cur (by omega)
      have hcase := crossStep_inv hm
      rcases hcase with rfl | ⟨a, c, n, nn, b, s, ff, s2, bot, psi, Kc, thetaNew, Se, z, rfl, ha, _, _, _, hlt, _, _, _, _, _, _, _, _, rfl⟩
      · rcases Nat.eq_or_lt_of_le hi with rfl | hlt
        · rintro ⟨c, n, bot, h1, h2, h3, h4, h5, h6⟩
          unfold crossStep at hm
          simp only [bind_ok_iff, deref_ok_iff, idx_ok_iff] at hm
          obtain ⟨c', e1, s, hs, ff, hff, n', e2, bot', e3, hm⟩ := hm
          rw [h1, Option.some.injEq] at e1; subst e1
          rw [h2, Option.some.injEq] at e2; subst e2
          rw [h3, Option.some.injEq] at e3; subst e3
          rw [if_pos ⟨h4, beq_iff_eq.mpr h5, h6⟩] at hm
          simp only [bind_ok_iff] at hm
          obtain ⟨s2, _, Se, _, psi, _, Kc, _, th, _, nn, _, hm⟩ := hm
          obtain ⟨z, hm⟩ : ∃ z, (m.set cur { c with depth := bot, psi := psi, K := Kc, dzdt := 0, toBottom := true }).set (cur + 1)
              { n with theta := th, psi := psi, depth := bot + z, layer := c.layer + 1, dzdt := c.dzdt, toBottom := false } = m := by
            split at hm <;> simp only [bind_ok_iff, pure_eq_ok, Except.ok.injEq] at hm
            · obtain ⟨_, _, z, _, hm⟩ := hm; exact ⟨z, hm⟩
            · obtain ⟨z, _, hm⟩ := hm; exact ⟨z, hm⟩
          have := congrArg (fun l => (l[cur]?).map Front.depth) hm
          rw [List.getElem?_set_ne (by omega), List.getElem?_set_self (List.getElem?_eq_some_iff.mp h1).1, h1] at this
          simp only [Option.map_some, Option.some.injEq] at this
          exact absurd this h4.ne
        · exact crossLoop_quiet h i hlt
      · exfalso
        subst ha
        simp only [List.getElem?_append_right le_rfl, Nat.sub_self, List.getElem?_cons_zero, Option.some.injEq] at hk
        have := congrArg Front.depth hk
        simp only at this
        exact absurd this.symm hlt.ne

/-- C94: a layer-crossing pass that leaves the list as it was has found no front to cross because there is none. -/
theorem C94_cross_finds_all (g : Geo K) (l : List (Front K)) (h : crossLayer g l = .ok l) : ∀ i, ¬ Crosses g l i :=
  fun i => crossLoop_quiet h i (Nat.zero_le i)

theorem crossLoop_none {g : Geo K} : ∀ {fuel wf cur : Nat} {l l' : List (Front K)}, (∀ i, ¬ Crosses g l i) →
    crossLoop g fuel wf cur l = .ok l' → l' = l
  | 0, _, _, _, _, _, h => by simp [crossLoop] at h
  | fuel + 1, wf, cur, l, l', hno, h => by
    unfold crossLoop at h
    split at h
    · simpa using h.symm
    · simp only [bind_ok_iff] at h
      obtain ⟨m, hm, h⟩ := h
      rcases crossStep_inv hm with rfl | ⟨a, c, n, nn, b, s, ff, s2, bot, psi, Kc, thetaNew, Se, z, e, ha, _, _, k1, k2, k3, k4, _⟩
      · exact crossLoop_none hno h
      · exact (hno cur ⟨c, n, bot, by rw [e, ← ha]; simp, by rw [e, ← ha]; simp, k1, k2, beq_iff_eq.mp k3, k4⟩).elim

/-- C94: a layer-crossing pass changes the list only if a front is there to cross. -/
theorem C94_nothing_to_cross (g : Geo K) (l l' : List (Front K)) (h : crossLayer g l = .ok l') (hno : ∀ i, ¬ Crosses g l i) : l' = l :=
  crossLoop_none hno h

theorem domainLoop_quiet {g : Geo K} {dom : K} : ∀ {fuel cur : Nat} {l : List (Front K)} {r : K × List (Front K)}, NumFrom 1 l →
    domainLoop g dom l.length fuel (cur + 1) cur l = .ok r → cur + 1 < l.length → ∀ c, l[l.length - 2]? = some c →
      (c.depth < dom → r = (0, l)) ∧ (dom ≤ c.depth → r.2.length + 1 = l.length)
  | 0, _, _, _, _, h, _, _, _ => by simp [domainLoop] at h
  | fuel + 1, cur, l, r, hn, h, hc, c, hl => by
    unfold domainLoop at h
    rw [if_neg (by omega), if_neg (by omega)] at h
    simp only [bind_ok_iff, deref_ok_iff] at h
    obtain ⟨c', e1, _, _, n, e2, h⟩ := h
    split at h
    · rename_i hcond
      have hcur : cur = l.length - 2 := by omega
      subst hcur
      rw [hl, Option.some.injEq] at e1
      subst e1
      refine ⟨fun hlt => absurd hcond.2 (not_le.mpr hlt), fun _ => ?_⟩
      simp only [bind_ok_iff, Prod.exists] at h
      obtain ⟨psi, Kc, _, del, l2, hdel, h⟩ := h
      simp only [Except.ok.injEq] at h
      subst h
      obtain ⟨a, b, e, ha⟩ := split2 hl e2
      have e3 : l.set (l.length - 2 + 1) { n with theta := c.theta, psi := psi, K := Kc } = a ++ c :: { n with theta := c.theta, psi := psi, K := Kc } :: b := by
        rw [← ha, e]; simp
      rw [e3] at hdel
      have hn2 : NumFrom 1 (a ++ c :: { n with theta := c.theta, psi := psi, K := Kc } :: b) := by
        rw [← e3]
        exact hn.set _ _ (by intro x hx; rw [e2, Option.some.injEq] at hx; subst hx; rfl)
      rw [listDeleteFront_num hn2, Except.ok.injEq, Prod.mk.injEq] at hdel
      rw [← hdel.2, e]
      simp only [decFronts, List.length_append, List.length_map, List.length_cons]
      omega
    · rename_i hcond
      by_cases hend : cur + 2 < l.length
      · exact domainLoop_quiet hn h (by omega) c hl
      · have hcur : cur = l.length - 2 := by omega
        subst hcur
        rw [hl, Option.some.injEq] at e1
        subst e1
        refine ⟨fun _ => ?_, fun hle => absurd ⟨by omega, hle⟩ hcond⟩
        cases fuel with
        | zero => simp [domainLoop] at h
        | succ f =>
          unfold domainLoop at h
          rw [if_pos (by omega)] at h
          simpa using h.symm

/-- C94: the pass over the bottom of the column takes a front out exactly if the last front above the bottom one has reached the bottom;
otherwise it changes nothing and gives no flux. -/
theorem C94_bottom (g : Geo K) (dom flux : K) (l l' : List (Front K)) (c : Front K) (hnum : Consecutive l) (h2 : 2 ≤ l.length)
    (hc : l[l.length - 2]? = some c) (h : crossDomain g dom l = .ok (flux, l')) :
    (c.depth < dom → flux = 0 ∧ l' = l) ∧ (dom ≤ c.depth → l'.length + 1 = l.length) := by
  obtain ⟨h3, h4⟩ := domainLoop_quiet ((consecutive_iff l).mp hnum) h (by omega) c hc
  exact ⟨fun hlt => by have := h3 hlt; rwa [Prod.mk.injEq] at this, h4⟩

open Sample

/-- Fronts of layer 1 at 8 and 6 cm over the bottom front: the first has overtaken the second. -/
def passed : List (Front ℚ) :=
  [fr 8 (292/1000) 1 1 false, fr 6 (28/100) 1 2 false, fr 10 (2/10) 1 3 true, fr 30 (1/10) 2 4 true]

example : Consecutive passed ∧ Column geo2.numLayers geo2.cum passed ∧ Overtakes passed 0 ∧
    (∀ i < passed.length, ∀ f ∈ passed[i]?, ∀ n ∈ passed[i + 1]?, f.layer = n.layer → n.theta < f.theta) := by
  refine ⟨by decide +kernel, by decide +kernel, ⟨_, _, rfl, rfl, by decide +kernel, by decide +kernel, by decide +kernel⟩, by decide +kernel⟩
example : okAnd (mergeFronts geo2 passed) (fun l' => l'.length == 3 && (l'.head?.map Front.depth).any fun d => 6 < d ∧ d < 8) = true := by
  decide +kernel
/-- C94_finds_all: nothing to merge. -/
example : okAnd (mergeFronts geo2 (passed.map fun f => if f.front = 1 then { f with depth := 5 } else f)) (fun l' => l'.length == 4)
    = true := by decide +kernel

/-- C94_cross_finds_all: no front below its layer. -/
example : okAnd (crossLayer geo2 passed) (fun l' => l' == passed) = true := by decide +kernel

/-- The lowest front but one has passed the bottom of the column. -/
def through : List (Front ℚ) := [fr 10 (2/10) 1 1 true, fr 31 (2/10) 2 2 false, fr 30 (1/10) 2 3 true]

example : Consecutive through ∧ 2 ≤ through.length ∧ through[through.length - 2]? = some (fr 31 (2/10) 2 2 false) := by decide +kernel
example : okAnd (crossDomain geo2 30 through) (fun r => r.2.length == 2 && r.1 == 1/10) = true := by decide +kernel

end LGAR
