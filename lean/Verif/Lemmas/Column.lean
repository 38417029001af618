import Verif.Lemmas.Merge
/-
The column structure (layers, bottom flags, bottom depths) under the passes.
-/
set_option linter.unusedSectionVars false
namespace LGAR

section LawFree
variable {α : Type} [Add α] [Sub α] [Mul α] [Div α] [Neg α] [Zero α] [One α] [OfScientific α]
  [LT α] [LE α] [DecidableLT α] [DecidableLE α] [BEq α] [CMath α] {fb : Guard}

/-- `Column` starting from layer `s`. -/
structure Col (N : Nat) (cum : List α) (s : Nat) (l : List (Front α)) : Prop where
  layers : LayersFrom N s l
  flags : BottomFlags l
  depths : BottomDepths cum l

theorem column_iff (N : Nat) (cum : List α) (l : List (Front α)) : Column N cum l ↔ Col N cum 1 l :=
  ⟨fun h => ⟨h.layers, h.flags, h.depths⟩, fun h => ⟨h.layers, h.flags, h.depths⟩⟩

theorem layersFrom_head {N s : Nat} {f : Front α} {t : List (Front α)} (h : LayersFrom N s (f :: t)) :
    f.layer = s := by
  cases t <;> exact h.1

theorem Col.head {N s : Nat} {cum : List α} {f : Front α} {t : List (Front α)} (h : Col N cum s (f :: t)) :
    f.layer = s := layersFrom_head h.layers

theorem Col.tail {N s : Nat} {cum : List α} {f g : Front α} {t : List (Front α)} (h : Col N cum s (f :: g :: t)) :
    Col N cum g.layer (g :: t) :=
  ⟨h.layers.2.2, h.flags.2, fun x hx => h.depths x (by simp [hx])⟩

/-- Structure of two neighbouring fronts. -/
theorem col_cons_iff {N s : Nat} {cum : List α} {f g : Front α} {t : List (Front α)} :
    Col N cum s (f :: g :: t) ↔ f.layer = s ∧ (g.layer = s ∨ g.layer = s + 1) ∧ (f.toBottom = true ↔ f.layer ≠ g.layer) ∧
      (f.toBottom = true → cum[f.layer]? = some f.depth) ∧ Col N cum g.layer (g :: t) := by
  constructor
  · intro h
    exact ⟨h.layers.1, h.layers.2.1, h.flags.1, h.depths f (by simp), h.tail⟩
  · rintro ⟨h1, h2, h3, h4, h5⟩
    refine ⟨⟨h1, h2, h5.layers⟩, ⟨h3, h5.flags⟩, ?_⟩
    intro x hx
    rcases List.mem_cons.mp hx with rfl | hx
    · exact h4
    · exact h5.depths x hx

theorem col_single_iff {N s : Nat} {cum : List α} {f : Front α} :
    Col N cum s [f] ↔ f.layer = s ∧ s = N ∧ f.toBottom = true ∧ cum[f.layer]? = some f.depth := by
  constructor
  · intro h
    exact ⟨h.layers.1, h.layers.2, h.flags, h.depths f (by simp) h.flags⟩
  · rintro ⟨h1, h2, h3, h4⟩
    exact ⟨⟨h1, h2⟩, h3, fun x hx _ => by simp at hx; subst hx; exact h4⟩

theorem Col.suffix {N s : Nat} {cum : List α} {a : List (Front α)} {x : Front α} {u : List (Front α)}
    (h : Col N cum s (a ++ x :: u)) : Col N cum x.layer (x :: u) := by
  induction a generalizing s with
  | nil => have := h.head; subst this; exact h
  | cons f a ih =>
    cases a with
    | nil => exact h.tail
    | cons g a => exact ih h.tail

theorem Col.replace {N s : Nat} {cum : List α} {a : List (Front α)} {x y : Front α} {u v : List (Front α)}
    (h : Col N cum s (a ++ x :: u)) (hl : y.layer = x.layer)
    (hr : Col N cum x.layer (x :: u) → Col N cum x.layer (y :: v)) : Col N cum s (a ++ y :: v) := by
  induction a generalizing s with
  | nil => have := h.head; subst this; exact hr h
  | cons f a ih =>
    cases a with
    | nil =>
      simp only [List.cons_append, List.nil_append] at h ⊢
      rw [col_cons_iff] at h ⊢
      obtain ⟨h1, h2, h3, h4, h5⟩ := h
      exact ⟨h1, by rw [hl]; exact h2, by rw [hl]; exact h3, h4, by rw [hl]; exact hr h5⟩
    | cons g a =>
      simp only [List.cons_append] at h ih ⊢
      rw [col_cons_iff] at h ⊢
      obtain ⟨h1, h2, h3, h4, h5⟩ := h
      exact ⟨h1, h2, h3, h4, ih h5⟩

theorem col_congr {N s : Nat} {cum : List α} : ∀ {l l' : List (Front α)},
    l.map (fun f => (f.depth, f.layer, f.toBottom)) = l'.map (fun f => (f.depth, f.layer, f.toBottom)) →
    Col N cum s l → Col N cum s l'
  | [], [], _, h => h
  | [], _ :: _, e, _ => by simp at e
  | _ :: _, [], e, _ => by simp at e
  | [f], [f'], e, h => by
    simp only [List.map_cons, List.map_nil, List.cons.injEq, Prod.mk.injEq, and_true] at e
    rw [col_single_iff] at h ⊢
    rw [← e.1, ← e.2.1, ← e.2.2]; exact h
  | [f], f' :: g' :: t', e, _ => by simp at e
  | f :: g :: t, [f'], e, _ => by simp at e
  | f :: g :: t, f' :: g' :: t', e, h => by
    have e' := e
    simp only [List.map_cons, List.cons.injEq, Prod.mk.injEq] at e
    rw [col_cons_iff] at h ⊢
    obtain ⟨h1, h2, h3, h4, h5⟩ := h
    have h6 : Col N cum g.layer (g' :: t') := col_congr (by simp [e.2.1, e.2.2]) h5
    have hg : g'.layer = g.layer := h6.head
    rw [hg, ← e.1.1, ← e.1.2.1, ← e.1.2.2]
    exact ⟨h1, h2, h3, h4, h6⟩

theorem Col.dec {N s : Nat} {cum : List α} {l : List (Front α)} (h : Col N cum s l) : Col N cum s (decFronts l) :=
  col_congr (by simp [decFronts]) h

theorem Col.shape {N s : Nat} {cum : List α} {l l' : List (Front α)} (h : Col N cum s l) (e : SameShape l l') :
    Col N cum s l' := by
  refine col_congr ?_ h
  have := congrArg (List.map fun x : α × Nat × Int × Bool × α × α => (x.1, x.2.1, x.2.2.2.1)) e
  simpa [List.map_map, Function.comp_def] using this

theorem LayersFrom.range {N : Nat} : ∀ {s : Nat} {l : List (Front α)}, LayersFrom N s l →
    ∀ f ∈ l, s ≤ f.layer ∧ f.layer ≤ N
  | s, [], h, _, _ => h.elim
  | s, [f], h, x, hx => by simp at hx; subst hx; have := h.1; have := h.2; omega
  | s, f :: g :: t, h, x, hx => by
    have ih := LayersFrom.range h.2.2
    have hg := ih g (by simp)
    rcases List.mem_cons.mp hx with rfl | hx
    · have := h.1; have := h.2.1; omega
    · have := ih x hx; have := h.2.1; omega

theorem Col.range {N s : Nat} {cum : List α} {l : List (Front α)} (h : Col N cum s l) :
    ∀ f ∈ l, s ≤ f.layer ∧ f.layer ≤ N := h.layers.range

theorem Col.ne_nil {N s : Nat} {cum : List α} {l : List (Front α)} (h : Col N cum s l) : l ≠ [] := by
  rintro rfl; exact h.layers

/-- The last front is flagged as touching the bottom, in layer `N`, at the bottom. -/
theorem Col.last {N s : Nat} {cum : List α} {l : List (Front α)} (h : Col N cum s l) :
    ∃ a f, l = a ++ [f] ∧ f.layer = N ∧ f.toBottom = true ∧ cum[N]? = some f.depth := by
  rcases List.eq_nil_or_concat l with rfl | ⟨a, f, rfl⟩
  · exact h.layers.elim
  · rw [List.concat_eq_append] at h ⊢
    have := h.suffix
    rw [col_single_iff] at this
    exact ⟨a, f, rfl, this.2.1, this.2.2.1, by rw [← this.2.1]; exact this.2.2.2⟩

/-- A front not touching the bottom has a front of its layer below it. -/
theorem Col.next_of_not_bottom {N s : Nat} {cum : List α} {a : List (Front α)} {f : Front α} {t : List (Front α)}
    (h : Col N cum s (a ++ f :: t)) (hf : f.toBottom = false) : ∃ g u, t = g :: u ∧ g.layer = f.layer := by
  have h' := h.suffix
  cases t with
  | nil => rw [col_single_iff] at h'; simp [hf] at h'
  | cons g u =>
    rw [col_cons_iff] at h'
    refine ⟨g, u, rfl, ?_⟩
    have := h'.2.2.1
    rw [hf] at this
    simp at this
    exact this.symm

/-- Removing a front that has a front of its layer directly below. -/
theorem Col.remove {N s : Nat} {cum : List α} {a : List (Front α)} {c n : Front α} {b : List (Front α)}
    (h : Col N cum s (a ++ c :: n :: b)) (hl : c.layer = n.layer) : Col N cum s (a ++ n :: b) := by
  refine Col.replace (x := c) h hl.symm ?_
  intro h'
  rw [col_cons_iff] at h'
  rw [hl]; exact h'.2.2.2.2

theorem Col.dec_suffix {N s : Nat} {cum : List α} {a b : List (Front α)} (h : Col N cum s (a ++ b)) :
    Col N cum s (a ++ decFronts b) :=
  col_congr (by simp [decFronts]) h

theorem mergeStep_col {g : Geo α} {N s cur : Nat} {cum : List α} {l : List (Front α)} {r : Nat × List (Front α)} {k : Int}
    (hn : NumFrom k l) (hc : Col N cum s l) (h : mergeStep g cur l = .ok r) : Col N cum s r.2 := by
  rcases mergeStep_inv hn h with rfl | ⟨a, c, n, nn, b, d, psi, Kc, rfl, _, _, hl, hb, _, _, _, rfl⟩
  · exact hc
  · simp only
    have e : a ++ { c with depth := d, psi := psi, K := Kc } :: decFronts (nn :: b) =
      (a ++ [{ c with depth := d, psi := psi, K := Kc }]) ++ decFronts (nn :: b) := by simp
    rw [e]
    apply Col.dec_suffix
    simp only [List.append_assoc, List.cons_append, List.nil_append]
    refine Col.replace hc rfl ?_
    intro h'
    rw [col_cons_iff, col_cons_iff] at h'
    obtain ⟨h1, h2, h3, h4, h5, h6, h7, h8, h9⟩ := h'
    rw [hb] at h7
    have h7' : n.layer = nn.layer := by simpa using h7
    have hcb : c.toBottom = false := by
      cases hcb : c.toBottom
      · rfl
      · exact absurd hl (h3.mp hcb)
    rw [col_cons_iff]
    refine ⟨rfl, Or.inl (by rw [← h7', hl]), ?_, ?_, h9⟩
    · simp only [hcb]; simp; rw [hl, h7']
    · simp only [hcb]; simp

theorem mergeFronts_col {g : Geo α} {N s : Nat} {cum : List α} {l l' : List (Front α)} {k : Int}
    (hn : NumFrom k l) (hc : Col N cum s l) (h : mergeFronts g l = .ok l') : Col N cum s l' :=
  (mergeLoop_ind (P := Col N cum s) (fun _ _ _ hn hp hs => mergeStep_col hn hp hs) hn hc h).2

theorem fixDryRepair_col {g : Geo α} {N s : Nat} {cum : List α} {a b : List (Front α)} {c n : Front α}
    {r : Nat × List (Front α) × α} {k : Int}
    (hn : NumFrom k (a ++ c :: n :: b)) (hl : c.layer = n.layer) (hc : Col N cum s (a ++ c :: n :: b))
    (h : fixDryRepair g c (a ++ c :: n :: b) = .ok r) : Col N cum s r.2.1 := by
  obtain ⟨m0, m1, l2, _, _, rfl, hl2 | ⟨_, d, b', sl, Se, psi, e, _, _, _, hu⟩⟩ := fixDryRepair_inv hn h
  · rw [hl2.2]; exact (hc.remove hl).dec_suffix
  · obtain ⟨rfl, rfl⟩ := List.cons.inj e
    refine Col.shape ?_ (updAbove_shape hu)
    exact col_congr (by simp [decFronts]) (hc.remove hl)

theorem fixDry_col {g : Geo α} {N s : Nat} {cum : List α} {l : List (Front α)} {mc : α} {r : List (Front α) × α} {k : Int}
    (hn : NumFrom k l) (hc : Col N cum s l) (h : fixDry g mc l = .ok r) : Col N cum s r.1 := by
  unfold fixDry at h
  simp only [bind_ok_iff] at h
  obtain ⟨_, _, h⟩ := h
  exact (fixDryLoop_ind (P := fun l _ => Col N cum s l)
    (fun a b c n mc r hn hp _ hl hr => fixDryRepair_col hn hl hp hr) hn hc h).2

/-- Domain crossing keeps the structure when the removed front is not the bottom front of its layer. -/
theorem crossDomain_col {g : Geo α} {N s : Nat} {cum : List α} {dom : α} {l : List (Front α)} {r : α × List (Front α)}
    {k : Int} (hn : NumFrom k l) (hc : Col N cum s l)
    (hdom : ∀ f ∈ l, f.toBottom = true → f.layer ≠ N → ¬ dom ≤ f.depth)
    (h : crossDomain g dom l = .ok r) : Col N cum s r.2 := by
  rcases domainLoop_inv hn h with rfl | ⟨a, c, n, psi, Kc, rfl, hd, _, rfl⟩
  · exact hc
  · have hs := hc.suffix
    rw [col_cons_iff, col_single_iff] at hs
    obtain ⟨_, _, h3, h4, _, hN, _⟩ := hs
    have hl : c.layer = n.layer := by
      by_contra hne
      refine hdom c (by simp) (h3.mpr hne) ?_ hd
      rw [← hN]; exact hne
    have := (hc.remove hl).dec_suffix
    exact col_congr (by simp [decFronts]) this

/-- A layer crossing keeps the structure when the front met is the bottom front of the layer. -/
theorem crossStep_col {g : Geo α} {N s cur : Nat} {l l' : List (Front α)} (hc : Col N g.cum s l)
    (hcb : ∀ f, l[cur]? = some f → ∀ b, g.cum[f.layer]? = some b → b < f.depth → f.toBottom = false)
    (hnb : ∀ f, l[cur + 1]? = some f → f.layer ≠ g.numLayers → ∀ b, g.cum[f.layer]? = some b → (f.depth == b) = true →
      f.toBottom = true)
    (h : crossStep g cur l = .ok l') : Col N g.cum s l' := by
  rcases crossStep_inv h with rfl |
    ⟨a, c, n, nn, b, sl, ff, s2, bot, psi, Kc, tn, Se, z, rfl, rfl, _, _, hbot, hlt, heq, hN, _, _, _, _, _, _, rfl⟩
  · exact hc
  · refine Col.replace hc rfl ?_
    intro h'
    rw [col_cons_iff, col_cons_iff] at h'
    obtain ⟨h1, h2, h3, h4, h5, h6, h7, h8, h9⟩ := h'
    have hc0 : c.toBottom = false := hcb c (by simp) bot hbot hlt
    have hl : c.layer = n.layer := by
      rw [hc0] at h3; simpa using h3
    have hn1 : n.toBottom = true := hnb n (by simp) (by rw [← hl]; exact hN) bot (by rw [← hl]; exact hbot) heq
    have hnn : nn.layer = c.layer + 1 := by
      have := h7.mp hn1
      rcases h6 with h6 | h6
      · exact absurd h6.symm this
      · rw [h6, hl]
    rw [col_cons_iff, col_cons_iff]
    refine ⟨rfl, Or.inr rfl, ?_, fun _ => hbot, rfl, Or.inl hnn, ?_, ?_, h9⟩
    · simp
    · simp [hnn]
    · simp

end LawFree
end LGAR
