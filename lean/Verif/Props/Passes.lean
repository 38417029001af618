import Verif.Lemmas.PassSafe
import Verif.Spec.Samples
/-
Properties C06-C09, C11, C12, C15, C16 (passes over the front list) and C55.
-/
set_option linter.unusedSectionVars false
namespace LGAR
attribute [-instance] Rat.instOfScientific
open Sample

variable {K : Type} [Field K] [LinearOrder K] [IsStrictOrderedRing K] [CMath K] [LawfulNum K]

/-- C06: the storage computed from the fronts is the physical water content, for every front list whose layer numbers
exist. -/
theorem C06_storage_is_water (cum : List K) (l : List (Front K)) (h : LayersInRange cum l) :
    massBal cum l = .ok (water cum l) := by
  rw [massBal_eq cum l h, water_eq_mass]

example : LayersInRange (K := ℚ) [0, 10, 30] col3 := by unfold LayersInRange; decide +kernel
example : massBal (α := ℚ) [0, 10, 30] col3 = .ok (4 * (3/10) + 6 * (2/10) + 20 * (1/10)) := by decide +kernel

/-- C07: a merge pass that returns leaves the water content unchanged (any number of merges; every well-formed
column). -/
theorem C07_merge_conserves (g : Geo K) (l l' : List (Front K)) (hnum : Consecutive l)
    (hcol : Column g.numLayers g.cum l) (h : mergeFronts g l = .ok l') : water g.cum l' = water g.cum l := by
  rw [water_eq_mass, water_eq_mass]
  exact mergeFronts_mass ((consecutive_iff l).mp hnum) ((column_iff _ _ _).mp hcol) h

/-- Fronts of layer 1 at 8 and 6 cm over the bottom front: the first has overtaken the second. -/
def overtaken : List (Front ℚ) :=
  [fr 8 (292/1000) 1 1 false, fr 6 (28/100) 1 2 false, fr 10 (2/10) 1 3 true, fr 30 (1/10) 2 4 true]

example : Consecutive overtaken ∧ Column geo2.numLayers geo2.cum overtaken := by decide +kernel
example : okAnd (mergeFronts geo2 overtaken) (fun l' => l'.length == 3 && water geo2.cum l' == water geo2.cum overtaken)
    = true := by decide +kernel

theorem noTouch_of (N : Nat) (cum : List K) (l : List (Front K)) (h : NoStrayAtBottom N cum l) : NoTouchFrom N cum 1 l := by
  intro j f hj hf hb
  obtain ⟨i, rfl⟩ : ∃ i, j = i + 1 := ⟨j - 1, by omega⟩
  exact h i f hf hb

/-- C08: a layer-crossing pass that returns leaves the water content unchanged, provided no front is above saturation,
the retention curve of the lower soil does not exceed saturation at a head of the upper soil, no layer is thinner than
1/1000 of the depth of its bottom, and no two neighbouring fronts of a layer have equal moisture afterwards (they have
after the infinite-depth fallback). -/
theorem C08_cross_conserves (g : Geo K) (l l' : List (Front K)) (hcol : Column g.numLayers g.cum l)
    (hstray : NoStrayAtBottom g.numLayers g.cum l)
    (hsat : ∀ f ∈ l, ∀ s, g.soil f.layer = .ok s → f.theta ≤ s.thetaE)
    (hcurve : ∀ k s1 s2 Se psi th, g.soil k = .ok s1 → g.soil (k + 1) = .ok s2 →
      calcHFromSe Se s1.vgAlpha s1.vgM s1.vgN = .ok psi →
      calcThetaFromH psi s2.vgAlpha s2.vgM s2.vgN s2.thetaE s2.thetaR = .ok th → th ≤ s2.thetaE)
    (hthick : ∀ k b0 b1, g.cum[k]? = some b0 → g.cum[k + 1]? = some b1 → b0 + b1 / 1000 ≤ b1)
    (hne : ∀ i f n, l'[i]? = some f → l'[i + 1]? = some n → f.layer = n.layer → f.theta ≠ n.theta)
    (h : crossLayer g l = .ok l') : water g.cum l' = water g.cum l := by
  rw [water_eq_mass, water_eq_mass]
  refine crossLayer_mass ((column_iff _ _ _).mp hcol) (noTouch_of _ _ _ hstray) hsat hcurve hthick ?_ h
  rintro i f n ⟨h1, h2, h3, h4⟩
  exact hne i f n h1 h2 h3 h4

/-- A front 2 cm past the bottom of layer 1, at effective saturation 0.64. -/
def crossing : List (Front ℚ) :=
  [fr 12 (292/1000) 1 1 false, fr 10 (2/10) 1 2 true, fr 30 (15/100) 2 3 true]

example : Consecutive crossing ∧ Column geo2.numLayers geo2.cum crossing := by decide +kernel
/-- The crossing happens (new front in layer 2), storage is kept, neighbours differ. -/
example : okAnd (crossLayer geo2 crossing) (fun l' => l'.map Front.layer == [1, 2, 2] &&
    water geo2.cum l' == water geo2.cum crossing && l'.map Front.theta == [292/1000, 356/1000, 15/100]) = true := by
  decide +kernel

/-- The crossing front is above saturation (Se = 1.21). -/
def oversat : List (Front ℚ) :=
  [fr 12 (463/1000) 1 1 false, fr 10 (2/10) 1 2 true, fr 30 (15/100) 2 3 true]

/-- C08 fails above saturation: the water above saturation in the overshooting part is lost. -/
theorem C08_oversaturated_loses_water :
    ∃ l l' : List (Front ℚ), Column geo2.numLayers geo2.cum l ∧ Consecutive l ∧ crossLayer geo2 l = .ok l' ∧
      water geo2.cum l' < water geo2.cum l := by
  refine ⟨oversat, (okAnd_exists (p := fun l' => water geo2.cum l' < water geo2.cum oversat) ?_).imp fun l' h =>
    ⟨?_, ?_, h⟩⟩
  all_goals decide +kernel

/-- The front two below the crossing one has just the moisture the crossing front takes in layer 2. -/
def equalBelow : List (Front ℚ) :=
  [fr 12 (292/1000) 1 1 false, fr 10 (2/10) 1 2 true, fr 30 (356/1000) 2 3 true]

/-- C08 fails in the infinite-depth fallback: the front is put 1/1000 of the layer bottom below the boundary and the
overshooting water is not kept. -/
theorem C08_fallback_loses_water :
    ∃ l l' : List (Front ℚ), Column geo2.numLayers geo2.cum l ∧ Consecutive l ∧ crossLayer geo2 l = .ok l' ∧
      water geo2.cum l' < water geo2.cum l := by
  refine ⟨equalBelow, (okAnd_exists (p := fun l' => water geo2.cum l' < water geo2.cum equalBelow) ?_).imp fun l' h =>
    ⟨?_, ?_, h⟩⟩
  all_goals decide +kernel

/-- C09: the bottom flux returned by the domain-boundary pass is exactly the water that left the column. -/
theorem C09_bottom_flux (g : Geo K) (dom flux : K) (l l' : List (Front K)) (hnum : Consecutive l)
    (hcol : Column g.numLayers g.cum l) (hlen : g.cum.length = g.numLayers + 1) (hinc : g.cum.Pairwise (· < ·))
    (hdom : g.cum[g.numLayers]? = some dom)
    (h : crossDomain g dom l = .ok (flux, l')) : water g.cum l = flux + water g.cum l' := by
  rw [water_eq_mass, water_eq_mass]
  have hc := (column_iff _ _ _).mp hcol
  refine crossDomain_mass (r := (flux, l')) ((consecutive_iff l).mp hnum) hc ?_ h
  intro f hf hb hN
  have h1 := hc.depths f hf hb
  have h2 := hc.range f hf
  rw [List.getElem?_eq_some_iff] at h1 hdom
  obtain ⟨i1, e1⟩ := h1
  obtain ⟨i2, e2⟩ := hdom
  have := List.pairwise_iff_getElem.mp hinc f.layer g.numLayers i1 i2 (by omega)
  rw [e1, e2] at this
  exact not_le.mpr this

/-- A front of layer 2 past the domain bottom. -/
def leaving : List (Front ℚ) :=
  [fr 10 (292/1000) 1 1 true, fr 31 (356/1000) 2 2 false, fr 30 (15/100) 2 3 true]

example : Consecutive leaving ∧ Column geo2.numLayers geo2.cum leaving ∧ geo2.cum.Pairwise (· < ·) := by
  decide +kernel
example : okAnd (crossDomain geo2 30 leaving) (fun r => r.1 == (206/1000) * 1 && r.2.length == 2) = true := by
  decide +kernel

/-- C11: in a well-ordered column whose dry-over-wet fronts lie in the top layer, the repair pass gains exactly the
amount of water it books in the mass-change variable. -/
theorem C11_repair_books_gain (g : Geo K) (mc mc' : K) (l l' : List (Front K)) (hnum : Consecutive l)
    (hord : Ordered g.cum l) (htop : DryInTop l) (h : fixDry g mc l = .ok (l', mc')) :
    water g.cum l' - water g.cum l = mc' - mc := by
  rw [water_eq_mass, water_eq_mass]
  unfold fixDry at h
  simp only [bind_ok_iff] at h
  obtain ⟨_, _, h⟩ := h
  exact fixDryLoop_gain (r := (l', mc')) ((consecutive_iff l).mp hnum) hord htop h

/-- C11, without any assumption on layers or order: the booked amount is at least the change of water content. -/
theorem C11_booked_bounds_change (g : Geo K) (mc mc' : K) (l l' : List (Front K)) (hnum : Consecutive l)
    (h : fixDry g mc l = .ok (l', mc')) : |water g.cum l' - water g.cum l| ≤ mc' - mc := by
  rw [water_eq_mass, water_eq_mass]
  unfold fixDry at h
  simp only [bind_ok_iff] at h
  obtain ⟨_, _, h⟩ := h
  exact fixDryLoop_bound (r := (l', mc')) ((consecutive_iff l).mp hnum) h

instance decOrdered (cum : List ℚ) : (l : List (Front ℚ)) → Decidable (Ordered cum l)
  | [] => isTrue trivial
  | [f] => inferInstanceAs (Decidable (layerTop cum f.layer ≤ f.depth))
  | f :: n :: t =>
    have := decOrdered cum (n :: t)
    inferInstanceAs (Decidable (layerTop cum f.layer ≤ f.depth ∧ (f.layer = n.layer → f.depth ≤ n.depth) ∧
      Ordered cum (n :: t)))

instance decDryInTop : (l : List (Front ℚ)) → Decidable (DryInTop l)
  | [] => isTrue trivial
  | [_] => isTrue trivial
  | c :: n :: t =>
    have := decDryInTop (n :: t)
    inferInstanceAs (Decidable ((c.theta ≤ n.theta → c.layer = n.layer → c.layer = 1) ∧ DryInTop (n :: t)))

/-- A dry front (0.15) over a wetter one (0.2) in layer 1. -/
def dryOverWet : List (Front ℚ) :=
  [fr 4 (15/100) 1 1 false, fr 10 (2/10) 1 2 true, fr 30 (15/100) 2 3 true]

example : Consecutive dryOverWet ∧ Ordered geo2.cum dryOverWet ∧ DryInTop dryOverWet := by decide +kernel
example : okAnd (fixDry geo2 0 dryOverWet) (fun r => r.1.length == 2 && r.2 == 4 * (5/100)) = true := by decide +kernel

/-- A dry front over a wetter one in layer 2. -/
def dryLower : List (Front ℚ) := [fr 10 (4/10) 1 1 true, fr 20 (24/100) 2 2 false, fr 30 (244/1000) 2 3 true]

/-- C11 fails below the top layer: there the heads of the layers above are changed too, the absolute value is booked,
and storage can go down while a gain is booked. -/
theorem C11_lower_layer_fails :
    ∃ (l l' : List (Front ℚ)) (mc' : ℚ), Consecutive l ∧ Column geo2.numLayers geo2.cum l ∧ Ordered geo2.cum l ∧
      fixDry geo2 0 l = .ok (l', mc') ∧ water geo2.cum l' - water geo2.cum l ≠ mc' - 0 := by
  have h : ∃ r, fixDry geo2 0 dryLower = .ok r ∧ water geo2.cum r.1 - water geo2.cum dryLower ≠ r.2 - 0 :=
    okAnd_exists (by decide +kernel)
  obtain ⟨r, h1, h2⟩ := h
  refine ⟨dryLower, r.1, r.2, ?_, ?_, ?_, h1, h2⟩
  all_goals decide +kernel

/-- C12, detector: it reports true exactly when some front is not wetter than the next deeper front of its layer. -/
theorem C12_detector (l : List (Front K)) (hne : l ≠ []) :
    ∃ b, checkDry l = .ok b ∧ (b = true ↔
      ∃ i f n, l[i]? = some f ∧ l[i + 1]? = some n ∧ f.layer = n.layer ∧ f.theta ≤ n.theta) := by
  obtain ⟨x, t, rfl⟩ := List.exists_cons_of_ne_nil hne
  refine ⟨checkDryGo (x :: t), rfl, ?_⟩
  exact checkDryGo_iff _

/-- C12, repair, partial: on a list without such pairs the pass changes nothing and books nothing; on a list with one
it removes at least one front.  (Repeating it until the detector reports false therefore ends.)  Missing: that one pass
removes all pairs, which is false, see below. -/
theorem C12_repair_partial (g : Geo K) (mc mc' : K) (l l' : List (Front K)) (hnum : Consecutive l)
    (h : fixDry g mc l = .ok (l', mc')) :
    (checkDry l = .ok false → l' = l ∧ mc' = mc) ∧ (checkDry l = .ok true → l'.length < l.length) := by
  have hn := (consecutive_iff l).mp hnum
  have hl : l ≠ [] := by rintro rfl; simp [fixDry, deref, error_bind] at h
  obtain ⟨b, hb, hiff⟩ := C12_detector l hl
  unfold fixDry at h
  simp only [bind_ok_iff] at h
  obtain ⟨_, _, h⟩ := h
  constructor
  · intro hf
    rw [hb] at hf
    simp only [Except.ok.injEq] at hf
    subst hf
    have := fixDryLoop_clean (fun i f n h1 h2 h3 h4 => by
      have := hiff.mpr ⟨i, f, n, h1, h2, h3, h4⟩; simp at this) h
    simpa using this
  · intro ht
    rw [hb] at ht
    simp only [Except.ok.injEq] at ht
    obtain ⟨i, f, n, h1, h2, h3, h4⟩ := hiff.mp ht
    exact fixDryLoop_shrinks (r := (l', mc')) hn rfl ⟨i, f, n, Nat.zero_le _, h1, h2, h3, h4⟩ h

example : checkDry dryOverWet = .ok true ∧ checkDry crossing = .ok false := by decide +kernel

/-- Moistures increase downwards over three fronts of layer 1. -/
def dryTwice : List (Front ℚ) :=
  [fr 2 (15/100) 1 1 false, fr 4 (16/100) 1 2 false, fr 10 (2/10) 1 3 true, fr 30 (15/100) 2 4 true]

/-- C12 fails for one pass: with moistures increasing downwards over three fronts of a layer, one pair is left. -/
theorem C12_one_pass_fails :
    ∃ (l l' : List (Front ℚ)) (mc' : ℚ), Consecutive l ∧ Column geo2.numLayers geo2.cum l ∧ Ordered geo2.cum l ∧
      fixDry geo2 0 l = .ok (l', mc') ∧ checkDry l' = .ok true := by
  have h : ∃ r, fixDry geo2 0 dryTwice = .ok r ∧ checkDry r.1 = .ok true := okAnd_exists (by decide +kernel)
  obtain ⟨r, h1, h2⟩ := h
  refine ⟨dryTwice, r.1, r.2, ?_, ?_, ?_, h1, h2⟩
  all_goals decide +kernel

section LawFree
variable {α : Type} [Add α] [Sub α] [Mul α] [Div α] [Neg α] [Zero α] [One α] [OfScientific α]
  [LT α] [LE α] [DecidableLT α] [DecidableLE α] [BEq α] [CMath α]

/-- C15, merge (any arithmetic): the column structure is preserved. -/
theorem C15_merge (g : Geo α) (l l' : List (Front α)) (hnum : Consecutive l) (hcol : Column g.numLayers g.cum l)
    (h : mergeFronts g l = .ok l') : Consecutive l' ∧ Column g.numLayers g.cum l' := by
  have hn := (consecutive_iff l).mp hnum
  exact ⟨(consecutive_iff _).mpr (mergeFronts_num hn h),
    (column_iff _ _ _).mpr (mergeFronts_col hn ((column_iff _ _ _).mp hcol) h)⟩

/-- C15, dry-over-wet repair (any arithmetic). -/
theorem C15_repair (g : Geo α) (mc mc' : α) (l l' : List (Front α)) (hnum : Consecutive l)
    (hcol : Column g.numLayers g.cum l) (h : fixDry g mc l = .ok (l', mc')) :
    Consecutive l' ∧ Column g.numLayers g.cum l' := by
  have hn := (consecutive_iff l).mp hnum
  exact ⟨(consecutive_iff _).mpr (fixDry_num hn h),
    (column_iff _ _ _).mpr (fixDry_col hn ((column_iff _ _ _).mp hcol) h)⟩

/-- C16, merge, bottom crossing, repair, detector, storage (any arithmetic): no undefined behaviour and no endless
loop on a well-formed column. -/
theorem C16_passes_safe (g : Geo α) (hg : g.Valid) (l : List (Front α)) (hnum : Consecutive l)
    (hcol : Column g.numLayers g.cum l) (dom mc : α) :
    (∀ e, mergeFronts g l = .error e → ¬ e.bad .all) ∧
    (∀ e, crossDomain g dom l = .error e → ¬ e.bad .all) ∧
    (∀ e, fixDry g mc l = .error e → ¬ e.bad .all) ∧
    (∀ e, checkDry l = .error e → ¬ e.bad .all) ∧
    (∀ e, massBal g.cum l = .error e → ¬ e.bad .all) := by
  have hn := (consecutive_iff l).mp hnum
  have hc := (column_iff _ _ _).mp hcol
  have hne := hc.ne_nil
  have hr : InRange g.numLayers l := hc.range
  have hlast : LastBottom l := by
    obtain ⟨a, f, rfl, _, hb, _⟩ := hc.last
    intro x hx
    simp at hx; subst hx; exact hb
  have key : ∀ {β : Type} {x : Res β} {Q : β → Prop}, Spec .all x Q → ∀ e, x = .error e → ¬ e.bad .all := by
    rintro β x Q h e rfl; exact h
  exact ⟨key (spec_mergeFronts hg hn hr hlast hne), key (spec_crossDomain hg hn hr hne), key (spec_fixDry hg hn hr hne),
    key (spec_checkDry hne), key (spec_massBalGo hg l hr 0)⟩

theorem geo2_valid : geo2.Valid := by
  refine ⟨by decide +kernel, by decide +kernel, by decide +kernel, ?_⟩
  intro k h1 h2
  have h2' : k ≤ 2 := h2
  obtain rfl | rfl : k = 1 ∨ k = 2 := by omega
  · exact ⟨1, by decide +kernel, by decide, by decide +kernel⟩
  · exact ⟨2, by decide +kernel, by decide, by decide +kernel⟩

example : geo2.Valid ∧ Consecutive overtaken ∧ Column geo2.numLayers geo2.cum overtaken :=
  ⟨geo2_valid, by decide +kernel, by decide +kernel⟩

/-- C55, number: the free-drainage front is the first front whose successor lies in the same layer, otherwise the
deepest front; the result is its position counted from 1. -/
theorem C55_free_drainage (l : List (Front α)) (hne : l ≠ []) :
    let k := wettingFrontFreeDrainage l
    1 ≤ k ∧ k ≤ l.length ∧
    (∀ i f n, i + 1 < k → l[i]? = some f → l[i + 1]? = some n → f.layer ≠ n.layer) ∧
    (k < l.length → ∃ f n, l[k - 1]? = some f ∧ l[k]? = some n ∧ f.layer = n.layer) := by
  have key : ∀ (l : List (Front α)) (j : Nat), l ≠ [] →
      j ≤ freeDrainageGo j l ∧ freeDrainageGo j l < j + l.length ∧
      (∀ i f n, i + j < freeDrainageGo j l → l[i]? = some f → l[i + 1]? = some n → f.layer ≠ n.layer) ∧
      (freeDrainageGo j l + 1 < j + l.length → ∃ f n, l[freeDrainageGo j l - j]? = some f ∧
        l[freeDrainageGo j l - j + 1]? = some n ∧ f.layer = n.layer) := by
    intro l
    induction l with
    | nil => intro j h; exact absurd rfl h
    | cons f t ih =>
      intro j _
      cases t with
      | nil =>
        refine ⟨by simp [freeDrainageGo], by simp [freeDrainageGo], ?_, ?_⟩
        · intro i a b h; simp [freeDrainageGo] at h
        · intro h; simp [freeDrainageGo] at h
      | cons n t =>
        unfold freeDrainageGo
        split
        · rename_i he
          refine ⟨le_refl _, by simp, ?_, ?_⟩
          · intro i a b h; omega
          · intro _; exact ⟨f, n, by simp, by simp, he⟩
        · rename_i he
          obtain ⟨h1, h2, h3, h4⟩ := ih (j + 1) (by simp)
          refine ⟨by omega, by simp at h2 ⊢; omega, ?_, ?_⟩
          · intro i a b h ha hb
            cases i with
            | zero =>
              simp at ha hb; subst ha; subst hb; exact he
            | succ i => exact h3 i a b (by omega) (by simpa using ha) (by simpa using hb)
          · intro h
            obtain ⟨a, b, ha, hb, hab⟩ := h4 (by simp at h ⊢; omega)
            refine ⟨a, b, ?_, ?_, hab⟩
            · rw [show freeDrainageGo (j + 1) (n :: t) - j = freeDrainageGo (j + 1) (n :: t) - (j + 1) + 1 by omega]
              simpa using ha
            · rw [show freeDrainageGo (j + 1) (n :: t) - j = freeDrainageGo (j + 1) (n :: t) - (j + 1) + 1 by omega]
              simpa using hb
  obtain ⟨h1, h2, h3, h4⟩ := key l 1 hne
  have hk : wettingFrontFreeDrainage l = freeDrainageGo 1 l := by
    unfold wettingFrontFreeDrainage
    exact if_neg (by omega)
  simp only [hk]
  refine ⟨h1, by omega, h3, ?_⟩
  intro h
  obtain ⟨a, b, ha, hb, hab⟩ := h4 (by omega)
  exact ⟨a, b, ha, by rw [show freeDrainageGo 1 l = freeDrainageGo 1 l - 1 + 1 by omega]; exact hb, hab⟩

/-- C55, layer: in a well-formed column the number of the free-drainage front equals its layer number. -/
theorem C55_number_is_layer (N : Nat) (cum : List α) (l : List (Front α)) (hcol : Column N cum l) :
    ∃ f, l[wettingFrontFreeDrainage l - 1]? = some f ∧ f.layer = wettingFrontFreeDrainage l := by
  have hc := (column_iff _ _ _).mp hcol
  have hne := hc.ne_nil
  obtain ⟨h1, h2, h3, _⟩ := C55_free_drainage l hne
  have key : ∀ i, i < wettingFrontFreeDrainage l → ∃ f, l[i]? = some f ∧ f.layer = i + 1 := by
    intro i
    induction i with
    | zero =>
      intro h
      obtain ⟨x, t, rfl⟩ := List.exists_cons_of_ne_nil hne
      exact ⟨x, rfl, hc.head⟩
    | succ i ih =>
      intro h
      obtain ⟨f, hf, hfl⟩ := ih (by omega)
      have hi : i + 1 < l.length := by omega
      obtain ⟨n, hn⟩ : ∃ n, l[i + 1]? = some n := ⟨_, List.getElem?_eq_getElem hi⟩
      refine ⟨n, hn, ?_⟩
      have hd := h3 i f n h hf hn
      obtain ⟨a, b, rfl, rfl⟩ := split2 hf hn
      have hsuf := hc.suffix
      rw [col_cons_iff] at hsuf
      rcases hsuf.2.1 with e | e
      · exact absurd e.symm hd
      · rw [e, hfl]
  obtain ⟨f, hf, hl⟩ := key (wettingFrontFreeDrainage l - 1) (by omega)
  exact ⟨f, hf, by omega⟩

example : wettingFrontFreeDrainage leaving = 2 ∧ wettingFrontFreeDrainage col3 = 1 := by decide +kernel
end LawFree

/-- C15, layer crossing: the structure is preserved if no unflagged front below the first lies exactly at the bottom of
a layer above the deepest one. -/
theorem C15_cross_layer (g : Geo K) (l l' : List (Front K)) (hnum : Consecutive l) (hcol : Column g.numLayers g.cum l)
    (hstray : NoStrayAtBottom g.numLayers g.cum l) (h : crossLayer g l = .ok l') :
    Consecutive l' ∧ Column g.numLayers g.cum l' :=
  ⟨(consecutive_iff _).mpr (crossLayer_num ((consecutive_iff l).mp hnum) h),
    (column_iff _ _ _).mpr (crossLayer_col ((column_iff _ _ _).mp hcol) (noTouch_of _ _ _ hstray) h)⟩

example : Consecutive crossing ∧ Column geo2.numLayers geo2.cum crossing ∧
    ∀ i < 3, ∀ f ∈ crossing[i + 1]?, f.toBottom = false → f.layer ≠ geo2.numLayers →
      geo2.cum[f.layer]? ≠ some f.depth := by decide +kernel

/-- An unflagged front exactly at the bottom of layer 1. -/
def stray : List (Front ℚ) :=
  [fr 12 (292/1000) 1 1 false, fr 10 (28/100) 1 2 false, fr 10 (2/10) 1 3 true, fr 30 (15/100) 2 4 true]

/-- C15 fails without that condition: a front lying exactly at the layer bottom, unflagged, below an overshooting front
is taken for the bottom front, and layer 1 is left with a hole in the layer order. -/
theorem C15_cross_stray_fails :
    ∃ l l' : List (Front ℚ), Consecutive l ∧ Column geo2.numLayers geo2.cum l ∧ crossLayer geo2 l = .ok l' ∧
      ¬ Column geo2.numLayers geo2.cum l' := by
  have h : ∃ r, crossLayer geo2 stray = .ok r ∧ ¬ Column geo2.numLayers geo2.cum r := okAnd_exists (by decide +kernel)
  obtain ⟨r, h1, h2⟩ := h
  refine ⟨stray, r, ?_, ?_, h1, h2⟩
  all_goals decide +kernel

/-- C15, domain crossing. -/
theorem C15_cross_domain (g : Geo K) (dom flux : K) (l l' : List (Front K)) (hnum : Consecutive l)
    (hcol : Column g.numLayers g.cum l) (hinc : g.cum.Pairwise (· < ·)) (hdom : g.cum[g.numLayers]? = some dom)
    (h : crossDomain g dom l = .ok (flux, l')) : Consecutive l' ∧ Column g.numLayers g.cum l' := by
  have hn := (consecutive_iff l).mp hnum
  have hc := (column_iff _ _ _).mp hcol
  refine ⟨(consecutive_iff _).mpr (crossDomain_num (r := (flux, l')) hn h),
    (column_iff _ _ _).mpr (crossDomain_col (r := (flux, l')) hn hc ?_ h)⟩
  intro f hf hb hN
  have h1 := hc.depths f hf hb
  have h2 := hc.range f hf
  rw [List.getElem?_eq_some_iff] at h1 hdom
  obtain ⟨i1, e1⟩ := h1
  obtain ⟨i2, e2⟩ := hdom
  have := List.pairwise_iff_getElem.mp hinc f.layer g.numLayers i1 i2 (by omega)
  rw [e1, e2] at this
  exact not_le.mpr this

/-- C16, layer crossing: safe on every well-formed column over strictly increasing layer bottoms. -/
theorem C16_cross_layer_safe (g : Geo K) (hg : g.Valid) (hinc : g.cum.Pairwise (· < ·)) (l : List (Front K))
    (hcol : Column g.numLayers g.cum l) : ∀ e, crossLayer g l = .error e → ¬ e.bad .all := by
  have hc := (column_iff _ _ _).mp hcol
  have h := spec_crossLayer (fb := .all) hg hinc hc.range (fun f hf => by
    obtain ⟨a, x, rfl, _, _, hd⟩ := hc.last
    simp at hf; subst hf; exact hd) hc.ne_nil
  rintro e he
  rw [he] at h; exact h

example : geo2.Valid ∧ geo2.cum.Pairwise (· < ·) ∧ Column geo2.numLayers geo2.cum crossing :=
  ⟨geo2_valid, by decide +kernel, by decide +kernel⟩

end LGAR
