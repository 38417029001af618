import Verif.Spec.Rest
import Verif.Lemmas.SoilReal
import Verif.Lemmas.Update
/-
Without rain and evaporative demand a column at rest stays at rest.
-/
namespace LGAR

theorem SameFronts.refl (l : List (Front ℝ)) : SameFronts l l := rfl

theorem SameFronts.trans {a b c : List (Front ℝ)} (h1 : SameFronts a b) (h2 : SameFronts b c) : SameFronts a c :=
  Eq.trans h1 h2

theorem sameFronts_cons {f f' : Front ℝ} {l l' : List (Front ℝ)} :
    SameFronts (f :: l) (f' :: l') ↔ ({ f with K := 0 } : Front ℝ) = { f' with K := 0 } ∧ SameFronts l l' := by
  simp [SameFronts]

theorem massBalGo_same {cum : List ℝ} : ∀ {l l' : List (Front ℝ)} {s : ℝ}, SameFronts l l' → massBalGo cum s l = massBalGo cum s l'
  | [], [], _, _ => rfl
  | [], _ :: _, _, h => by simp [SameFronts] at h
  | _ :: _, [], _, h => by simp [SameFronts] at h
  | f :: t, f' :: t', s, h => by
    obtain ⟨h1, h2⟩ := sameFronts_cons.1 h
    simp only [Front.mk.injEq, true_and] at h1
    obtain ⟨e2, e3, _, e1, _⟩ := h1
    unfold massBalGo
    rw [e1]
    refine bind_congr fun base => ?_
    cases t with
    | nil =>
      cases t' with
      | nil => simp only [e2, e3]
      | cons _ _ => simp [SameFronts] at h2
    | cons n r =>
      cases t' with
      | nil => simp [SameFronts] at h2
      | cons n' r' =>
        have h3 := (sameFronts_cons.1 h2).1
        simp only [Front.mk.injEq, true_and] at h3
        obtain ⟨_, e5, _, e4, _⟩ := h3
        simp only [e2, e3, e4, e5]
        split_ifs
        · exact massBalGo_same h2
        · exact massBalGo_same h2

theorem massBal_same {cum : List ℝ} {l l' : List (Front ℝ)} (h : SameFronts l l') : massBal cum l = massBal cum l' :=
  massBalGo_same h

variable {g : Geo ℝ} {psi : ℝ}

/-- Moisture at head `psi` of a physical soil: between the limits, and the curve inverted gives `psi` back. -/
theorem rest_soil {s : SoilProps ℝ} (hs : s.Physical) (hpsi : 0 ≤ psi) {th : ℝ}
    (h : calcThetaFromH psi s.vgAlpha s.vgM s.vgN s.thetaE s.thetaR = .ok th) :
    s.thetaR < th ∧ th ≤ s.thetaE ∧ psiOf s th = .ok psi ∧ ∃ Se, calcSeFromTheta th s.thetaE s.thetaR = .ok Se ∧ 0 ≤ Se ∧ Se ≤ 1 ∧
      calcHFromSe Se s.vgAlpha s.vgM s.vgN = .ok psi := by
  have hg := hs.gap
  have h0 := vgSe_pos (m := s.vgM) (n := s.vgN) hs.alpha hpsi
  have h1 := vgSe_le_one (n := s.vgN) hs.alpha hs.m_pos.le hpsi
  rw [calcThetaFromH_real hs.alpha hs.n_pos hpsi, Except.ok.injEq] at h
  have hne : s.thetaE - s.thetaR ≠ 0 := by linarith
  have eSe : calcSeFromTheta th s.thetaE s.thetaR = .ok (vgSe s.vgAlpha s.vgM s.vgN psi) := by
    rw [calcSeFromTheta_real hg, ← h]
    congr 1; field_simp; ring
  have eH : calcHFromSe (vgSe s.vgAlpha s.vgM s.vgN psi) s.vgAlpha s.vgM s.vgN = .ok psi := by
    rw [calcHFromSe_real hs.alpha hs.m_pos hs.n_pos h0 h1, vgH_vgSe hs.alpha hs.m_pos hs.n_pos hpsi]
  refine ⟨?_, ?_, ?_, _, eSe, h0.le, h1, eH⟩
  · rw [← h]; nlinarith
  · rw [← h]; nlinarith
  · unfold psiOf; rw [eSe, ok_bind, eH]

theorem RestFront.psiK (hg : Ground g) (hpsi : 0 ≤ psi) {k : Nat} (h1 : 1 ≤ k) (hk : k ≤ g.numLayers) {f : Front ℝ}
    (h : RestFront g psi k f) : ∃ K, psiKOf g k f.theta = .ok (psi, K) ∧ 0 ≤ K := by
  obtain ⟨s, hs, hp, hth⟩ := h.theta
  obtain ⟨ff, hf, hff⟩ := hg.frost k h1 hk
  obtain ⟨_, _, _, Se, e1, h0, h1, e2⟩ := rest_soil hp hpsi hth
  refine ⟨_, ?_, mul_nonneg (mul_nonneg hp.ksat.le hff) (muK_nonneg (m := s.vgM) (Se := Se))⟩
  unfold psiKOf
  rw [hs, ok_bind, idx_ok_iff.2 hf, ok_bind, e1, ok_bind, e2, ok_bind, calcKFromSe_real hp.m_pos h0 h1, ok_bind]
  rfl

section
variable {l : List (Front ℝ)}

theorem Rest.get (hl : Rest g psi l) {i : Nat} (hi : i < g.numLayers) :
    ∃ f, l[i]? = some f ∧ RestFront g psi (i + 1) f := by
  have : i < l.length := by rw [hl.len]; exact hi
  exact ⟨l[i], List.getElem?_eq_getElem this, hl.front i _ (List.getElem?_eq_getElem this)⟩

theorem Rest.deref (hl : Rest g psi l) {i : Nat} (hi : i < g.numLayers) :
    ∃ f, LGAR.deref l i = .ok f ∧ l[i]? = some f ∧ RestFront g psi (i + 1) f := by
  obtain ⟨f, h1, h2⟩ := hl.get hi
  exact ⟨f, deref_ok_iff.2 h1, h1, h2⟩

theorem RestFront.less (hg : Ground g) {k : Nat} (hk : k < g.numLayers) {f f' : Front ℝ} (h : RestFront g psi k f)
    (h' : RestFront g psi (k + 1) f') : f.depth < f'.depth := by
  obtain ⟨a, b, ha, hb, hab⟩ := hg.cum k hk
  have e1 := h.depth.symm.trans ha
  have e2 := h'.depth.symm.trans hb
  simp only [Option.some.injEq] at e1 e2
  rw [e1, e2]; exact hab

/-- Bottoms increase with the layer. -/
theorem Ground.cum_lt (hg : Ground g) : ∀ {j i : Nat}, i < j → j ≤ g.numLayers → ∀ {a b : ℝ}, g.cum[i]? = some a →
    g.cum[j]? = some b → a < b
  | 0, _, h, _, _, _, _, _ => absurd h (Nat.not_lt_zero _)
  | j + 1, i, h, hj, a, b, ha, hb => by
    obtain ⟨x, y, hx, hy, hxy⟩ := hg.cum j (by omega)
    rw [hy, Option.some.injEq] at hb
    subst hb
    rcases Nat.lt_succ_iff_lt_or_eq.1 h with h' | h'
    · exact lt_trans (hg.cum_lt h' (by omega) ha hx) hxy
    · subst h'
      rw [hx, Option.some.injEq] at ha
      rw [← ha]; exact hxy

/-! ## The passes leave the list alone -/

theorem Rest.crossStep (hg : Ground g) (hl : Rest g psi l) {cur : Nat} (hc : cur + 1 < g.numLayers) :
    LGAR.crossStep g cur l = .ok l := by
  obtain ⟨c, e1, _, hc1⟩ := hl.deref (i := cur) (by omega)
  obtain ⟨n, e2, _, hn⟩ := hl.deref (i := cur + 1) hc
  obtain ⟨s, hs, _⟩ := hg.soil (cur + 1) (by omega) (by omega)
  obtain ⟨ff, hff, _⟩ := hg.frost (cur + 1) (by omega) (by omega)
  unfold LGAR.crossStep
  rw [e1, ok_bind, hc1.layer, hs, ok_bind, idx_ok_iff.2 hff, ok_bind, e2, ok_bind, idx_ok_iff.2 hc1.depth, ok_bind,
    if_neg (fun h => lt_irrefl _ h.1)]
  rfl

theorem Rest.crossLoop (hg : Ground g) (hl : Rest g psi l) : ∀ {fuel cur : Nat}, cur < g.numLayers → g.numLayers < fuel + cur →
    LGAR.crossLoop g fuel (cur + 1) cur l = .ok l
  | 0, cur, h1, h2 => by omega
  | fuel + 1, cur, h1, h2 => by
    unfold LGAR.crossLoop
    by_cases h : cur + 1 = l.length
    · rw [if_pos h]
    · rw [if_neg h, hl.crossStep hg (by rw [hl.len] at h; omega), ok_bind]
      exact hl.crossLoop hg (by rw [hl.len] at h; omega) (by omega)

theorem Rest.crossLayer (hg : Ground g) (hl : Rest g psi l) : LGAR.crossLayer g l = .ok l :=
  hl.crossLoop hg hg.pos (by rw [hl.len]; omega)

theorem Rest.mergeStep (hg : Ground g) (hl : Rest g psi l) {cur : Nat} (hc : cur + 1 < g.numLayers) :
    LGAR.mergeStep g cur l = .ok (cur + 1, l) := by
  obtain ⟨c, e1, _, hc1⟩ := hl.deref (i := cur) (by omega)
  obtain ⟨n, e2, _, hn⟩ := hl.deref (i := cur + 1) hc
  unfold LGAR.mergeStep
  rw [e1, ok_bind, e2, ok_bind, if_neg (fun h => lt_asymm h.1 (hc1.less hg hc hn))]
  rfl

theorem Rest.mergeLoop (hg : Ground g) (hl : Rest g psi l) : ∀ {fuel cur : Nat}, cur < g.numLayers → g.numLayers < fuel + cur →
    LGAR.mergeLoop g fuel (cur + 1) cur l = .ok l
  | 0, cur, h1, h2 => by omega
  | fuel + 1, cur, h1, h2 => by
    unfold LGAR.mergeLoop
    by_cases h : cur + 1 = l.length
    · rw [if_pos h]
    · rw [if_neg h, hl.mergeStep hg (by rw [hl.len] at h; omega), ok_bind]
      exact hl.mergeLoop hg (by rw [hl.len] at h; omega) (by omega)

theorem Rest.mergeFronts (hg : Ground g) (hl : Rest g psi l) : LGAR.mergeFronts g l = .ok l :=
  hl.mergeLoop hg hg.pos (by rw [hl.len]; omega)

theorem Rest.domainLoop (hg : Ground g) (hl : Rest g psi l) {column : ℝ} (hcol : g.cum[g.numLayers]? = some column) :
    ∀ {fuel cur : Nat}, cur < g.numLayers → g.numLayers < fuel + cur →
    LGAR.domainLoop g column l.length fuel (cur + 1) cur l = .ok (0, l)
  | 0, cur, h1, h2 => by omega
  | fuel + 1, cur, h1, h2 => by
    unfold LGAR.domainLoop
    by_cases h : cur + 1 = l.length
    · rw [if_pos h]
    · rw [hl.len] at h
      obtain ⟨c, e1, _, hc1⟩ := hl.deref (i := cur) (by omega)
      obtain ⟨n, e2, _, hn⟩ := hl.deref (i := cur + 1) (by omega)
      obtain ⟨s, hs, _⟩ := hg.soil (cur + 1) (by omega) (by omega)
      unfold Geo.soil at hs
      obtain ⟨t, ht, _⟩ := bind_ok_iff.1 hs
      rw [if_neg (by rw [hl.len]; exact h), if_neg (by rw [hl.len]; omega), e1, ok_bind, hc1.layer, ht, ok_bind, e2, ok_bind,
        if_neg (fun h' => absurd h'.2 (not_le.2 (hg.cum_lt (by omega) le_rfl hc1.depth hcol)))]
      exact hl.domainLoop hg hcol (by omega) (by omega)

theorem Rest.crossDomain (hg : Ground g) (hl : Rest g psi l) {column : ℝ} (hcol : g.cum[g.numLayers]? = some column) :
    LGAR.crossDomain g column l = .ok (0, l) :=
  hl.domainLoop hg hcol hg.pos (by rw [hl.len]; omega)

/-- Successive fronts lie in different layers. -/
theorem Rest.pairs (hl : Rest g psi l) : ∀ i c n, l[i]? = some c → l[i + 1]? = some n → c.layer ≠ n.layer := by
  intro i c n hc hn
  rw [(hl.front _ _ hc).layer, (hl.front _ _ hn).layer]; omega

theorem checkDryGo_pairs : ∀ {l : List (Front ℝ)}, (∀ i c n, l[i]? = some c → l[i + 1]? = some n → c.layer ≠ n.layer) →
    checkDryGo l = false
  | [], _ => rfl
  | [_], _ => rfl
  | c :: n :: t, h => by
    unfold checkDryGo
    rw [if_neg (fun h' => h 0 c n rfl rfl h'.2)]
    exact checkDryGo_pairs fun i a b ha hb => h (i + 1) a b ha hb

theorem Rest.checkFix (hg : Ground g) (hl : Rest g psi l) (mc : ℝ) : LGAR.checkFix g mc l = .ok (l, mc) := by
  obtain ⟨f, e, _⟩ := hl.deref (i := 0) hg.pos
  unfold LGAR.checkFix checkDry
  rw [e, ok_bind, checkDryGo_pairs hl.pairs, pure_bind, if_neg (by simp)]
  rfl

theorem freeDrainageGo_pairs : ∀ {l : List (Front ℝ)} {k : Nat}, l ≠ [] →
    (∀ i c n, l[i]? = some c → l[i + 1]? = some n → c.layer ≠ n.layer) → freeDrainageGo k l + 1 = k + l.length
  | [], _, h, _ => absurd rfl h
  | [_], k, _, _ => by simp [freeDrainageGo]
  | c :: n :: t, k, _, h => by
    unfold freeDrainageGo
    rw [if_neg (h 0 c n rfl rfl), freeDrainageGo_pairs (by simp) fun i a b ha hb => h (i + 1) a b ha hb]
    simp only [List.length_cons]; omega

theorem Rest.ne (hg : Ground g) (hl : Rest g psi l) : l ≠ [] := by
  intro h
  have := hl.len
  have := hg.pos
  subst h
  simp at *; omega

theorem Rest.drain (hg : Ground g) (hl : Rest g psi l) : wettingFrontFreeDrainage l = g.numLayers := by
  have h := freeDrainageGo_pairs (k := 1) (hl.ne hg) hl.pairs
  rw [hl.len] at h
  have e : freeDrainageGo 1 l = g.numLayers := by omega
  unfold wettingFrontFreeDrainage
  simp only [e, hl.len]
  rw [if_neg (by omega)]

theorem findFrom_numbers : ∀ {l : List (Front ℝ)} {k : Nat} {j : Nat}, (∀ i f, l[i]? = some f → f.front = ((k + i : Nat) : Int)) →
    j < l.length → findFrom ((k + j : Nat) : Int) l = some j
  | [], _, _, _, h => absurd h (Nat.not_lt_zero _)
  | f :: t, k, j, hn, hj => by
    unfold findFrom
    have h0 := hn 0 f rfl
    rw [Nat.add_zero] at h0
    rw [h0]
    cases j with
    | zero => simp
    | succ j =>
      rw [if_neg (by simp only [Int.natCast_inj]; omega)]
      have := findFrom_numbers (l := t) (k := k + 1) (j := j)
        (fun i f hf => by rw [hn (i + 1) f hf]; congr 1; omega) (by simpa using hj)
      rw [show k + (j + 1) = k + 1 + j by omega, this]; rfl

theorem Rest.find (hl : Rest g psi l) {i : Nat} (hi : i < g.numLayers) : findFrom ((i + 1 : Nat) : Int) l = some i := by
  have := findFrom_numbers (l := l) (k := 1) (j := i)
    (fun j f hf => by rw [(hl.front j f hf).number]; congr 1; omega) (by rw [hl.len]; exact hi)
  rwa [Nat.add_comm] at this

theorem Rest.lookup (hg : Ground g) (hl : Rest g psi l) {i : Nat} (hi : i < g.numLayers) :
    listFindFront ((i + 1 : Nat) : Int) l [] = some i ∧ listFindFront ((i + 1 : Nat) : Int) l l = some i := by
  have he : l.isEmpty = false := by
    have := hl.ne hg
    cases l <;> simp_all
  unfold listFindFront
  simp only [he, hl.find hi]
  simp

/-! ## Moving -/

theorem idxPred_get {β : Type} {xs : List β} {k : Nat} {x : β} (h : 1 ≤ k) (hx : xs[k - 1]? = some x) : idxPred xs k = .ok x := by
  cases k with
  | zero => omega
  | succ k => exact idx_ok_iff.2 hx

theorem set_get_self {β : Type} {l : List β} {i : Nat} {x : β} (h : l[i]? = some x) : l.set i x = l := by
  apply List.ext_getElem?
  intro j
  rw [List.getElem?_set]
  split_ifs with h1 h2
  · subst h1; rw [h]
  · subst h1
    rw [List.getElem?_eq_none (by omega)] at h; simp at h
  · rfl

/-- The layers above: old and new mass stay equal when the head is the same. -/
theorem moveLayers_rest (hg : Ground g) (hpsi : 0 ≤ psi) : ∀ {n k : Nat} {a : MoveAcc ℝ}, 1 ≤ k → k + n ≤ g.numLayers + 1 →
    a.prior = a.new → ∃ a', moveLayers g psi psi none n k a = .ok a' ∧ a'.prior = a'.new
  | 0, k, a, _, _, h => ⟨a, rfl, h⟩
  | n + 1, k, a, h1, h2, h => by
    obtain ⟨s, hs, hp⟩ := hg.soil k h1 (by omega)
    obtain ⟨x, y, hx, hy, _⟩ := hg.cum (k - 1) (by omega)
    rw [show k - 1 + 1 = k by omega] at hy
    obtain ⟨th, hth⟩ : ∃ th, calcThetaFromH psi s.vgAlpha s.vgM s.vgN s.thetaE s.thetaR = .ok th :=
      ⟨_, calcThetaFromH_real hp.alpha hp.n_pos hpsi⟩
    have e0 : idxPred g.cum k = .ok x := idxPred_get h1 hx
    obtain ⟨a', ha, he⟩ := moveLayers_rest hg hpsi (n := n) (k := k + 1)
      (a := { prior := a.prior + (y - x) * (th - 0), new := a.new + (y - x) * (th - 0),
              dTheta := a.dTheta ++ [0], dThick := a.dThick ++ [y - x] }) (by omega) (by omega) (by rw [h])
    refine ⟨a', ?_, he⟩
    rw [← ha]
    conv_lhs => unfold moveLayers
    simp only [hs, ok_bind, hth, Option.map_none, belowTheta, idx_ok_iff.2 hy, e0]

variable {fuel nFd : Nat} {dt : ℝ}

theorem clamp_inside {s : SoilProps ℝ} {th : ℝ} (h1 : s.thetaR < th) (h2 : th ≤ s.thetaE) : clampTheta s (some th) = th := by
  show max s.thetaR (min th s.thetaE) = th
  rw [min_eq_left h2, max_eq_right h1.le]

theorem Rest.moveDeepest (hg : Ground g) (hpsi : 0 ≤ psi) {c : Front ℝ} {s : SoilProps ℝ} (hc : RestFront g psi g.numLayers c)
    (hs : g.soil g.numLayers = .ok s) (isFd : Bool) : LGAR.moveDeepest fuel g dt 0 isFd c c s 0 = .ok (c, 0) := by
  have hpos := hg.pos
  obtain ⟨x, y, hx, hy, _⟩ := hg.cum (g.numLayers - 1) (by omega)
  rw [show g.numLayers - 1 + 1 = g.numLayers by omega] at hy
  have e0 : idxPred g.cum g.numLayers = .ok x := idxPred_get hpos hx
  obtain ⟨s', hs', hp, hth⟩ := hc.theta
  rw [hs, Except.ok.injEq] at hs'
  subst hs'
  obtain ⟨r1, r2, r3, _⟩ := rest_soil hp hpsi hth
  obtain ⟨a', ha, he⟩ := moveLayers_rest hg hpsi (n := g.numLayers - 1) (k := 1)
    (a := { prior := (c.depth - x) * (c.theta - 0), new := (c.depth - x) * (c.theta - 0), dTheta := [0], dThick := [0] })
    le_rfl (by omega) rfl
  have hcc : ({ c with depth := c.depth + c.dzdt * dt } : Front ℝ) = c := by
    have : c.depth + c.dzdt * dt = c.depth := by rw [hc.speed, zero_mul, add_zero]
    rw [this]
  have hpr : (if isFd then a'.prior + (0 - (0 + 0)) else a'.prior) = a'.new := by rw [← he]; split_ifs <;> ring
  have ht : ∀ dT dK, thetaMassBalance fuel g g.numLayers s psi a'.new a'.new 0 dT dK = .ok (some c.theta, 0) := by
    intro dT dK
    unfold thetaMassBalance
    have : CMath.fabs (a'.new - a'.new) ≤ (1e-12 : ℝ) := by
      show |a'.new - a'.new| ≤ _
      rw [sub_self, abs_zero]; norm_num
    simp only [if_pos this, hth, ok_bind]
    rfl
  unfold LGAR.moveDeepest
  rw [hcc]
  simp only [hc.layer, e0, ok_bind, hc.head, ha, hpr, ht, clamp_inside r1 r2, r3]
  have : ({ c with theta := c.theta, psi := psi, layer := g.numLayers } : Front ℝ) = c := by rw [← hc.head, ← hc.layer]
  rw [this]; rfl

theorem Rest.moveOne (hg : Ground g) (hpsi : 0 ≤ psi) (hl : Rest g psi l) {i : Nat} (hi : i < g.numLayers) :
    LGAR.moveOne fuel g dt 0 nFd l.length (i + 1) l l 0 = .ok (l, 0) := by
  have hpos := hg.pos
  obtain ⟨x, y, _, hy, _⟩ := hg.cum (g.numLayers - 1) (by omega)
  rw [show g.numLayers - 1 + 1 = g.numLayers by omega] at hy
  obtain ⟨c, hc, hcr⟩ := hl.get hi
  obtain ⟨s, hs, hp, hth⟩ := hcr.theta
  have hrd : moveReadAbove (i + 1) l = .ok () := by
    unfold moveReadAbove
    by_cases h : i + 1 = 1
    · rw [if_pos h]
    · rw [if_neg h]
      obtain ⟨f, hf, _⟩ := hl.get (i := i - 1) (by omega)
      have e : Int.ofNat (i + 1) - 1 = ((i - 1 + 1 : Nat) : Int) := by
        rw [show i - 1 + 1 = i by omega]; simp
      rw [e, (hl.lookup hg (i := i - 1) (by omega)).1]
      simp only [derefOpt, deref_ok_iff.2 hf, ok_bind]
  have e1 := hl.lookup hg hi
  have he : l.isEmpty = false := by
    have := hl.ne hg
    cases l <;> simp_all
  unfold LGAR.moveOne
  have e1' : listFindFront (Int.ofNat (i + 1)) l [] = some i := e1.1
  have e1'' : listFindFront (Int.ofNat (i + 1)) l l = some i := e1.2
  simp only [idx_ok_iff.2 hy, ok_bind, e1', e1'', derefOpt, deref_ok_iff.2 hc, hcr.layer, hs, hrd, Option.getD_some, he, hl.len]
  by_cases hw : i + 1 < g.numLayers
  · obtain ⟨n, hn, hnr⟩ := hl.get (i := i + 1) hw
    have e2 : listFindFront (Int.ofNat (i + 1) + 1) l [] = some (i + 1) := (hl.lookup hg (i := i + 1) hw).1
    rw [if_pos hw, if_pos hw, e2]
    simp only [deref_ok_iff.2 hn, ok_bind, hnr.layer]
    rw [if_pos (by omega), hnr.head, hth, ok_bind]
    have : ({ c with theta := c.theta, psi := psi, layer := i + 1 } : Front ℝ) = c := by rw [← hcr.head, ← hcr.layer]
    rw [this, set_get_self hc]; rfl
  · have hN : i + 1 = g.numLayers := by omega
    rw [if_neg hw, if_pos ⟨hN, trivial⟩]
    simp only [if_false, Bool.false_eq_true, deref_ok_iff.2 hc, ok_bind]
    rw [Rest.moveDeepest hg hpsi (hN ▸ hcr) (hN ▸ hs), ok_bind, set_get_self hc]; rfl

theorem Rest.moveOnes (hg : Ground g) (hpsi : 0 ≤ psi) (hl : Rest g psi l) : ∀ {wf : Nat}, wf ≤ g.numLayers →
    LGAR.moveOnes fuel g dt 0 nFd l.length l wf l 0 = .ok (l, 0)
  | 0, _ => rfl
  | wf + 1, h => by
    unfold LGAR.moveOnes
    rw [hl.moveOne hg hpsi (by omega), ok_bind]
    exact hl.moveOnes hg hpsi (by omega)

theorem Rest.mass_pos (hg : Ground g) (hpsi : 0 ≤ psi) : ∀ {l : List (Front ℝ)} {k : Nat} {s : ℝ}, l ≠ [] → k + l.length ≤ g.numLayers →
    (∀ i f, l[i]? = some f → RestFront g psi (k + i + 1) f) → ∃ m, massBalGo g.cum s l = .ok m ∧ s < m
  | [], _, _, h, _, _ => absurd rfl h
  | f :: t, k, s, _, hk, hf => by
    have h0 := hf 0 f rfl
    obtain ⟨so, hs, hp, hth⟩ := h0.theta
    obtain ⟨r1, _⟩ := rest_soil hp hpsi hth
    have hr := hp.res
    simp only [List.length_cons] at hk
    obtain ⟨x, y, hx, hy, hxy⟩ := hg.cum k (by omega)
    have hd := h0.depth
    rw [Nat.add_zero, hy, Option.some.injEq] at hd
    have e0 : idxPred g.cum f.layer = .ok x := by
      rw [h0.layer]
      exact idxPred_get (by omega) (by simpa using hx)
    have hpos : 0 < (f.depth - x) * f.theta := mul_pos (by linarith) (by linarith)
    unfold massBalGo
    rw [e0, ok_bind]
    cases t with
    | nil =>
      refine ⟨_, rfl, ?_⟩
      rw [mul_comm]; linarith
    | cons n r =>
      have h1 := hf 1 n rfl
      simp only
      rw [if_neg (by rw [h0.layer, h1.layer]; omega)]
      obtain ⟨m, hm, hlt⟩ := Rest.mass_pos hg hpsi (l := n :: r) (k := k + 1) (s := s + (f.depth - x) * f.theta) (by simp)
        (by simp only [List.length_cons] at hk ⊢; omega)
        (fun i f hi => by have := hf (i + 1) f hi; rwa [show k + (i + 1) + 1 = k + 1 + i + 1 by omega] at this)
      exact ⟨m, hm, by linarith⟩

theorem Rest.massBal (hg : Ground g) (hpsi : 0 ≤ psi) (hl : Rest g psi l) : ∃ m, LGAR.massBal g.cum l = .ok m ∧ 0 < m :=
  Rest.mass_pos hg hpsi (k := 0) (hl.ne hg) (by rw [hl.len]; omega)
    (fun i f hi => by rw [Nat.zero_add]; exact hl.front i f hi)

theorem Rest.moveTop (hg : Ground g) (hpsi : 0 ≤ psi) (hl : Rest g psi l) {m : ℝ} (hm : LGAR.massBal g.cum l = .ok m) :
    LGAR.moveTop g m 0 l 0 = .ok (l, 0, 0) := by
  have hpos := hg.pos
  obtain ⟨m', hm', hm0⟩ := hl.massBal hg hpsi
  obtain rfl : m = m' := by rw [hm, Except.ok.injEq] at hm'; exact hm'
  obtain ⟨x, y, _, hy, _⟩ := hg.cum (g.numLayers - 1) (by omega)
  rw [show g.numLayers - 1 + 1 = g.numLayers by omega] at hy
  obtain ⟨s, hs, hp⟩ := hg.soil g.numLayers hpos le_rfl
  obtain ⟨c, hc, hcr⟩ := hl.get (i := g.numLayers - 1) (by omega)
  have e1 := (hl.lookup hg (i := g.numLayers - 1) (by omega)).1
  rw [show g.numLayers - 1 + 1 = g.numLayers by omega] at e1
  have e1' : listFindFront (Int.ofNat g.numLayers) l [] = some (g.numLayers - 1) := e1
  unfold LGAR.moveTop
  simp only [idx_ok_iff.2 hy, ok_bind, hl.crossLayer hg, hl.drain hg, hs, (show cassert (0 < m) "old_mass > 0.0" = .ok () from
    cassert_ok_iff.2 hm0), e1', derefOpt, deref_ok_iff.2 hc, Option.getD_some]
  split_ifs
  · have hn : l[g.numLayers - 1 + 1]? = none := List.getElem?_eq_none (by rw [hl.len]; omega)
    rw [hm, ok_bind, hn]
    simp only [mcFactor, ok_bind]
    have herr : ¬ ((1e-10 : ℝ) < CMath.fabs (CMath.fabs (m - (m + 0 - (0 + 0))) - 1e-10)) := by
      show ¬ ((1e-10 : ℝ) < |(|m - (m + 0 - (0 + 0))|) - 1e-10|)
      rw [show m - (m + 0 - (0 + 0)) = 0 by ring, abs_zero, zero_sub, abs_neg, abs_of_pos (by norm_num)]
      exact lt_irrefl _
    rw [show mcFuel = 10001 + 1 from rfl, LGAR.mcLoop]
    simp only [if_neg herr, ok_bind]
    rfl
  · rfl

/-! ## Refreshing the conductivities -/

theorem refresh_rest (hg : Ground g) (hpsi : 0 ≤ psi) : ∀ {l : List (Front ℝ)} {k : Nat}, l ≠ [] → k + l.length ≤ g.numLayers →
    (∀ i f, l[i]? = some f → RestFront g psi (k + i + 1) f) →
    ∃ l', refresh g l = .ok l' ∧ SameFronts l l' ∧ ∀ i f, l'[i]? = some f → RestFront g psi (k + i + 1) f
  | [], _, h, _, _ => absurd rfl h
  | [f], k, _, _, hf => ⟨[f], rfl, rfl, hf⟩
  | f :: n :: t, k, _, hk, hf => by
    have h0 : RestFront g psi (k + 1) f := hf 0 f rfl
    simp only [List.length_cons] at hk
    have hone : ∃ f', refreshOne g f = .ok f' ∧ ({ f with K := 0 } : Front ℝ) = { f' with K := 0 } ∧ RestFront g psi (k + 1) f' := by
      unfold refreshOne
      split_ifs
      · obtain ⟨K, hK, hK0⟩ := h0.psiK hg hpsi (by omega) (by omega)
        rw [show psiKOf g f.layer f.theta = .ok (psi, K) by rw [h0.layer]; exact hK, ok_bind]
        refine ⟨_, rfl, by simp only [Front.mk.injEq, true_and, and_true]; exact h0.head, ?_⟩
        exact ⟨h0.layer, h0.number, h0.bottom, h0.speed, rfl, hK0, h0.depth, h0.theta⟩
      · exact ⟨f, rfl, rfl, h0⟩
    obtain ⟨f', e1, e2, e3⟩ := hone
    obtain ⟨l', e4, e5, e6⟩ := refresh_rest hg hpsi (l := n :: t) (k := k + 1) (by simp)
      (by simp only [List.length_cons]; omega)
      (fun i f hi => by have := hf (i + 1) f hi; rwa [show k + (i + 1) + 1 = k + 1 + i + 1 by omega] at this)
    refine ⟨f' :: l', ?_, sameFronts_cons.2 ⟨e2, e5⟩, ?_⟩
    · unfold refresh
      rw [e1, ok_bind, e4, ok_bind]; rfl
    · intro i f hi
      cases i with
      | zero =>
        simp only [List.getElem?_cons_zero, Option.some.injEq] at hi
        rw [← hi]; exact e3
      | succ i =>
        have := e6 i f (by simpa using hi)
        rwa [show k + (i + 1) + 1 = k + 1 + i + 1 by omega]

theorem SameFronts.length {a b : List (Front ℝ)} (h : SameFronts a b) : a.length = b.length := by
  have := congrArg List.length h
  simpa using this

theorem Rest.refresh (hg : Ground g) (hpsi : 0 ≤ psi) (hl : Rest g psi l) :
    ∃ l', LGAR.refresh g l = .ok l' ∧ SameFronts l l' ∧ Rest g psi l' := by
  obtain ⟨l', h1, h2, h3⟩ := refresh_rest hg hpsi (k := 0) (hl.ne hg) (by rw [hl.len]; omega)
    (fun i f hi => by rw [Nat.zero_add]; exact hl.front i f hi)
  exact ⟨l', h1, h2, by rw [← h2.length]; exact hl.len, fun i f hi => by have := h3 i f hi; rwa [Nat.zero_add] at this⟩

theorem Rest.fixSingle (hg : Ground g) (hl : Rest g psi l) : LGAR.fixSingle g l = .ok l := by
  unfold LGAR.fixSingle
  split
  · rename_i f
    have h := (hl.front 0 f rfl).depth
    rw [idx_ok_iff.2 h, ok_bind, if_pos (by simp)]
    rfl
  · rfl

theorem Rest.movePost (hg : Ground g) (hpsi : 0 ≤ psi) (hl : Rest g psi l) :
    ∃ l', LGAR.movePost g l 0 0 = .ok (l', 0, 0) ∧ SameFronts l l' ∧ Rest g psi l' := by
  have hpos := hg.pos
  obtain ⟨x, y, _, hy, _⟩ := hg.cum (g.numLayers - 1) (by omega)
  rw [show g.numLayers - 1 + 1 = g.numLayers by omega] at hy
  obtain ⟨l', h1, h2, h3⟩ := hl.refresh hg hpsi
  refine ⟨l', ?_, h2, h3⟩
  have hz : ¬ ((1.0e-7 : ℝ) < CMath.fabs 0) := by
    show ¬ ((1.0e-7 : ℝ) < |0|)
    rw [abs_zero]; norm_num
  unfold LGAR.movePost
  simp only [hl.checkFix hg, ok_bind, hl.mergeFronts hg, hl.crossLayer hg, idx_ok_iff.2 hy, hl.crossDomain hg hy, if_neg hz, h1,
    h3.fixSingle hg, add_zero]
  rfl

theorem Rest.moveFronts (hg : Ground g) (hpsi : 0 ≤ psi) (hl : Rest g psi l) {m : ℝ} (hm : LGAR.massBal g.cum l = .ok m) :
    ∃ l', LGAR.moveFronts fuel g dt 0 nFd m 0 l l = .ok (l', 0, 0) ∧ SameFronts l l' ∧ Rest g psi l' := by
  obtain ⟨l', h1, h2, h3⟩ := hl.movePost hg hpsi
  refine ⟨l', ?_, h2, h3⟩
  have he : l.isEmpty = false := by
    have := hl.ne hg
    cases l <;> simp_all
  unfold LGAR.moveFronts moveMain
  rw [he]
  simp only [Bool.false_eq_true, if_false]
  rw [hl.moveOnes hg hpsi (by rw [hl.len]), ok_bind, hl.moveTop hg hpsi hm, ok_bind]
  exact h1

/-! ## Velocities -/

theorem dzdtGo_rest (hg : Ground g) {closed : Bool} {nint : Int} {hp : ℝ} : ∀ {l : List (Front ℝ)} {k : Nat}, k + l.length ≤ g.numLayers →
    (∀ i f, l[i]? = some f → RestFront g psi (k + i + 1) f) → dzdtGo fuel closed nint hp g l = .ok l
  | [], _, _, _ => rfl
  | c :: t, k, hk, hf => by
    have h0 : RestFront g psi (k + 1) c := hf 0 c rfl
    simp only [List.length_cons] at hk
    obtain ⟨s, hs, _⟩ := hg.soil (k + 1) (by omega) (by omega)
    obtain ⟨ff, hff, _⟩ := hg.frost (k + 1) (by omega) (by omega)
    have ih := dzdtGo_rest hg (closed := closed) (nint := nint) (hp := hp) (l := t) (k := k + 1) (by omega)
      (fun i f hi => by have := hf (i + 1) f hi; rwa [show k + (i + 1) + 1 = k + 1 + i + 1 by omega] at this)
    unfold dzdtGo
    rw [if_neg (not_lt.2 h0.cond), h0.layer, hs, ok_bind, idx_ok_iff.2 hff, ok_bind]
    cases t with
    | nil => rfl
    | cons n r =>
      simp only [dzdtVel, h0.bottom, if_true, ok_bind, ih]
      rw [← h0.speed, ← h0.layer, ← h0.bottom]

theorem Rest.dzdtCalc (hg : Ground g) (hl : Rest g psi l) {closed : Bool} {nint : Int} {hp : ℝ} :
    LGAR.dzdtCalc fuel closed nint hp g l = .ok l := by
  have he : l.isEmpty = false := by
    have := hl.ne hg
    cases l <;> simp_all
  unfold LGAR.dzdtCalc
  rw [he]
  exact dzdtGo_rest hg (k := 0) (by rw [hl.len]; omega) (fun i f hi => by rw [Nat.zero_add]; exact hl.front i f hi)

/-! ## A sub-timestep -/

/-- A sub-timestep without rain and demand from `u` led to `w`. -/
structure Quiet (c : StepCfg ℝ) (psi : ℝ) (u w : SubSt ℝ) : Prop where
  rest : Rest c.geo psi w.head
  same : SameFronts u.head w.head
  volend : w.volend = u.volend
  mass : LGAR.massBal c.geo.cum w.head = .ok w.volend
  precip : w.precipMm = 0
  pet : w.petMm = 0
  volon : w.volon = 0
  precipT : w.precipT = u.precipT
  petT : w.petT = u.petT
  aetT : w.aetT = u.aetT
  volinT : w.volinT = u.volinT
  runoffT : w.runoffT = u.runoffT
  rechT : w.rechT = u.rechT
  qgwT : w.qgwT = u.qgwT

theorem Quiet.trans {c : StepCfg ℝ} {u v w : SubSt ℝ} (h1 : Quiet c psi u v) (h2 : Quiet c psi v w) : Quiet c psi u w :=
  ⟨h2.rest, h1.same.trans h2.same, h2.volend.trans h1.volend, h2.mass, h2.precip, h2.pet, h2.volon, h2.precipT.trans h1.precipT,
    h2.petT.trans h1.petT, h2.aetT.trans h1.aetT, h2.volinT.trans h1.volinT, h2.runoffT.trans h1.runoffT,
    h2.rechT.trans h1.rechT, h2.qgwT.trans h1.qgwT⟩

theorem subStep_rest {c : StepCfg ℝ} (hg : Ground c.geo) (hpsi : 0 ≤ psi) (hpond : 0 ≤ c.pondMax) {u : SubSt ℝ}
    (hu : Quiet c psi u u) : ∃ w, subStep c u = .ok w ∧ Quiet c psi u w ∧ w.localMb = 0 := by
  obtain ⟨l, h1, h2, h3⟩ := hu.rest.moveFronts (fuel := c.fuel) (dt := c.dt) (nFd := wettingFrontFreeDrainage u.head) hg hpsi hu.mass
  obtain ⟨f, e1, _, hf⟩ := hu.rest.deref (i := 0) hg.pos
  obtain ⟨f', e1', _, hf'⟩ := h3.deref (i := 0) hg.pos
  obtain ⟨s, hs, _⟩ := hf.theta
  have hmax : CMath.fmax (0 : ℝ) 0 = 0 := max_self (0 : ℝ)
  have hcl : volonClean (0 : ℝ) = 0 := by
    unfold volonClean
    rw [hmax]
    split_ifs <;> rfl
  have hm' : LGAR.massBal c.geo.cum l = .ok u.volend := by rw [← massBal_same h2]; exact hu.mass
  have hw : ∀ a b d : ℝ, wantsFront a 0 b d 0 = false := by intro a b d; simp [wantsFront]
  have hsurf : surfaceFlow c u (wettingFrontFreeDrainage u.head) 0 0 0 = .ok (0, 0, 0, 0) := by
    unfold surfaceFlow
    rw [if_neg (lt_irrefl _)]
    split_ifs with h
    · rfl
    · have : c.pondMax = 0 := le_antisymm (not_lt.1 h) hpond
      rw [this, sub_zero]
  have hflow : flowMove c u (listCopy u.head) (wettingFrontFreeDrainage u.head) 0 0 0 = .ok
      { head := l, prev := u.head, aet := 0, volin := 0, runoff := 0, rech := 0, volon := 0, hp := 0, volinT := u.volinT,
        runoffT := u.runoffT + 0, rechT := u.rechT + 0 } := by
    unfold flowMove
    rw [hsurf, ok_bind]
    simp only [listCopy_eq', h1, ok_bind, if_neg (lt_irrefl (0 : ℝ))]
    rfl
  have hdz : LGAR.dzdtCalc c.fuel c.closed c.nint 0 c.geo l = .ok l := h3.dzdtCalc hg
  have hmb : ¬ ((1.0e-4 : ℝ) < CMath.fabs (u.volend + 0 + 0 - 0 - 0 - 0 - 0 - u.volend)) := by
    show ¬ ((1.0e-4 : ℝ) < |u.volend + 0 + 0 - 0 - 0 - 0 - 0 - u.volend|)
    rw [show u.volend + 0 + 0 - 0 - 0 - 0 - 0 - u.volend = 0 by ring, abs_zero]; norm_num
  have hdep : 0 < f'.depth := hg.cum_lt (i := 0) (j := 1) (by omega) hg.pos hg.top hf'.depth
  refine ⟨
    { head := l, prev := u.head, precipMm := 0, petMm := 0, timeS := u.timeS + c.dt * 3600.0, timesteps := u.timesteps + 1,
      precipPrev := 0, volend := u.volend, volon := 0, precipT := u.precipT, petT := u.petT, aetT := u.aetT, volinT := u.volinT,
      runoffT := u.runoffT, rechT := u.rechT, surfT := u.surfT, qgwT := u.qgwT, localMb := 0 }, ?_, ?_, rfl⟩
  · unfold subStep
    simp only [hu.precip, hu.pet, hu.volon, hmax, zero_mul, add_zero, aetDemand, if_neg (lt_irrefl (0 : ℝ)), ok_bind, hu.mass, hcl,
      e1, hf.layer, hs, hw, subFlow, Bool.false_eq_true, if_false, hflow, hdz, hm', e1',
      (show cassert (0 < f'.depth) "state->head->depth_cm > 0.0" = .ok () from cassert_ok_iff.2 hdep)]
    simp only [add_zero, sub_zero, sub_self] at hmb ⊢
    rw [if_neg hmb]
    rfl
  · exact ⟨h3, h2, rfl, hm', rfl, rfl, rfl, rfl, rfl, rfl, rfl, rfl, rfl, rfl⟩

theorem subLoop_rest {c : StepCfg ℝ} (hg : Ground c.geo) (hpsi : 0 ≤ psi) (hpond : 0 ≤ c.pondMax) : ∀ {n : Nat} {u : SubSt ℝ},
    Quiet c psi u u → ∃ w, subLoop c n u = .ok w ∧ Quiet c psi u w ∧ (n ≠ 0 → w.localMb = 0)
  | 0, u, hu => ⟨u, rfl, hu, fun h => absurd rfl h⟩
  | n + 1, u, hu => by
    obtain ⟨v, e, hv, hv0⟩ := subStep_rest hg hpsi hpond hu
    unfold subLoop
    rw [e, ok_bind]
    by_cases h : c.endtimeS ≤ v.timeS ∧ c.standalone = true
    · rw [if_pos h]
      exact ⟨v, rfl, hv, fun _ => hv0⟩
    · rw [if_neg h]
      have hv' : Quiet c psi v v :=
        ⟨hv.rest, rfl, rfl, hv.mass, hv.precip, hv.pet, hv.volon, rfl, rfl, rfl, rfl, rfl, rfl, rfl⟩
      obtain ⟨w, e', hw, hw0⟩ := subLoop_rest hg hpsi hpond (n := n) hv'
      refine ⟨w, e', hv.trans hw, fun _ => ?_⟩
      cases n with
      | zero =>
        simp only [subLoop, Except.ok.injEq] at e'
        rw [← e']; exact hv0
      | succ n => exact hw0 (by omega)

end
end LGAR
