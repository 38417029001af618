import Verif.Lemmas.Rain
import Verif.Props.Speed
import Verif.Spec.Frost
import Verif.Lemmas.Curve
import Verif.Lemmas.Twin
/-
Lemmas for C79 and C80: how the infiltration capacity depends on standing water and on frozen-soil factors.
-/
set_option linter.unusedSectionVars false
namespace LGAR

section Exact
variable {K : Type} [Field K] [LinearOrder K] [IsStrictOrderedRing K] [CMath K] [LawfulNum K]

theorem cdiv_nz {a b : K} (h : b ≠ 0) : cdiv a b = .ok (a / b) := by rw [cdiv_ok]; exact ⟨h, rfl⟩

/-- Multiply a result. -/
def scaleRes (c : K) : Res K → Res K
  | .ok x => .ok (c * x)
  | .error e => .error e

theorem calcKFromSe_scale {Se Ks m c : K} : calcKFromSe Se (c * Ks) m = scaleRes c (calcKFromSe Se Ks m) := by
  unfold calcKFromSe
  cases csqrt Se with
  | error e => rfl
  | ok s =>
    cases cdiv 1 m with
    | error e => rfl
    | ok im =>
      simp only [ok_bind]
      cases cpow Se im with
      | error e => rfl
      | ok a =>
        simp only [ok_bind]
        cases cpow (1 - a) m with
        | error e => rfl
        | ok b =>
          simp only [ok_bind]
          cases cpow (1 - b) 2.0 with
          | error e => rfl
          | ok d => simp only [ok_bind, scaleRes, pure_eq_ok, Except.ok.injEq]; ring

theorem geffLoop_scale {alpha m n Ks hi c : K} (hc : c ≠ 0) : ∀ (fuel : Nat) (h2 dh K1 G : K),
    geffLoop alpha m n (c * Ks) hi fuel h2 dh (c * K1) (c * G) = scaleRes c (geffLoop alpha m n Ks hi fuel h2 dh K1 G)
  | 0, _, _, _, _ => rfl
  | fuel + 1, h2, dh, K1, G => by
    unfold geffLoop
    split
    · cases calcSeFromH h2 alpha m n with
      | error e => rfl
      | ok Se =>
        simp only [ok_bind]
        rw [calcKFromSe_scale]
        cases calcKFromSe Se Ks m with
        | error e => rfl
        | ok K2 =>
          simp only [ok_bind, scaleRes]
          by_cases h0 : K2 = 0
          · subst h0
            have : ∀ a : K, cdiv a 0 = (.error (.nonfinite "division") : Res K) := fun a => by
              unfold cdiv
              rw [if_neg]
              rw [divOk_iff]; simp
            rw [mul_zero, this, this]; rfl
          · rw [cdiv_nz (mul_ne_zero hc h0), cdiv_nz h0]
            simp only [ok_bind]
            have e1 : (c * K1 - c * K2) / (c * K2) = (K1 - K2) / K2 := by
              rw [← mul_sub, mul_div_mul_left _ _ hc]
            have e2 : ∀ d t : K, c * G + (c * K1 + c * K2) * d / t = c * (G + (K1 + K2) * d / t) := fun d t => by
              rw [← mul_add, mul_assoc, mul_div_assoc, ← mul_add]
            rw [e1, e2]
            exact geffLoop_scale hc fuel _ _ _ _
    · rfl

/-- The capillary drive does not depend on the saturated conductivity. -/
theorem calcGeff_scale {fuel : Nat} {closed : Bool} {t1 t2 e r a n m Ks c la ps : K} {nint : Int} (hc : c ≠ 0) :
    calcGeff fuel closed t1 t2 e r a n m (c * Ks) nint la ps = calcGeff fuel closed t1 t2 e r a n m Ks nint la ps := by
  unfold calcGeff
  cases closed with
  | true => rfl
  | false =>
    simp only [Bool.not_false, if_true]
    cases calcSeFromTheta t1 e r with
    | error e => rfl
    | ok Si =>
      cases calcSeFromTheta t2 e r with
      | error e => rfl
      | ok Sf =>
        simp only [ok_bind]
        cases calcHFromSe Si a m n with
        | error e => rfl
        | ok hi =>
          cases calcHFromSe Sf a m n with
          | error e => rfl
          | ok hf =>
            simp only [ok_bind]
            cases cdiv (hi - hf) (CMath.ofInt nint) with
            | error e => rfl
            | ok dh =>
              simp only [ok_bind]
              rw [calcKFromSe_scale]
              cases calcKFromSe Si Ks m with
              | error e => rfl
              | ok K1 =>
                simp only [scaleRes, ok_bind]
                have := geffLoop_scale (alpha := a) (m := m) (n := n) (Ks := Ks) (hi := hi) hc fuel (hf + dh * 0.01)
                  (dh * 0.01) K1 0
                rw [mul_zero] at this
                rw [this]
                cases geffLoop a m n Ks hi fuel (hf + dh * 0.01) (dh * 0.01) K1 0 with
                | error e => rfl
                | ok G =>
                  simp only [scaleRes, ok_bind]
                  have : cdiv (c * G) (c * Ks) = cdiv G Ks := by
                    by_cases h0 : Ks = 0
                    · subst h0
                      unfold cdiv
                      have h1 : ¬ CMath.divOk (c * G) (c * (0 : K)) = true := by rw [divOk_iff]; simp
                      have h2 : ¬ CMath.divOk G (0 : K) = true := by rw [divOk_iff]; simp
                      rw [if_neg h1, if_neg h2]
                    · rw [cdiv_nz (mul_ne_zero hc h0), cdiv_nz h0, mul_div_mul_left _ _ hc]
                  rw [this]

/-- The part of the capacity that depends on conductivities: one layer, or the layers above in series. -/
def fpRaw (g : Geo K) (fd : Front K) (Ksat drive : K) : Res K :=
  if fd.layer = 1 then do
      let q ← cdiv drive fd.depth
      .ok (Ksat * (1 + q))
    else do
      let base ← idxPred g.cum fd.layer
      let b0 ← cdiv (fd.depth - base) Ksat
      let bs ← fpBottomSum g (fd.layer - 1) b0
      let q1 ← cdiv fd.depth bs
      let q2 ← cdiv (drive * Ksat) fd.depth
      .ok (q1 + q2)

theorem fpPotential_inv {fuel : Nat} {closed : Bool} {nint : Int} {g : Geo K} {dt aet ponded precip : K} {nFd : Nat}
    {l : List (Front K)} {a : K} (h : fpPotential fuel closed nint g dt aet ponded precip nFd l = .ok a) :
    ∃ fd h0 s ff G b sTop, derefOpt l (listFindFront (Int.ofNat nFd) l []) = .ok fd ∧ l[0]? = some h0 ∧
      g.soil fd.layer = .ok s ∧ g.frozen[h0.layer]? = some ff ∧
      (l.length = g.numLayers ∧ G = 0 ∨ l.length ≠ g.numLayers ∧ ∃ below,
        derefOpt l (listFindFront (Int.ofNat nFd + 1) l []) = .ok below ∧
        calcGeff fuel closed below.theta s.thetaE s.thetaE s.thetaR s.vgAlpha s.vgN s.vgM (s.Ksat * ff) nint s.bcLambda
          s.bcPsib = .ok G) ∧
      fpRaw g fd (s.Ksat * ff) (G + max (ponded - precip * dt) 0) = .ok b ∧ g.soil h0.layer = .ok sTop ∧
      (fd.layer = g.numLayers ∧ (fd.theta == sTop.thetaE) = true ∧ g.numLayers = l.length ∧ a = min b (aet / dt) ∨
        ¬ (fd.layer = g.numLayers ∧ (fd.theta == sTop.thetaE) = true ∧ g.numLayers = l.length) ∧ a = b) := by
  have tail : ∀ {fd h0 : Front K} {b : K}, (do
      let sTop ← g.soil h0.layer
      if fd.layer = g.numLayers ∧ (fd.theta == sTop.thetaE) = true ∧ g.numLayers = l.length then do
        let q ← cdiv aet dt
        pure (CMath.fmin b q)
      else pure b) = (.ok a : Res K) → ∃ sTop, g.soil h0.layer = .ok sTop ∧
        (fd.layer = g.numLayers ∧ (fd.theta == sTop.thetaE) = true ∧ g.numLayers = l.length ∧ a = min b (aet / dt) ∨
        ¬ (fd.layer = g.numLayers ∧ (fd.theta == sTop.thetaE) = true ∧ g.numLayers = l.length) ∧ a = b) := by
    intro fd h0 b h
    rw [bind_ok_iff] at h
    obtain ⟨sTop, hT, h⟩ := h
    refine ⟨sTop, hT, ?_⟩
    split at h
    · rename_i e
      simp only [bind_ok_iff, cdiv_ok, pure_eq_ok, Except.ok.injEq, fmin_eq] at h
      obtain ⟨q, ⟨_, rfl⟩, rfl⟩ := h
      exact .inl ⟨e.1, e.2.1, e.2.2, rfl⟩
    · rename_i e
      simp only [pure_eq_ok, Except.ok.injEq] at h
      exact .inr ⟨e, h.symm⟩
  have mid : ∀ {fd h0 : Front K} {Ks d : K}, (if fd.layer = 1 then do
        let q ← cdiv d fd.depth
        let b ← (.ok (Ks * (1 + q)) : Res K)
        let sTop ← g.soil h0.layer
        if fd.layer = g.numLayers ∧ (fd.theta == sTop.thetaE) = true ∧ g.numLayers = l.length then do
          let q ← cdiv aet dt
          pure (CMath.fmin b q)
        else pure b
      else do
        let base ← idxPred g.cum fd.layer
        let b0 ← cdiv (fd.depth - base) Ks
        let bs ← fpBottomSum g (fd.layer - 1) b0
        let q1 ← cdiv fd.depth bs
        let q2 ← cdiv (d * Ks) fd.depth
        let b ← (.ok (q1 + q2) : Res K)
        let sTop ← g.soil h0.layer
        if fd.layer = g.numLayers ∧ (fd.theta == sTop.thetaE) = true ∧ g.numLayers = l.length then do
          let q ← cdiv aet dt
          pure (CMath.fmin b q)
        else pure b) = (.ok a : Res K) → ∃ b sTop, fpRaw g fd Ks d = .ok b ∧ g.soil h0.layer = .ok sTop ∧
        (fd.layer = g.numLayers ∧ (fd.theta == sTop.thetaE) = true ∧ g.numLayers = l.length ∧ a = min b (aet / dt) ∨
        ¬ (fd.layer = g.numLayers ∧ (fd.theta == sTop.thetaE) = true ∧ g.numLayers = l.length) ∧ a = b) := by
    intro fd h0 Ks d h
    unfold fpRaw
    split at h
    · rename_i e
      rw [bind_ok_iff] at h
      obtain ⟨q, hq, h⟩ := h
      rw [ok_bind] at h
      obtain ⟨sTop, h1, h2⟩ := tail h
      exact ⟨_, sTop, by rw [if_pos e, hq, ok_bind], h1, h2⟩
    · rename_i e
      rw [bind_ok_iff] at h
      obtain ⟨base, hb, h⟩ := h
      rw [bind_ok_iff] at h
      obtain ⟨b0, hb0, h⟩ := h
      rw [bind_ok_iff] at h
      obtain ⟨bs, hbs, h⟩ := h
      rw [bind_ok_iff] at h
      obtain ⟨q1, hq1, h⟩ := h
      rw [bind_ok_iff] at h
      obtain ⟨q2, hq2, h⟩ := h
      rw [ok_bind] at h
      obtain ⟨sTop, h1, h2⟩ := tail h
      exact ⟨_, sTop, by rw [if_neg e, hb, ok_bind, hb0, ok_bind, hbs, ok_bind, hq1, ok_bind, hq2, ok_bind], h1, h2⟩
  unfold fpPotential at h
  rw [bind_ok_iff] at h
  obtain ⟨fd, hfd, h⟩ := h
  rw [bind_ok_iff] at h
  obtain ⟨h0, hh0, h⟩ := h
  rw [bind_ok_iff] at h
  obtain ⟨s, hs, h⟩ := h
  rw [bind_ok_iff] at h
  obtain ⟨ff, hff, h⟩ := h
  rw [deref_ok_iff] at hh0
  rw [idx_ok_iff] at hff
  rw [fmax_eq] at h
  dsimp only at h
  by_cases e : l.length = g.numLayers
  · rw [if_pos e, ok_bind] at h
    obtain ⟨b, sTop, h1, h2, h3⟩ := mid h
    exact ⟨fd, h0, s, ff, 0, b, sTop, hfd, hh0, hs, hff, .inl ⟨e, rfl⟩, h1, h2, h3⟩
  · rw [if_neg e, bind_ok_iff] at h
    obtain ⟨below, hb, h⟩ := h
    rw [bind_ok_iff] at h
    obtain ⟨G, hG, h⟩ := h
    obtain ⟨b, sTop, h1, h2, h3⟩ := mid h
    exact ⟨fd, h0, s, ff, G, b, sTop, hfd, hh0, hs, hff, .inr ⟨e, below, hb, hG⟩, h1, h2, h3⟩

theorem fpCapacity_inv {fuel : Nat} {closed : Bool} {nint : Int} {g : Geo K} {dt aet ponded precip : K} {nFd : Nat}
    {l : List (Front K)} {a : K} (h : fpCapacity fuel closed nint g dt aet ponded precip nFd l = .ok a) :
    ∃ b mx, fpPotential fuel closed nint g dt aet ponded precip nFd l = .ok b ∧ maxStorage g = .ok mx ∧ dt ≠ 0 ∧
      a = min b ((mx - mass g.cum l) / dt) := by
  unfold fpCapacity at h
  simp only [bind_ok_iff] at h
  obtain ⟨b, hb, m, hm, mx, hmx, cap, hcap, h⟩ := h
  rw [cdiv_ok, massBal_val hm] at hcap
  refine ⟨b, mx, hb, hmx, hcap.1, ?_⟩
  rw [← hcap.2]
  simp only [pure_eq_ok, Except.ok.injEq] at h
  rw [← h]
  split
  · rw [min_eq_right (le_of_lt ‹_›)]
  · rw [min_eq_left (not_lt.mp ‹_›)]

/-- Standing water: the raw capacity grows with the drive. -/
theorem fpRaw_drive {g : Geo K} {fd : Front K} {Ks d d' a a' : K} (hK : 0 ≤ Ks) (hz : 0 < fd.depth) (hd : d ≤ d')
    (h : fpRaw g fd Ks d = .ok a) (h' : fpRaw g fd Ks d' = .ok a') : a ≤ a' := by
  unfold fpRaw at h h'
  split at h
  · rename_i e
    rw [if_pos e] at h'
    simp only [bind_ok_iff, cdiv_ok, Except.ok.injEq] at h h'
    obtain ⟨q, ⟨_, rfl⟩, rfl⟩ := h
    obtain ⟨q', ⟨_, rfl⟩, rfl⟩ := h'
    gcongr
  · rename_i e
    rw [if_neg e] at h'
    simp only [bind_ok_iff, cdiv_ok, Except.ok.injEq] at h h'
    obtain ⟨base, hb, b0, ⟨_, e0⟩, bs, hbs, q1, ⟨_, rfl⟩, q2, ⟨_, rfl⟩, rfl⟩ := h
    obtain ⟨base', hb', b0', ⟨_, e0'⟩, bs', hbs', q1', ⟨_, rfl⟩, q2', ⟨_, rfl⟩, rfl⟩ := h'
    rw [hb, Except.ok.injEq] at hb'; subst hb'
    rw [← e0] at e0'; subst e0'
    rw [hbs, Except.ok.injEq] at hbs'; subst hbs'
    gcongr

end Exact

theorem withFrost_soil {α : Type} (g : Geo α) (fz : List α) (k : Nat) : (g.withFrost fz).soil k = g.soil k := rfl

section Free
variable {α : Type} [Add α] [Sub α] [Mul α] [Div α] [Neg α] [Zero α] [One α] [OfScientific α]
  [LT α] [LE α] [DecidableLT α] [DecidableLE α] [BEq α] [CMath α]

theorem maxStorage_frost {g : Geo α} {fz : List α} : maxStorage (g.withFrost fz) = maxStorage g := by
  have : ∀ (n k : Nat) (s : α), maxStorageGo (g.withFrost fz) n k s = maxStorageGo g n k s := by
    intro n
    induction n with
    | zero => intros; rfl
    | succ n ih => intro k s; unfold maxStorageGo; simp only [ih]; rfl
  exact this _ _ _

end Free

/-- Capillary drive of a saturated front, whatever lies below. -/
theorem geff_sat_nonneg {fuel : Nat} {closed : Bool} {t1 e r a n m Ks la ps G : ℝ} {nint : Int} (hre : r < e)
    (hla : 0 < la) (hps : 0 ≤ ps) (h : calcGeff fuel closed t1 e e r a n m Ks nint la ps = .ok G) : 0 ≤ G := by
  cases closed
  · unfold calcGeff at h
    simp only [Bool.not_false, if_true, bind_ok_iff, pure_eq_ok, Except.ok.injEq, fabs_eq] at h
    obtain ⟨_, _, _, _, _, _, _, _, _, _, _, _, _, _, _, _, rfl⟩ := h
    exact abs_nonneg _
  · have l2 : (2.0 : ℝ) = 2 := by norm_num
    have l3 : (3.0 : ℝ) = 3 := by norm_num
    unfold calcGeff at h
    simp only [Bool.not_true, Bool.false_eq_true, if_false, l2, l3] at h
    rw [bind_ok_iff] at h
    obtain ⟨Sf, hSf, h⟩ := h
    rw [bind_ok_iff] at h
    obtain ⟨Si, hSi, h⟩ := h
    rw [cdiv_ne (by positivity), ok_bind, cdiv_ne hla.ne', ok_bind] at h
    have hS : Si = 1 := by
      unfold calcSeFromTheta at hSi
      rw [cdiv_ok] at hSi
      rw [hSi.2]
      exact div_self (by linarith)
    subst hS
    have hHc : 0 ≤ ps * ((2 + 3 * la) / (1 + 3 * la)) := by positivity
    split at h
    · split at h
      · rename_i hd
        rw [pure_eq_ok, Except.ok.injEq] at h
        rw [← h]
        rw [divFin_iff] at hd
        have e1 : CMath.pow (1 : ℝ) (3 + 1 / la) = 1 := Real.one_rpow _
        rw [e1]
        rw [mul_div_assoc, div_self hd, mul_one]; exact hHc
      · rw [pure_eq_ok, Except.ok.injEq] at h; rw [← h]; exact hHc
    · rw [pure_eq_ok, Except.ok.injEq] at h; rw [← h]; exact hHc

/-- Other positive factor, same drive. -/
theorem geff_frost {fuel : Nat} {closed : Bool} {t1 t2 e r a n m Ks x y la ps : ℝ} {nint : Int} (hx : 0 < x) (hy : 0 < y) :
    calcGeff fuel closed t1 t2 e r a n m (Ks * x) nint la ps = calcGeff fuel closed t1 t2 e r a n m (Ks * y) nint la ps := by
  rw [show Ks * x = (x / y) * (Ks * y) by field_simp]
  exact calcGeff_scale (by positivity)

theorem fpBottomSum_frost {g : Geo ℝ} {fz : List ℝ} (hcold : Colder fz g.frozen)
    (hK : ∀ k s, g.soil k = .ok s → 0 < s.Ksat)
    (hcum : ∀ k c1 c0, g.cum[k]? = some c1 → g.cum[k - 1]? = some c0 → c0 ≤ c1) :
    ∀ {n : Nat} {s s' b b' : ℝ}, s ≤ s' → fpBottomSum g n s = .ok b → fpBottomSum (g.withFrost fz) n s' = .ok b' →
      b ≤ b' ∧ s ≤ b
  | 0, s, s', b, b', hs, h, h' => by
    simp only [fpBottomSum, Except.ok.injEq] at h h'
    subst h; subst h'; exact ⟨hs, le_refl _⟩
  | n + 1, s, s', b, b', hs, h, h' => by
    unfold fpBottomSum at h h'
    simp only [bind_ok_iff, idx_ok_iff, cdiv_ok, withFrost_soil] at h h'
    obtain ⟨so, hso, y, hy, c1, hc1, c0, hc0, q, ⟨_, rfl⟩, h⟩ := h
    obtain ⟨so', hso', x, hx, c1', hc1', c0', hc0', q', ⟨_, rfl⟩, h'⟩ := h'
    rw [hso, Except.ok.injEq] at hso'; subst hso'
    have e1 : c1 = c1' := by
      have : g.cum[n + 1]? = some c1' := hc1'
      rw [hc1, Option.some.injEq] at this; exact this
    have e0 : c0 = c0' := by
      have : g.cum[n]? = some c0' := hc0'
      rw [hc0, Option.some.injEq] at this; exact this
    subst e1; subst e0
    obtain ⟨x0, xy⟩ := hcold (n + 1) x y (by omega) hx hy
    have k0 := hK _ _ hso
    have d0 : 0 ≤ c1 - c0 := by have := hcum (n + 1) c1 c0 hc1 hc0; linarith
    have y0 : 0 < y := x0.trans_le xy
    have m1 : (c1 - c0) / (so.Ksat * y) ≤ (c1 - c0) / (so.Ksat * x) := by gcongr
    have m2 : 0 ≤ (c1 - c0) / (so.Ksat * y) := by positivity
    obtain ⟨r1, r2⟩ := fpBottomSum_frost hcold hK hcum (by linarith) h h'
    exact ⟨r1, by linarith⟩

theorem fpRaw_frost {g : Geo ℝ} {fz : List ℝ} {fd : Front ℝ} {Ks Ks' d a a' : ℝ} (hcold : Colder fz g.frozen)
    (hK : ∀ k s, g.soil k = .ok s → 0 < s.Ksat)
    (hcum : ∀ k c1 c0, g.cum[k]? = some c1 → g.cum[k - 1]? = some c0 → c0 ≤ c1)
    (hz : 0 < fd.depth) (hb : ∀ b, g.cum[fd.layer - 1]? = some b → b ≤ fd.depth) (hd : 0 ≤ d) (k0 : 0 < Ks') (kk : Ks' ≤ Ks)
    (h : fpRaw g fd Ks d = .ok a) (h' : fpRaw (g.withFrost fz) fd Ks' d = .ok a') : a' ≤ a := by
  unfold fpRaw at h h'
  by_cases e : fd.layer = 1
  · rw [if_pos e] at h h'
    simp only [bind_ok_iff, cdiv_ok, Except.ok.injEq] at h h'
    obtain ⟨q, ⟨_, rfl⟩, rfl⟩ := h
    obtain ⟨q', ⟨_, rfl⟩, rfl⟩ := h'
    have : 0 ≤ 1 + d / fd.depth := by positivity
    exact mul_le_mul_of_nonneg_right kk this
  · rw [if_neg e] at h h'
    simp only [bind_ok_iff, cdiv_ok, idxPred_ok_iff, Except.ok.injEq] at h h'
    obtain ⟨base, ⟨_, hbase⟩, b0, ⟨_, rfl⟩, bs, hbs, q1, ⟨n1, rfl⟩, q2, ⟨_, rfl⟩, rfl⟩ := h
    obtain ⟨base', ⟨_, hbase'⟩, b0', ⟨_, rfl⟩, bs', hbs', q1', ⟨n1', rfl⟩, q2', ⟨_, rfl⟩, rfl⟩ := h'
    have : g.cum[fd.layer - 1]? = some base' := hbase'
    rw [hbase, Option.some.injEq] at this; subst this
    have d0 : 0 ≤ fd.depth - base := by have := hb base hbase; linarith
    have Kp : 0 < Ks := k0.trans_le kk
    have m1 : (fd.depth - base) / Ks ≤ (fd.depth - base) / Ks' := by gcongr
    have m0 : 0 ≤ (fd.depth - base) / Ks := by positivity
    obtain ⟨r1, r2⟩ := fpBottomSum_frost hcold hK hcum m1 hbs hbs'
    have hp : 0 < bs := lt_of_le_of_ne (m0.trans r2) (Ne.symm n1)
    gcongr

theorem fpCapacity_frost {fuel : Nat} {closed : Bool} {nint : Int} {g : Geo ℝ} {fz : List ℝ}
    {dt aet ponded precip a a' : ℝ} {nFd : Nat} {l : List (Front ℝ)} (hcold : Colder fz g.frozen)
    (hsoil : ∀ k s, g.soil k = .ok s → s.Usable)
    (hcum : ∀ k c1 c0, g.cum[k]? = some c1 → g.cum[k - 1]? = some c0 → c0 ≤ c1)
    (hl : ∀ f ∈ l, 1 ≤ f.layer ∧ 0 < f.depth ∧ ∀ b, g.cum[f.layer - 1]? = some b → b ≤ f.depth)
    (h : fpCapacity fuel closed nint g dt aet ponded precip nFd l = .ok a)
    (h' : fpCapacity fuel closed nint (g.withFrost fz) dt aet ponded precip nFd l = .ok a') : a' ≤ a := by
  obtain ⟨b, mx, hb, hmx, _, rfl⟩ := fpCapacity_inv h
  obtain ⟨b', mx', hb', hmx', _, rfl⟩ := fpCapacity_inv h'
  rw [maxStorage_frost, hmx, Except.ok.injEq] at hmx'; subst hmx'
  refine min_le_min ?_ (le_refl _)
  obtain ⟨fd, h0, s, y, G, b1, sT, hfd, hh0, hs, hy, hG, hr, hT, hm⟩ := fpPotential_inv hb
  obtain ⟨fd', h0', s', x, G', b1', sT', hfd', hh0', hs', hx, hG', hr', hT', hm'⟩ := fpPotential_inv hb'
  rw [withFrost_soil] at hs' hT'
  rw [hfd, Except.ok.injEq] at hfd'; subst hfd'
  rw [hh0, Option.some.injEq] at hh0'; subst hh0'
  rw [hs, Except.ok.injEq] at hs'; subst hs'
  rw [hT, Except.ok.injEq] at hT'; subst hT'
  have nL : (g.withFrost fz).numLayers = g.numLayers := rfl
  rw [nL] at hG' hm'
  obtain ⟨p1, _, _⟩ := hl h0 (List.mem_of_getElem? hh0)
  obtain ⟨_, z1, z2⟩ := hl fd (derefOpt_mem hfd)
  obtain ⟨x0, xy⟩ := hcold h0.layer x y p1 hx hy
  have hu := hsoil _ _ hs
  have GG : G = G' ∧ 0 ≤ G := by
    rcases hG with ⟨c1, rfl⟩ | ⟨c1, below, c2, c3⟩ <;> rcases hG' with ⟨d1, rfl⟩ | ⟨d1, below', d2, d3⟩
    · exact ⟨rfl, le_refl _⟩
    · exact absurd c1 d1
    · exact absurd d1 c1
    · rw [c2, Except.ok.injEq] at d2; subst d2
      rw [geff_frost x0 (x0.trans_le xy), c3, Except.ok.injEq] at d3
      exact ⟨d3, geff_sat_nonneg hu.phys.gap hu.lam hu.psib c3⟩
  obtain ⟨rfl, G0⟩ := GG
  have hraw : b1' ≤ b1 := fpRaw_frost hcold (fun k s hs => (hsoil k s hs).phys.ksat) hcum z1 z2
    (add_nonneg G0 (le_max_right _ _)) (mul_pos hu.phys.ksat x0) (mul_le_mul_of_nonneg_left xy hu.phys.ksat.le) hr hr'
  rcases hm with ⟨m1, m2, m3, rfl⟩ | ⟨m1, rfl⟩ <;> rcases hm' with ⟨n1, n2, n3, rfl⟩ | ⟨n1, rfl⟩
  · exact min_le_min hraw (le_refl _)
  · exact absurd ⟨m1, m2, m3⟩ n1
  · exact absurd ⟨n1, n2, n3⟩ m1
  · exact hraw

/-- The same water, a smaller capacity. -/
theorem split_cold {a q q' M v v' p p' : ℝ} (hq : q' ≤ q) (hv : v = min a q) (hv' : v' = min a q')
    (hp : p = min (a - v) M) (hp' : p' = min (a - v') M) : v' ≤ v ∧ p ≤ p' ∧ a - v - p ≤ a - v' - p' := by
  have h1 : v' ≤ v := by rw [hv, hv']; exact min_le_min (le_refl _) hq
  have h2 : a - v ≤ a - v' := by linarith
  refine ⟨h1, by rw [hp, hp']; exact min_le_min h2 le_rfl, ?_⟩
  rw [hp, hp']
  rcases min_choice (a - v) M with e | e <;> rcases min_choice (a - v') M with e' | e' <;> rw [e, e']
  · simp
  · have := min_le_left (a - v') M; rw [e'] at this; linarith
  · have := min_le_left (a - v) M; rw [e] at this
    have := min_le_right (a - v') M; rw [e'] at this; linarith
  · linarith

theorem layerK_frost {g : Geo ℝ} {fz : List ℝ} {k : Nat} {psi a a' : ℝ} (hk : 1 ≤ k) (hcold : Colder fz g.frozen)
    (hK : ∀ s, g.soil k = .ok s → 0 < s.Ksat) (h : layerK g k psi = .ok a)
    (h' : layerK (g.withFrost fz) k psi = .ok a') : 0 ≤ a' ∧ a' ≤ a := by
  unfold layerK at h h'
  simp only [bind_ok_iff, idx_ok_iff, withFrost_soil] at h h'
  obtain ⟨s, hs, th, hth, Se, hSe, y, hy, h⟩ := h
  obtain ⟨s', hs', th', hth', Se', hSe', x, hx, h'⟩ := h'
  rw [hs, Except.ok.injEq] at hs'; subst hs'
  rw [hth, Except.ok.injEq] at hth'; subst hth'
  rw [hSe, Except.ok.injEq] at hSe'; subst hSe'
  obtain ⟨x0, xy⟩ := hcold k x y hk hx hy
  have k0 := hK _ hs
  rw [calcKFromSe_val h, calcKFromSe_val h']
  have h3 : (0 : ℝ) ≤ CMath.sqrt Se := Real.sqrt_nonneg _
  have h4 : ∀ z : ℝ, (0 : ℝ) ≤ CMath.pow z 2.0 := fun z => by
    show (0 : ℝ) ≤ z ^ (2.0 : ℝ)
    rw [show (2.0 : ℝ) = ((2 : ℕ) : ℝ) by norm_num, Real.rpow_natCast]
    exact sq_nonneg _
  have h5 := mul_nonneg h3 (h4 (1 - CMath.pow (1 - CMath.pow Se (1 / s.vgM)) s.vgM))
  refine ⟨mul_nonneg (by positivity) h5, mul_le_mul_of_nonneg_right ?_ h5⟩
  gcongr

theorem dzdtDenom_frost {g : Geo ℝ} {fz : List ℝ} {layer : Nat} {psi : ℝ} (hcold : Colder fz g.frozen)
    (hK : ∀ k s, g.soil k = .ok s → 0 < s.Ksat)
    (hcum : ∀ k c1 c0, g.cum[k]? = some c1 → g.cum[k - 1]? = some c0 → c0 ≤ c1) :
    ∀ {n k : Nat} {b b' d d' : ℝ}, k + n ≤ layer → b ≤ b' → dzdtDenom g layer psi n k b = .ok d →
      dzdtDenom (g.withFrost fz) layer psi n k b' = .ok d' → d ≤ d' ∧ b ≤ d
  | 0, k, b, b', d, d', _, hb, h, h' => by
    simp only [dzdtDenom, Except.ok.injEq] at h h'; subst h; subst h'; exact ⟨hb, le_refl _⟩
  | n + 1, k, b, b', d, d', hk, hb, h, h' => by
    unfold dzdtDenom at h h'
    simp only [bind_ok_iff] at h h'
    obtain ⟨t, ht, h⟩ := h
    obtain ⟨t', ht', h'⟩ := h'
    obtain ⟨kk, c1, c0, hkk, n1, hc1, h0, hc0, rfl⟩ := dzdtTerm_val ht
    obtain ⟨kk', c1', c0', hkk', n1', hc1', _, hc0', rfl⟩ := dzdtTerm_val ht'
    have e1 : c1 = c1' := by
      have : g.cum[k]? = some c1' := hc1'
      rw [hc1, Option.some.injEq] at this; exact this
    have e0 : c0 = c0' := by
      have : g.cum[k - 1]? = some c0' := hc0'
      rw [hc0, Option.some.injEq] at this; exact this
    subst e1; subst e0
    obtain ⟨q0, q1⟩ := layerK_frost (by omega) hcold (hK _) hkk hkk'
    have q0' : 0 < kk' := lt_of_le_of_ne q0 (Ne.symm n1')
    have d0 : 0 ≤ c1 - c0 := by have := hcum k c1 c0 hc1 hc0; linarith
    have kp : 0 < kk := q0'.trans_le q1
    have m1 : (c1 - c0) / kk ≤ (c1 - c0) / kk' := by gcongr
    have m2 : 0 ≤ (c1 - c0) / kk := by positivity
    obtain ⟨r1, r2⟩ := dzdtDenom_frost hcold hK hcum (by omega) (by linarith) h h'
    exact ⟨r1, by linarith⟩

end LGAR
