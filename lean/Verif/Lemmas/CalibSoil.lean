import Verif.Lemmas.Update
/-
What calibration leaves in the soil records, in any arithmetic.
-/
set_option linter.unusedSectionVars false
namespace LGAR

section LawFree
variable {α : Type} [Add α] [Sub α] [Mul α] [Div α] [Neg α] [Zero α] [One α] [OfScientific α]
  [LT α] [LE α] [DecidableLT α] [DecidableLE α] [BEq α] [CMath α]

/-- Only layers and soils matter. -/
theorem geo_soil {g g' : Geo α} (h1 : g'.soilType = g.soilType) (h2 : g'.soils = g.soils) (k : Nat) : g'.soil k = g.soil k := by
  unfold Geo.soil; rw [h1, h2]

/-- A soil record with the calibrated values of layer `k`. -/
def CalSoil (cal : Calib α) (k : Nat) (s : SoilProps α) : Prop :=
  cal.thetaE[k - 1]? = some s.thetaE ∧ cal.thetaR[k - 1]? = some s.thetaR ∧ cal.vgN[k - 1]? = some s.vgN ∧
    cal.vgAlpha[k - 1]? = some s.vgAlpha ∧ s.vgM = 1 - 1 / s.vgN

theorem CalSoil.unique {cal : Calib α} {k : Nat} {s s' : SoilProps α} (h : CalSoil cal k s) (h' : CalSoil cal k s') :
    s.thetaE = s'.thetaE ∧ s.thetaR = s'.thetaR ∧ s.vgN = s'.vgN ∧ s.vgAlpha = s'.vgAlpha ∧ s.vgM = s'.vgM := by
  obtain ⟨a1, a2, a3, a4, a5⟩ := h
  obtain ⟨b1, b2, b3, b4, b5⟩ := h'
  rw [a1, Option.some.injEq] at b1
  rw [a2, Option.some.injEq] at b2
  rw [a3, Option.some.injEq] at b3
  rw [a4, Option.some.injEq] at b4
  exact ⟨b1, b2, b3, b4, by rw [a5, b5, b3]⟩

theorem calibFront_soil {st : List Int} {cal : Calib α} {soils : List (SoilProps α)} {f : Front α}
    {r : List (SoilProps α) × Front α} (h : calibFront st cal soils f = .ok r) :
    ∃ t s' th, st[f.layer]? = some t ∧ 0 ≤ t ∧ t.toNat < soils.length ∧ r = (soils.set t.toNat s', { f with theta := th }) ∧
      CalSoil cal f.layer s' ∧ calcThetaFromH f.psi s'.vgAlpha s'.vgM s'.vgN s'.thetaE s'.thetaR = .ok th := by
  unfold calibFront at h
  simp only [bind_ok_iff, idx_ok_iff, idxPred_ok_iff, idxI_ok_iff] at h
  obtain ⟨t, ht, s, ⟨h0, hs⟩, te, ⟨_, hte⟩, tr, ⟨_, htr⟩, n, ⟨_, hn⟩, q, hq, a, ⟨_, ha⟩, k, ⟨_, hk⟩, th, hth, h⟩ := h
  simp only [pure_eq_ok, Except.ok.injEq] at h
  rw [cdiv_ok_iff] at hq
  refine ⟨t, { s with thetaE := te, thetaR := tr, vgN := n, vgM := 1 - q, vgAlpha := a, Ksat := k }, th, ht, h0,
    (List.getElem?_eq_some_iff.mp hs).1, h.symm, ⟨hte, htr, hn, ha, ?_⟩, hth⟩
  show 1 - q = 1 - 1 / n
  rw [hq.2]

/-- Later iterations keep the record of a layer, unless another layer has the same soil type. -/
theorem calibLoop_keep {st : List Int} {cal : Calib α} {k : Nat} {t : Int} (h0 : 0 ≤ t) :
    ∀ {n : Nat} {soils : List (SoilProps α)} {l : List (Front α)} {r : List (SoilProps α) × List (Front α)},
      calibLoop st cal n soils l = .ok r → (∀ f ∈ l, st[f.layer]? = some t → f.layer = k) →
      (∃ s, soils[t.toNat]? = some s ∧ CalSoil cal k s) → ∃ s, r.1[t.toNat]? = some s ∧ CalSoil cal k s
  | 0, soils, l, r, h, _, hs => by simp [calibLoop] at h; subst h; exact hs
  | n + 1, soils, [], r, h, _, _ => by simp [calibLoop] at h
  | n + 1, soils, f :: l, r, h, hd, hs => by
    unfold calibLoop at h
    simp only [bind_ok_iff, Prod.exists, pure_eq_ok, Except.ok.injEq] at h
    obtain ⟨soils1, f', hf, soils2, l', hl, rfl⟩ := h
    obtain ⟨t1, s1, th, e1, e2, e3, e4, e5, _⟩ := calibFront_soil hf
    simp only [Prod.mk.injEq] at e4
    have key := calibLoop_keep (k := k) h0 hl (fun x hx => hd x (by simp [hx]))
    refine key ?_
    rw [e4.1]
    by_cases he : t1.toNat = t.toNat
    · have : t1 = t := by omega
      subst this
      refine ⟨s1, by rw [List.getElem?_set, if_pos rfl, if_pos e3], ?_⟩
      rw [← hd f (by simp) e1]; exact e5
    · obtain ⟨s, hs, hc⟩ := hs
      exact ⟨s, by rw [List.getElem?_set, if_neg he]; exact hs, hc⟩

/-- After calibration: the record of the layer of every front has its calibrated values, and the moisture is the one at the
head of the front for these values. -/
theorem calibLoop_soil {st : List Int} {cal : Calib α} :
    ∀ {n : Nat} {soils : List (SoilProps α)} {l : List (Front α)} {r : List (SoilProps α) × List (Front α)},
      calibLoop st cal n soils l = .ok r → n = l.length →
      (∀ f ∈ l, ∀ f' ∈ l, ∀ t, st[f.layer]? = some t → st[f'.layer]? = some t → f.layer = f'.layer) →
      ∀ f' ∈ r.2, ∃ f ∈ l, ∃ t s, st[f.layer]? = some t ∧ 0 ≤ t ∧ r.1[t.toNat]? = some s ∧ f'.layer = f.layer ∧
        f'.psi = f.psi ∧ calcThetaFromH f.psi s.vgAlpha s.vgM s.vgN s.thetaE s.thetaR = .ok f'.theta
  | 0, soils, [], r, h, _, _ => by simp [calibLoop] at h; subst h; simp
  | 0, soils, _ :: _, r, h, hn, _ => by simp at hn
  | n + 1, soils, [], r, h, _, _ => by simp [calibLoop] at h
  | n + 1, soils, f :: l, r, h, hn, hd => by
    unfold calibLoop at h
    simp only [bind_ok_iff, Prod.exists, pure_eq_ok, Except.ok.injEq] at h
    obtain ⟨soils1, f', hf, soils2, l', hl, rfl⟩ := h
    obtain ⟨t1, s1, th, e1, e2, e3, e4, e5, e6⟩ := calibFront_soil hf
    simp only [Prod.mk.injEq] at e4
    intro x hx
    rcases List.mem_cons.mp hx with rfl | hx
    · obtain ⟨s, hs, hc⟩ := calibLoop_keep e2 hl
        (fun y hy he => hd y (by simp [hy]) f (by simp) t1 he e1)
        ⟨s1, by rw [e4.1, List.getElem?_set, if_pos rfl, if_pos e3], e5⟩
      obtain ⟨u1, u2, u3, u4, u5⟩ := hc.unique e5
      refine ⟨f, by simp, t1, s, e1, e2, hs, by rw [e4.2], by rw [e4.2], ?_⟩
      rw [u1, u2, u3, u4, u5, e6, e4.2]
    · obtain ⟨y, hy, z⟩ := calibLoop_soil hl (by simpa using hn)
        (fun a ha b hb => hd a (by simp [ha]) b (by simp [hb])) x hx
      exact ⟨y, by simp [hy], z⟩

end LawFree
end LGAR
