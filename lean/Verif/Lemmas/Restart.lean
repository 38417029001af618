import Verif.Spec.Restart
import Verif.Lemmas.Twin
import Verif.Lemmas.Giuh
import Verif.Lemmas.Init
/-
An Update reads nothing of the past but the fronts, the soils, the parameters and the water on the surface.
-/
namespace LGAR
variable {α : Type} [Add α] [Sub α] [Mul α] [Div α] [Neg α] [Zero α] [One α] [OfScientific α]
  [LT α] [LE α] [DecidableLT α] [DecidableLE α] [BEq α] [CMath α]

theorem Routable.conv {s : State α} (h : Routable s) (r : α) :
    ∃ g q, giuhConv r s.numGiuh s.giuhOrd s.giuhQueue = .ok (g, q) ∧ q.length = s.giuhOrd.length + 1 := by
  obtain ⟨h1, h2, h3⟩ := h
  match ho : s.giuhOrd, h1 with
  | o :: os, _ =>
    rw [ho, List.length_cons] at h2 h3
    match hq : s.giuhQueue, h3 with
    | a :: q', h3 =>
      rw [List.length_cons] at h3
      have hne : q' ≠ [] := by rintro rfl; simp at h3
      obtain ⟨q, x, rfl⟩ : ∃ q x, q' = q ++ [x] := ⟨q'.dropLast, q'.getLast hne, (List.dropLast_append_getLast hne).symm⟩
      rw [List.length_append, List.length_singleton] at h3
      have hl : q.length = os.length := by omega
      have := giuhConv_eq r x a o q os hl
      rw [h2, ← hl]
      refine ⟨_, _, this, ?_⟩
      simp [giuhMix, hl]

/-- The copy of the fronts and the balance of the last sub-timestep are not read by a sub-timestep. -/
theorem subStep_past (c : StepCfg α) (s : SubSt α) (pv : List (Front α)) (mb : α) :
    subStep c { s with prev := pv, localMb := mb } = subStep c s := rfl

theorem subLoop_past (c : StepCfg α) (s : SubSt α) (pv : List (Front α)) (mb : α) (n : Nat) :
    Both (fun u w => ∃ pv mb, w = { u with prev := pv, localMb := mb }) (subLoop c n s)
      (subLoop c n { s with prev := pv, localMb := mb }) := by
  cases n with
  | zero => exact ⟨pv, mb, rfl⟩
  | succ n =>
    have : subLoop c (n + 1) { s with prev := pv, localMb := mb } = subLoop c (n + 1) s := by
      rw [subLoop, subLoop, subStep_past]
    rw [this]
    exact Both.refl fun u _ => ⟨u.prev, u.localMb, rfl⟩

/-- `a` and `b` come from `s` and `t` with their routing unchanged, and agree in the soil. -/
structure FromBoth (s t a b : State α) : Prop where
  same : SameSoil a b
  left : a.giuhOrd = s.giuhOrd ∧ a.numGiuh = s.numGiuh ∧ a.giuhQueue = s.giuhQueue
  right : b.giuhOrd = t.giuhOrd ∧ b.numGiuh = t.numGiuh ∧ b.giuhQueue = t.giuhQueue
  valid : a.p.invalidSoil = s.p.invalidSoil

theorem FromBoth.frozen {s t a b : State α} (h : FromBoth s t a b) : Both (FromBoth s t) (applyFrozen a) (applyFrozen b) := by
  obtain ⟨⟨h1, h2, h3, h4, h5, h6, h7⟩, hl, hr, hv⟩ := h
  unfold applyFrozen
  rw [h3]
  split
  · refine Both.bind (R := fun x y => y = x) (Both.refl fun _ _ => rfl) fun x y _ _ e => ?_
    subst e
    exact ⟨⟨h1, h2, rfl, h4, h5, h6, h7⟩, hl, hr, hv⟩
  · exact ⟨⟨h1, h2, h3, h4, h5, h6, h7⟩, hl, hr, hv⟩

theorem FromBoth.cal {s t a b : State α} (h : FromBoth s t a b) :
    Both (fun x y => FromBoth s t x.1 y.1 ∧ y.2 = x.2) (applyCalib a) (applyCalib b) := by
  obtain ⟨⟨h1, h2, h3, h4, h5, h6, h7⟩, hl, hr, hv⟩ := h
  unfold applyCalib
  rw [h3]
  split
  · refine Both.bind (R := fun x y => FromBoth s t x.1 y.1 ∧ y.2 = x.2) ?_ fun x y _ _ e => ?_
    · unfold updateCalib
      rw [h1, h2, h3, h4]
      refine Both.bind (R := fun x y => y = x) (Both.refl fun _ _ => rfl) fun x y _ _ e => ?_
      subst e
      refine Both.bind (R := fun x y => y = x) (Both.refl fun _ _ => rfl) fun x y _ _ e => ?_
      subst e
      refine Both.bind (R := fun x y => y = x) (Both.refl fun _ _ => rfl) fun x y _ _ e => ?_
      subst e
      exact ⟨⟨⟨rfl, rfl, rfl, rfl, h5, h6, h7⟩, hl, hr, hv⟩, rfl⟩
    · obtain ⟨⟨⟨k1, k2, k3, k4, k5, k6, k7⟩, kl, kr, kv⟩, ke⟩ := e
      refine ⟨⟨⟨k1, k2, ?_, k4, k5, k6, k7⟩, kl, kr, kv⟩, ke⟩
      simp only [k3]
  · exact ⟨⟨⟨h1, h2, h3, h4, h5, h6, h7⟩, hl, hr, hv⟩, rfl⟩

theorem SameSoil.pre {s t : State α} (h : SameSoil s t) :
    Both (fun x y => FromBoth s t x.1 y.1 ∧ y.2 = x.2) (updatePre s) (updatePre t) := by
  unfold updatePre
  refine Both.bind (FromBoth.frozen ⟨h, ⟨rfl, rfl, rfl⟩, ⟨rfl, rfl, rfl⟩, rfl⟩) fun a b _ _ hab => ?_
  refine Both.bind hab.cal fun x y _ _ hxy => ?_
  obtain ⟨⟨⟨k1, k2, k3, k4, k5, k6, k7⟩, kl, kr, kv⟩, ke⟩ := hxy
  simp only [k3, k5, k6, k7]
  refine Both.bind (R := fun x y => y = x) (Both.refl fun _ _ => rfl) fun _ _ _ _ _ => ?_
  refine Both.bind (R := fun x y => y = x) (Both.refl fun _ _ => rfl) fun _ _ _ _ _ => ?_
  refine Both.bind (R := fun x y => y = x) (Both.refl fun _ _ => rfl) fun q q' _ _ e => ?_
  subst e
  exact ⟨⟨⟨k1, k2, rfl, k4, rfl, rfl, k7⟩, kl, kr, kv⟩, ke⟩

theorem SameSoil.update {s t : State α} (h : SameSoil s t) (hv : s.p.invalidSoil = false) (hs : Routable s) (ht : Routable t)
    (fuel : Nat) (sa : Bool) :
    Both (fun s' t' => SameSoil s' t' ∧ SameFluxes s' t' ∧ Routable s' ∧ Routable t' ∧ s'.p.invalidSoil = false)
      (LGAR.update fuel sa s) (LGAR.update fuel sa t) := by
  unfold LGAR.update
  rw [h.p, hv, if_neg (by simp), if_neg (by simp)]
  refine Both.bind h.pre fun x y _ _ hxy => ?_
  obtain ⟨a, d⟩ := x
  obtain ⟨b, d'⟩ := y
  obtain ⟨⟨⟨k1, k2, k3, k4, k5, k6, k7⟩, kl, kr, kv⟩, ke⟩ := hxy
  simp only at k1 k2 k3 k4 k5 k6 k7 kl kr kv ke
  subst ke
  simp only [k1, k3]
  refine Both.bind (R := fun x y => y = x) (Both.refl fun _ _ => rfl) fun v v' _ _ e => ?_
  subst e
  have ec : stepCfg fuel sa b = stepCfg fuel sa a := by
    unfold stepCfg State.geo; rw [k2, k3]
  have ei : subInit b v' = { subInit a v' with prev := b.prev, localMb := b.mb.localMb } := by
    unfold subInit; rw [k1, k3, k5, k6, k7]
  rw [ec, ei]
  refine Both.bind (subLoop_past _ _ _ _ _) fun u w _ _ hw => ?_
  obtain ⟨pv, mb, rfl⟩ := hw
  have ra : Routable a := by unfold Routable; rw [kl.1, kl.2.1, kl.2.2]; exact hs
  have rb : Routable b := by unfold Routable; rw [kr.1, kr.2.1, kr.2.2]; exact ht
  obtain ⟨g, q, hg, hq⟩ := ra.conv u.runoffT
  obtain ⟨g', q', hg', hq'⟩ := rb.conv u.runoffT
  unfold updatePost
  rw [hg, hg']
  refine ⟨⟨rfl, k2, ?_, k4, rfl, rfl, rfl⟩, ⟨rfl, rfl, rfl, rfl, rfl, rfl, rfl, rfl⟩, ⟨ra.1, ra.2.1, hq⟩, ⟨rb.1, rb.2.1, hq'⟩, ?_⟩
  · simp only [k3]
  · exact kv.trans hv

end LGAR
