import Verif.Spec.Curve
import Verif.Lemmas.SinglePass
import Verif.Lemmas.ColumnRun
/-
Head and conductivity of the fronts through a movement, a sub-timestep and an Update.
-/
set_option linter.unusedSectionVars false
namespace LGAR

section Exact
variable {K : Type} [Field K] [LinearOrder K] [IsStrictOrderedRing K] [CMath K] [LawfulNum K]

theorem cpow_ok_val {a b x : K} (h : cpow a b = .ok x) : x = CMath.pow a b := by
  unfold cpow at h
  split at h
  · simpa using h.symm
  · simp at h

theorem csqrt_ok_val {a x : K} (h : csqrt a = .ok x) : x = CMath.sqrt a := by
  unfold csqrt at h
  split at h
  · simpa using h.symm
  · simp at h

theorem cdiv_ok_val {a b x : K} (h : cdiv a b = .ok x) : x = a / b := by
  unfold cdiv at h
  split at h
  · simpa using h.symm
  · simp at h

theorem calcHFromSe_val {Se a m n x : K} (h : calcHFromSe Se a m n = .ok x) :
    x = 1 / a * CMath.pow (CMath.pow Se (-1 / m) - 1) (1 / n) := by
  unfold calcHFromSe at h
  simp only [bind_ok_iff, pure_eq_ok, Except.ok.injEq] at h
  obtain ⟨ia, h1, e, h2, p, h3, en, h4, q, h5, rfl⟩ := h
  rw [cdiv_ok_val h1, cpow_ok_val h5, cpow_ok_val h3, cdiv_ok_val h2, cdiv_ok_val h4]

theorem calcKFromSe_val {Se Ks m x : K} (h : calcKFromSe Se Ks m = .ok x) :
    x = Ks * (CMath.sqrt Se * CMath.pow (1 - CMath.pow (1 - CMath.pow Se (1 / m)) m) 2.0) := by
  unfold calcKFromSe at h
  simp only [bind_ok_iff, pure_eq_ok, Except.ok.injEq] at h
  obtain ⟨s, h1, im, h2, a, h3, b, h4, c, h5, rfl⟩ := h
  rw [csqrt_ok_val h1, cpow_ok_val h5, cpow_ok_val h4, cpow_ok_val h3, cdiv_ok_val h2, mul_assoc]

theorem psiKOf_curve {g : Geo K} {k : Nat} {theta psi Kc : K} (h : psiKOf g k theta = .ok (psi, Kc)) :
    ∃ so ff, g.soil k = .ok so ∧ g.frozen[k]? = some ff ∧ psi = headOf so theta ∧ Kc = ff * so.Ksat * relCond so theta := by
  unfold psiKOf at h
  simp only [bind_ok_iff, idx_ok_iff, pure_eq_ok, Except.ok.injEq, Prod.mk.injEq] at h
  obtain ⟨so, hs, ff, hf, Se, hSe, p, hp, q, hq, rfl, rfl⟩ := h
  have e : Se = satOf so theta := cdiv_ok_val hSe
  refine ⟨so, ff, hs, hf, ?_, ?_⟩
  · rw [calcHFromSe_val hp, e]; rfl
  · rw [calcKFromSe_val hq, e, mul_comm so.Ksat]; rfl

/-- Every front but the deepest lies on the curves, if its head exceeds 1 cm. -/
def Curved (g : Geo K) (l : List (Front K)) : Prop := ∀ f ∈ l.dropLast, 1 < f.psi → OnCurve g f

theorem refresh_curved {g : Geo K} : ∀ {l l' : List (Front K)}, refresh g l = .ok l' → Curved g l'
  | [], l', h => by simp [refresh] at h
  | [f], l', h => by simp [refresh] at h; subst h; simp [Curved]
  | f :: n :: t, l', h => by
    unfold refresh at h
    simp only [bind_ok_iff, pure_eq_ok, Except.ok.injEq] at h
    obtain ⟨f', hf', r, hr, rfl⟩ := h
    have ih := refresh_curved hr
    have hne : r ≠ [] := by
      have := congrArg List.length (refresh_inv hr)
      simp at this
      intro e; simp [e] at this
    intro x hx hpsi
    rw [List.dropLast_cons_of_ne_nil hne, List.mem_cons] at hx
    rcases hx with rfl | hx
    · unfold refreshOne at hf'
      split at hf'
      · simp only [bind_ok_iff, Prod.exists, Except.ok.injEq] at hf'
        obtain ⟨p, q, hpq, rfl⟩ := hf'
        exact psiKOf_curve hpq
      · rename_i hn
        simp only [Except.ok.injEq] at hf'
        subst hf'
        exact absurd hpsi hn
    · exact ih x hx hpsi

theorem fixSingle_curved {g : Geo K} {l l' : List (Front K)} (hl : Curved g l) (h : fixSingle g l = .ok l') : Curved g l' := by
  unfold fixSingle at h
  split at h
  · simp only [bind_ok_iff] at h
    obtain ⟨c, _, h⟩ := h
    split at h <;> simp only [pure_eq_ok, Except.ok.injEq] at h <;> subst h <;> simp [Curved]
  · simp only [Except.ok.injEq] at h
    subst h; exact hl

theorem moveFronts_curved {fuel : Nat} {g : Geo K} {dt oldMass precip : K} {nFd : Nat} {prev l : List (Front K)}
    {aet : K} {r : List (Front K) × K × K} (h : moveFronts fuel g dt precip nFd oldMass aet prev l = .ok r) : Curved g r.1 := by
  unfold moveFronts at h
  simp only [bind_ok_iff, Prod.exists] at h
  obtain ⟨l1, aet1, fl, h1, h⟩ := h
  obtain ⟨_, _, _, _, _, _, _, _, _, _, _, _, l8, _, _, _, _, _, _, _, _, h8, h9, _⟩ := movePost_inv h
  exact fixSingle_curved (refresh_curved h8) h9

/-- What `OnCurve` depends on. -/
theorem Curved.of_map {g : Geo K} {l l' : List (Front K)} (hl : Curved g l)
    (e : l'.map (fun f => (f.theta, f.psi, f.K, f.layer)) = l.map (fun f => (f.theta, f.psi, f.K, f.layer))) : Curved g l' := by
  intro f hf hp
  have e' := congrArg List.dropLast e
  rw [← List.map_dropLast, ← List.map_dropLast] at e'
  have hm : (f.theta, f.psi, f.K, f.layer) ∈ l'.dropLast.map (fun f => (f.theta, f.psi, f.K, f.layer)) :=
    List.mem_map.mpr ⟨f, hf, rfl⟩
  rw [e'] at hm
  obtain ⟨f0, hf0, e0⟩ := List.mem_map.mp hm
  simp only [Prod.mk.injEq] at e0
  obtain ⟨e1, e2, e3, e4⟩ := e0
  have := hl f0 hf0 (by rw [e2]; exact hp)
  unfold OnCurve at this ⊢
  rwa [e1, e2, e3, e4] at this

theorem Curved.speed {fuel : Nat} {closed : Bool} {nint : Int} {hp : K} {g : Geo K} {l l' : List (Front K)}
    (hl : Curved g l) (h : dzdtCalc fuel closed nint hp g l = .ok l') : Curved g l' := by
  refine hl.of_map ?_
  have e := congrArg (List.map (fun x : K × K × K × K × Nat × Int × Bool => (x.2.1, x.2.2.1, x.2.2.2.1, x.2.2.2.2.1)))
    (dzdtCalc_frame h)
  rw [List.map_map, List.map_map] at e
  exact e

theorem Curved.merge {g : Geo K} {l l' : List (Front K)} {k : Int} (hn : NumFrom k l) (hl : Curved g l)
    (h : mergeFronts g l = .ok l') : Curved g l' := by
  refine (mergeLoop_ind (P := Curved g) ?_ hn hl h).2
  intro cur l r hn hl hs
  rcases mergeStep_inv hn hs with rfl | ⟨a, c, n, nn, b, d, psi, Kc, rfl, _, _, _, _, _, _, hpk, rfl⟩
  · exact hl
  · intro f hf hp
    simp only at hf
    rw [List.dropLast_append_of_ne_nil (by simp), List.mem_append] at hf
    have hne : decFronts (nn :: b) ≠ [] := by simp [decFronts]
    rcases hf with hf | hf
    · refine hl f ?_ hp
      rw [List.dropLast_append_of_ne_nil (by simp)]
      exact List.mem_append.mpr (.inl hf)
    · rw [List.dropLast_cons_of_ne_nil hne, List.mem_cons] at hf
      rcases hf with rfl | hf
      · exact psiKOf_curve hpk
      · have hb : Curved g (nn :: b) := by
          intro x hx hxp
          refine hl x ?_ hxp
          rw [List.dropLast_append_of_ne_nil (by simp)]
          refine List.mem_append.mpr (.inr ?_)
          rw [List.dropLast_cons_of_ne_nil (by simp), List.dropLast_cons_of_ne_nil (by simp)]
          exact List.mem_cons_of_mem _ (List.mem_cons_of_mem _ hx)
        have hd : Curved g (decFronts (nn :: b)) := hb.of_map (by unfold decFronts; rw [List.map_map]; rfl)
        exact hd f hf hp

/-- A new surface front has the head of its moisture and, in unfrozen soil, the conductivity. -/
theorem createFront_curve {g : Geo K} {ponded dry theta1 : K} {l : List (Front K)} {r : K × K × List (Front K)}
    (h : createFront g ponded dry theta1 l = .ok r) :
    ∃ f so ff, r.2.2 = f :: incFronts l ∧ f.layer = 1 ∧ f.front = 1 ∧ f.depth = dry ∧ f.toBottom = false ∧
      g.soil 1 = .ok so ∧ g.frozen[1]? = some ff ∧
      f.psi = headOf so f.theta ∧ f.K = ff * so.Ksat * relCond so f.theta * ff := by
  obtain ⟨so, thn, Se, psi, Kc, ff, hs, hff, _, hSe, hpsi, hK, e⟩ := createFront_inv h
  refine ⟨_, so, ff, e, rfl, rfl, rfl, rfl, hs, hff, ?_, ?_⟩
  · rw [calcHFromSe_val hpsi, cdiv_ok_val hSe]; rfl
  · rw [calcKFromSe_val hK, cdiv_ok_val hSe, mul_comm so.Ksat]; rfl

theorem Curved.create {g : Geo K} {ponded dry theta1 : K} {l : List (Front K)} {r : K × K × List (Front K)}
    (hN : g.numLayers = 1) (hf : g.frozen[1]? = some 1) (hg : Good g l) (hl : Curved g l)
    (h : createSurficial g ponded dry theta1 l = .ok r) : Curved g r.2.2 := by
  obtain ⟨l1, h1, h2⟩ := createSurficial_steps h
  obtain ⟨f, so, ff, e, e1, e1', e2, e3, hs, hff, hp, hk⟩ := createFront_curve h1
  simp only at e
  subst e
  rw [hf] at hff
  obtain rfl : 1 = ff := by simpa using hff
  have hne : incFronts l ≠ [] := by
    have := hg.col.ne_nil
    simp [incFronts, this]
  have hc : Curved g (f :: incFronts l) := by
    intro x hx hxp
    rw [List.dropLast_cons_of_ne_nil hne, List.mem_cons] at hx
    rcases hx with rfl | hx
    · exact ⟨so, 1, by rw [e1]; exact hs, by rw [e1]; exact hf, hp, by rw [hk, mul_one]⟩
    · have : Curved g (incFronts l) := hl.of_map (by unfold incFronts; rw [List.map_map]; rfl)
      exact this x hx hxp
  rcases h2 with ⟨_, h2⟩ | ⟨_, l2, hm, hcr⟩
  · rw [h2]; exact hc
  · have hnum : NumFrom 1 (f :: incFronts l) := (hg.sound.push e1').num
    have hlay : ∀ x ∈ f :: incFronts l, x.layer = 1 := by
      intro x hx
      rcases List.mem_cons.mp hx with rfl | hx
      · exact e1
      · unfold incFronts at hx
        obtain ⟨y, hy, rfl⟩ := List.mem_map.mp hx
        have := hg.col.range y hy
        simp only; omega
    have h3 := hc.merge hnum hm
    have hlay2 : ∀ x ∈ l2, x.layer = 1 := by
      refine (mergeLoop_ind (P := fun l => ∀ x ∈ l, x.layer = 1) ?_ hnum hlay hm).2
      intro cur l r hn hl hs
      rcases mergeStep_inv hn hs with rfl | ⟨a, c, n, nn, b, d, psi, Kc, rfl, _, _, _, _, _, _, hpk, rfl⟩
      · exact hl
      · intro x hx
        simp only [List.mem_append, List.mem_cons] at hx
        rcases hx with hx | rfl | hx
        · exact hl x (by simp [hx])
        · exact hl c (by simp)
        · unfold decFronts at hx
          obtain ⟨y, hy, rfl⟩ := List.mem_map.mp hx
          exact hl y (by simp at hy ⊢; tauto)
    rw [crossLayer_single (by rw [hN]; exact hlay2) hcr]
    exact h3

/-- No front is created in this sub-timestep. -/
def NoFront (c : StepCfg K) (s : SubSt K) : Prop := s.precipPrev ≠ 0 ∨ CMath.fmax s.precipMm 0 * 0.1 * c.dt ≤ 0

theorem NoFront.wants {c : StepCfg K} {s : SubSt K} (h : NoFront c s) (th e v : K) :
    wantsFront s.precipPrev (CMath.fmax s.precipMm 0 * 0.1 * c.dt) th e v = false := by
  unfold wantsFront
  rcases h with h | h
  · have : (s.precipPrev == 0) = false := by simpa using h
    simp [this]
  · simp [not_lt.mpr h]

theorem subStep_noFront {c : StepCfg K} {s s' : SubSt K} (h : subStep c s = .ok s') : NoFront c s' := by
  obtain ⟨aet, vs, h0, hsoil, f, l, ve, h1, _, _, _, _, hf, hl, _, _, _, _, rfl⟩ := subStep_inv h
  unfold NoFront
  simp only
  have e : CMath.fmax (CMath.fmax s.precipMm 0) (0 : K) = CMath.fmax s.precipMm 0 := by
    simp only [fmax_eq]; exact max_eq_left (le_max_right _ _)
  rw [e]
  by_cases hz : CMath.fmax s.precipMm 0 * 0.1 * c.dt = 0
  · exact .inr hz.le
  · exact .inl hz

theorem subStep_curved {c : StepCfg K} {s s' : SubSt K} (hn : NoFront c s) (h : subStep c s = .ok s') : Curved c.geo s'.head := by
  obtain ⟨aet, vs, h0, hsoil, f, l, ve, h1, _, _, _, _, hf, hl, _, _, _, _, rfl⟩ := subStep_inv h
  rw [hn.wants] at hf
  obtain ⟨_, hm, _⟩ := flowMove_inv hf
  exact (moveFronts_curved hm).speed hl

theorem subStep_curved_single {c : StepCfg K} {s s' : SubSt K} (hN : c.geo.numLayers = 1) (hfr : c.geo.frozen[1]? = some 1)
    (hinc : c.geo.cum.Pairwise (· < ·)) (hg : Good c.geo s.head) (h : subStep c s = .ok s') : Curved c.geo s'.head := by
  obtain ⟨aet, vs, h0, hsoil, f, l, ve, h1, _, _, _, _, hf, hl, _, _, _, _, rfl⟩ := subStep_inv h
  refine Curved.speed (l := f.head) ?_ hl
  unfold LGAR.subFlow at hf
  split at hf
  · obtain ⟨l, flux, dry, d, h0, pd, hm, _, _, hc, _⟩ := flowCreate_inv hf
    exact Curved.create hN hfr (hg.moveFronts hinc (.inl hN) hm) (moveFronts_curved hm) hc
  · obtain ⟨_, hm, _⟩ := flowMove_inv hf
    exact moveFronts_curved hm

theorem subStep_timesteps {c : StepCfg K} {s s' : SubSt K} (h : subStep c s = .ok s') : s'.timesteps = s.timesteps + 1 := by
  obtain ⟨aet, vs, h0, hsoil, f, l, ve, h1, _, _, _, _, hf, hl, _, _, _, _, rfl⟩ := subStep_inv h
  rfl

theorem subLoop_curved {c : StepCfg K} {n : Nat} {s s' : SubSt K} (h : subLoop c n s = .ok s')
    (ht : s.timesteps + 2 ≤ s'.timesteps ∨ s.timesteps < s'.timesteps ∧ NoFront c s) : Curved c.geo s'.head := by
  have key : (s.timesteps = s'.timesteps ∧ s' = s) ∨ (s.timesteps < s'.timesteps ∧ NoFront c s' ∧
      (s.timesteps + 2 ≤ s'.timesteps ∨ NoFront c s → Curved c.geo s'.head)) := by
    refine subLoop_ind (P := fun x => (s.timesteps = x.timesteps ∧ x = s) ∨ (s.timesteps < x.timesteps ∧ NoFront c x ∧
      (s.timesteps + 2 ≤ x.timesteps ∨ NoFront c s → Curved c.geo x.head))) ?_ (.inl ⟨rfl, rfl⟩) h
    intro x y hx hs
    have ht := subStep_timesteps hs
    right
    rcases hx with ⟨_, rfl⟩ | ⟨h1, h2, _⟩
    · refine ⟨by omega, subStep_noFront hs, fun h => ?_⟩
      rcases h with h | h
      · omega
      · exact subStep_curved h hs
    · exact ⟨by omega, subStep_noFront hs, fun _ => subStep_curved h2 hs⟩
  rcases key with ⟨h1, rfl⟩ | ⟨h1, _, h3⟩
  · omega
  · exact h3 (ht.imp_right fun x => x.2)

theorem subLoop_curved_single {c : StepCfg K} {n : Nat} {s s' : SubSt K} (hN : c.geo.numLayers = 1)
    (hfr : c.geo.frozen[1]? = some 1) (hinc : c.geo.cum.Pairwise (· < ·)) (hg : Good c.geo s.head)
    (h : subLoop c n s = .ok s') (ht : s.timesteps < s'.timesteps) : Curved c.geo s'.head := by
  have key : Good c.geo s'.head ∧ (s' = s ∨ Curved c.geo s'.head) := by
    refine subLoop_ind (P := fun x => Good c.geo x.head ∧ (x = s ∨ Curved c.geo x.head)) ?_ ⟨hg, .inl rfl⟩ h
    intro x y hx hs
    exact ⟨hx.1.subStep hinc (.inl hN) hs, .inr (subStep_curved_single hN hfr hinc hx.1 hs)⟩
  rcases key.2 with rfl | h
  · omega
  · exact h

end Exact
end LGAR
