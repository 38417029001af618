import Verif.Spec.Carry
import Verif.Props.Solver
import Verif.Props.Soil
import Verif.Lemmas.Rest
import Verif.Props.Boundary
/-
C105: a moving front carries its water along.
-/
set_option linter.unusedSectionVars false
namespace LGAR
attribute [-instance] Rat.instOfScientific

/-- Slabs of the whole layers from `k` on. -/
def Whole (g : Geo ℝ) (b : SoilProps ℝ → ℝ) (k : Nat) (sl : List Slab) : Prop :=
  ∀ i x, sl[i]? = some x → g.soil (k + i) = .ok x.soil ∧ x.base = b x.soil ∧
    x.thick = layerTop g.cum (k + i + 1) - layerTop g.cum (k + i)

theorem Whole.tail {g : Geo ℝ} {b : SoilProps ℝ → ℝ} {k : Nat} {x : Slab} {t : List Slab} (h : Whole g b k (x :: t)) : Whole g b (k + 1) t := by
  intro i y hy
  have := h (i + 1) y (by simpa using hy)
  rwa [show k + (i + 1) = k + 1 + i by omega] at this

theorem Whole.head {g : Geo ℝ} {b : SoilProps ℝ → ℝ} {k : Nat} {x : Slab} {t : List Slab} (h : Whole g b k (x :: t)) :
    g.soil k = .ok x.soil ∧ x.base = b x.soil ∧ x.thick = layerTop g.cum (k + 1) - layerTop g.cum k := h 0 x rfl

theorem moveLayers_stack {g : Geo ℝ} (hg : Ground g) {p0 p : ℝ} (h0 : 0 ≤ p0) (h1 : 0 ≤ p) {below : Option (ℝ × ℝ)}
    {b0 b1 : SoilProps ℝ → ℝ} (hb0 : ∀ s : SoilProps ℝ, s.Physical → belowTheta s (below.map (fun b => b.1)) = .ok (b0 s))
    (hb1 : ∀ s : SoilProps ℝ, s.Physical → belowTheta s (below.map (fun b => b.2)) = .ok (b1 s)) :
    ∀ {n k : Nat} {a : MoveAcc ℝ} {o w : List Slab}, 1 ≤ k → k + n ≤ g.numLayers + 1 → o.length = n → w.length = n →
      Whole g b0 k o → Whole g b1 k w →
      moveLayers g p0 p below n k a = .ok
        { prior := a.prior + stackWater o p0, new := a.new + stackWater w p,
          dTheta := a.dTheta ++ w.map Slab.base, dThick := a.dThick ++ w.map Slab.thick }
  | 0, k, a, o, w, _, _, ho, hw, _, _ => by
    rw [List.length_eq_zero_iff] at ho hw
    subst ho hw
    simp [moveLayers, stackWater]
  | n + 1, k, a, o, w, hk, hkn, ho, hw, ro, ru => by
    obtain ⟨x, o, rfl⟩ := List.exists_cons_of_length_eq_add_one ho
    obtain ⟨y, w, rfl⟩ := List.exists_cons_of_length_eq_add_one hw
    obtain ⟨x1, x2, x3⟩ := ro.head
    obtain ⟨y1, y2, y3⟩ := ru.head
    obtain ⟨s, hs, hp⟩ := hg.soil k hk (by omega)
    rw [hs, Except.ok.injEq] at x1 y1
    obtain ⟨c0, c1, e0, e1, _⟩ := hg.cum (k - 1) (by omega)
    rw [show k - 1 + 1 = k by omega] at e1
    have t0 : layerTop g.cum k = c0 := by unfold layerTop; rw [List.getD_eq_getElem?_getD, e0]; rfl
    have t1 : layerTop g.cum (k + 1) = c1 := by
      unfold layerTop; rw [List.getD_eq_getElem?_getD, Nat.add_sub_cancel, e1]; rfl
    unfold moveLayers
    simp only [hs, ok_bind, calcTheta_moistAt hp h0, calcTheta_moistAt hp h1, hb0 s hp, hb1 s hp, idx_ok_iff.2 e1,
      idxPred_get hk e0]
    rw [moveLayers_stack hg h0 h1 hb0 hb1 (o := o) (w := w) (by omega) (by omega) (by simpa using ho) (by simpa using hw) ro.tail ru.tail]
    rw [t0, t1] at x3 y3
    simp only [Except.ok.injEq, MoveAcc.mk.injEq, stackWater_cons, Slab.water, ← x1, ← y1, x2, x3, y2, y3, List.map_cons,
      List.append_assoc, List.cons_append, List.nil_append, and_true]
    constructor <;> ring

theorem StackTo.split {g : Geo ℝ} {b : SoilProps ℝ → ℝ} {z : ℝ} {layer : Nat} {sl : List Slab} (h : StackTo g b z layer sl)
    (h1 : 1 ≤ layer) : ∃ o x, sl = o ++ [x] ∧ o.length = layer - 1 ∧ Whole g b 1 o ∧ g.soil layer = .ok x.soil ∧ x.base = b x.soil ∧
      x.thick = z - layerTop g.cum layer := by
  have hl := h.length
  rcases List.eq_nil_or_concat sl with rfl | ⟨o, x, rfl⟩
  · simp at hl; omega
  rw [List.concat_eq_append] at *
  simp only [List.length_append, List.length_cons, List.length_nil] at hl
  have hx : (o ++ [x])[o.length]? = some x := by simp
  refine ⟨o, x, rfl, by omega, ?_, ?_, h.base _ _ hx, ?_⟩
  · intro i y hy
    have hi : i < o.length := (List.getElem?_eq_some_iff.mp hy).1
    have hy' : (o ++ [x])[i]? = some y := by rw [List.getElem?_append_left hi]; exact hy
    refine ⟨by rw [Nat.add_comm]; exact h.soil _ _ hy', h.base _ _ hy', ?_⟩
    rw [h.thick _ _ hy', if_neg (by omega), show 1 + i + 1 = i + 2 by omega, Nat.add_comm 1 i]
  · have := h.soil _ _ hx
    rwa [hl] at this
  · rw [h.thick _ _ hx, if_pos hl, hl]

theorem stackWater_append {a b : List Slab} {h : ℝ} : stackWater (a ++ b) h = stackWater a h + stackWater b h := by
  simp [stackWater]

theorem stack_exists {g : Geo ℝ} (hg : Ground g) (b : SoilProps ℝ → ℝ) (z : ℝ) {layer : Nat} (h2 : layer ≤ g.numLayers) :
    ∃ sl, StackTo g b z layer sl := by
  have hex : ∀ i : Fin layer, ∃ x : Slab, g.soil (i + 1) = .ok x.soil ∧ x.base = b x.soil ∧
      x.thick = (if (i : Nat) + 1 = layer then z else layerTop g.cum (i + 2)) - layerTop g.cum (i + 1) := by
    intro i
    obtain ⟨s, hs, _⟩ := hg.soil (i + 1) (by omega) (by omega)
    exact ⟨⟨_, b s, s⟩, hs, rfl, rfl⟩
  choose f hf using hex
  have hget : ∀ (i : Nat) (x : Slab), (List.ofFn f)[i]? = some x → ∃ hi : i < layer, x = f ⟨i, hi⟩ := by
    intro i x hx
    rw [List.getElem?_ofFn] at hx
    split_ifs at hx with hi
    exact ⟨hi, (Option.some.inj hx).symm⟩
  refine ⟨List.ofFn f, by simp, fun i x hx => ?_, fun i x hx => ?_, fun i x hx => ?_⟩ <;> obtain ⟨hi, rfl⟩ := hget i x hx
  · exact (hf ⟨i, hi⟩).1
  · exact (hf ⟨i, hi⟩).2.1
  · exact (hf ⟨i, hi⟩).2.2

theorem StackTo.thick_nonneg {g : Geo ℝ} {b : SoilProps ℝ → ℝ} {z : ℝ} {layer : Nat} {sl : List Slab} (h : StackTo g b z layer sl)
    (hg : Ground g) (h2 : layer ≤ g.numLayers) (htop : layerTop g.cum layer ≤ z) : ∀ x ∈ sl, 0 ≤ x.thick := by
  intro x hx
  obtain ⟨i, hi⟩ := List.mem_iff_getElem?.mp hx
  have hlt := (List.getElem?_eq_some_iff.mp hi).1
  rw [h.length] at hlt
  rw [h.thick i x hi]
  split_ifs with hc
  · rw [hc]; linarith
  · obtain ⟨u, v, k1, k2, k3⟩ := hg.cum i (by omega)
    unfold layerTop
    simp only [List.getD_eq_getElem?_getD, Nat.add_sub_cancel, k1, show i + 2 - 1 = i + 1 by omega, k2, Option.getD_some]
    linarith

/-- The head of a moisture above residual and at most saturated. -/
theorem psiOf_moist {s : SoilProps ℝ} (hp : s.Physical) {th : ℝ} (h1 : s.thetaR < th) (h2 : th ≤ s.thetaE) :
    ∃ psi, psiOf s th = .ok psi ∧ 0 ≤ psi ∧ moistAt s psi = th := by
  have hgap := hp.gap
  have hSe0 : 0 < (th - s.thetaR) / (s.thetaE - s.thetaR) := div_pos (by linarith) (by linarith)
  have hSe1 : (th - s.thetaR) / (s.thetaE - s.thetaR) ≤ 1 := by rw [div_le_one (by linarith)]; linarith
  obtain ⟨hh, t, e1, e2, e3, e4⟩ := C21_saturation_roundtrip s hp _ hSe0 hSe1
  rw [SoilProps.headAt] at e1
  rw [SoilProps.thetaAt, calcTheta_moistAt hp e2, Except.ok.injEq] at e3
  rw [SoilProps.seOf, calcSeFromTheta_real hgap, Except.ok.injEq] at e4
  have htn : t = th := by
    have := (div_left_inj' (sub_pos.mpr hgap).ne').mp e4
    linarith
  refine ⟨hh, ?_, e2, by rw [e3, htn]⟩
  unfold psiOf
  rw [calcSeFromTheta_real hgap, ok_bind, e1]

theorem moveInner_search (g : Geo ℝ) (hg : Ground g) (hall : ∀ k q, 1 ≤ k → g.soil k = .ok q → q.Physical) (dt precip aet : ℝ) (isFd : Bool)
    (c n old oldNext : Front ℝ) (s : SoilProps ℝ) (before after : List Slab) (h1 : 1 ≤ c.layer) (h2 : c.layer ≤ g.numLayers)
    (hs : g.soil c.layer = .ok s) (hc : c.theta = moistAt s c.psi) (hn : n.theta = moistAt s n.psi)
    (ho : old.theta = moistAt s old.psi) (hon : oldNext.theta = moistAt s oldNext.psi) (pc : 0 ≤ c.psi) (pn : 0 ≤ n.psi)
    (po : 0 ≤ old.psi) (pon : 0 ≤ oldNext.psi) (hbefore : StackTo g (fun q => moistAt q oldNext.psi) old.depth c.layer before)
    (hafter : StackTo g (fun q => moistAt q n.psi) (c.depth + c.dzdt * dt) c.layer after) :
    ∃ dTheta dThick newMass, SlabsOf g dTheta dThick c.layer after ∧ newMass = stackWater after c.psi ∧ ∀ fuel h aet', 0 ≤ h →
      thetaMassBalance fuel g c.layer s c.psi newMass (stackWater before old.psi + (if isFd then precip - aet else 0)) aet dTheta dThick =
        .ok (some (moistAt s h), aet') →
      moveInner fuel g dt precip isFd c n old oldNext oldNext s aet =
        .ok ({ c with depth := c.depth + c.dzdt * dt, theta := moistAt s h }, aet') := by
  obtain ⟨o, x, rfl, o1, o2, o3, o4, o5⟩ := hbefore.split h1
  obtain ⟨w, y, rfl, w1, w2, w3, w4, w5⟩ := hafter.split h1
  rw [hs, Except.ok.injEq] at o3 w3
  have hp := hall _ _ h1 hs
  obtain ⟨c0, c1, e0, e1, _⟩ := hg.cum (c.layer - 1) (by omega)
  have t0 : layerTop g.cum c.layer = c0 := by unfold layerTop; rw [List.getD_eq_getElem?_getD, e0]; rfl
  have hl := fun a => moveLayers_stack hg po pc (below := some (oldNext.psi, n.psi)) (b0 := fun q => moistAt q oldNext.psi)
    (b1 := fun q => moistAt q n.psi) (fun s hs => calcTheta_moistAt hs pon) (fun s hs => calcTheta_moistAt hs pn)
    (n := c.layer - 1) (k := 1) (a := a) (o := o) (w := w) le_rfl (by omega) o1 w1 o2 w2
  have hsl : SlabsOf g (([0] ++ w.map Slab.base) ++ [n.theta]) (([0] ++ w.map Slab.thick) ++ [c.depth + c.dzdt * dt - c0]) c.layer
      (w ++ [y]) := by
    refine ⟨hafter.length, fun i z hz => ⟨?_, ?_, hafter.soil i z hz⟩⟩
    · have := congrArg (Option.map Slab.thick) hz
      rw [← List.getElem?_map] at this
      simpa [w5, t0] using this
    · have := congrArg (Option.map Slab.base) hz
      rw [← List.getElem?_map] at this
      simpa [w4, ← w3, hn] using this
  refine ⟨_, _, (c.depth + c.dzdt * dt - c0) * (c.theta - n.theta) + stackWater w c.psi, hsl,
    by rw [stackWater_append]; simp [stackWater, Slab.water, w5, w4, ← w3, hc, hn, t0]; ring, fun fuel h aet' hh hrun => ?_⟩
  unfold moveInner
  have hprior : (if isFd then (old.depth - c0) * (old.theta - oldNext.theta) + stackWater o old.psi + (precip - (0 + aet))
      else (old.depth - c0) * (old.theta - oldNext.theta) + stackWater o old.psi) =
      stackWater (o ++ [x]) old.psi + (if isFd then precip - aet else 0) := by
    rw [stackWater_append]
    cases isFd <;> simp [stackWater, Slab.water, o5, o4, ← o3, ho, hon, t0] <;> ring
  simp only [idxPred_get h1 e0, ok_bind, hl, hprior, hrun]
  obtain ⟨th, b1, b2, b3⟩ := C20_bounded s hp h hh
  rw [SoilProps.thetaAt, calcTheta_moistAt hp hh, Except.ok.injEq] at b1
  subst b1
  rw [clamp_inside b2 b3]
  rfl

/-- C105 in layer 2 and deeper: the moved front stands where its speed takes it and has the moisture of one head `h`, and with the layers
above at that same head there is as much water above the front as before (plus rain less ET, if it is the free-drainage front),
to 1e-12 cm, or the search for `h` ends otherwise (`SearchEnd`). -/
theorem C105_inner (g : Geo ℝ) (hg : Ground g) (hall : ∀ k q, 1 ≤ k → g.soil k = .ok q → q.Physical) (dt precip aet : ℝ) (isFd : Bool)
    (c n old oldNext : Front ℝ) (s : SoilProps ℝ) (before after : List Slab) (h1 : 1 ≤ c.layer) (h2 : c.layer ≤ g.numLayers)
    (hs : g.soil c.layer = .ok s) (hc : c.theta = moistAt s c.psi) (hn : n.theta = moistAt s n.psi)
    (ho : old.theta = moistAt s old.psi) (hon : oldNext.theta = moistAt s oldNext.psi) (pc : 0 ≤ c.psi) (pn : 0 ≤ n.psi)
    (po : 0 ≤ old.psi) (pon : 0 ≤ oldNext.psi) (hbefore : StackTo g (fun q => moistAt q oldNext.psi) old.depth c.layer before)
    (hafter : StackTo g (fun q => moistAt q n.psi) (c.depth + c.dzdt * dt) c.layer after)
    (htop : layerTop g.cum c.layer ≤ c.depth + c.dzdt * dt)
    (hsol : ∃ h', 0 ≤ h' ∧ stackWater after h' = stackWater before old.psi + (if isFd then precip - aet else 0)) :
    ∃ h aet' N, (∀ fuel, N ≤ fuel → moveInner fuel g dt precip isFd c n old oldNext oldNext s aet =
        .ok ({ c with depth := c.depth + c.dzdt * dt, theta := moistAt s h }, aet')) ∧ 0 ≤ h ∧
      SearchEnd (stackWater before old.psi + (if isFd then precip - aet else 0)) (stackWater after h) aet aet' := by
  obtain ⟨dTheta, dThick, newMass, hsl, hnew, hmove⟩ := moveInner_search g hg hall dt precip aet isFd c n old oldNext s before after h1 h2 hs hc hn ho hon pc pn po pon hbefore hafter
  obtain ⟨h', hh', hsol⟩ := hsol
  obtain ⟨h, aet', N, r1, r2, -, r3⟩ := C89_solver g c.layer s after _ _ c.psi newMass _ aet h' hsl (hafter.thick_nonneg hg h2 htop) hall h1
    hs pc hnew hh' hsol
  exact ⟨h, aet', N, fun fuel hf => hmove fuel h aet' r2 (r1 fuel hf), r2, r3⟩

theorem moveDeepest_search (g : Geo ℝ) (hg : Ground g) (hall : ∀ k q, 1 ≤ k → g.soil k = .ok q → q.Physical) (dt precip aet : ℝ) (isFd : Bool)
    (c old : Front ℝ) (s : SoilProps ℝ) (before after : List Slab) (h1 : 1 ≤ c.layer) (h2 : c.layer ≤ g.numLayers)
    (hs : g.soil c.layer = .ok s) (hc : c.theta = moistAt s c.psi) (ho : old.theta = moistAt s old.psi) (pc : 0 ≤ c.psi)
    (po : 0 ≤ old.psi) (hbefore : StackTo g (fun _ => 0) old.depth c.layer before)
    (hafter : StackTo g (fun _ => 0) (c.depth + c.dzdt * dt) c.layer after) :
    ∃ dTheta dThick newMass, SlabsOf g dTheta dThick c.layer after ∧ newMass = stackWater after c.psi ∧ ∀ h, 0 ≤ h →
      ∃ psi, 0 ≤ psi ∧ moistAt s psi = moistAt s h ∧ ∀ fuel aet',
      thetaMassBalance fuel g c.layer s c.psi newMass (stackWater before old.psi + (if isFd then precip - aet else 0)) aet dTheta dThick =
        .ok (some (moistAt s h), aet') →
      moveDeepest fuel g dt precip isFd c old s aet =
        .ok ({ c with depth := c.depth + c.dzdt * dt, theta := moistAt s h, psi := psi }, aet') := by
  obtain ⟨o, x, rfl, o1, o2, o3, o4, o5⟩ := hbefore.split h1
  obtain ⟨w, y, rfl, w1, w2, w3, w4, w5⟩ := hafter.split h1
  rw [hs, Except.ok.injEq] at o3 w3
  have hp := hall _ _ h1 hs
  obtain ⟨c0, c1, e0, e1, _⟩ := hg.cum (c.layer - 1) (by omega)
  have t0 : layerTop g.cum c.layer = c0 := by unfold layerTop; rw [List.getD_eq_getElem?_getD, e0]; rfl
  have hl := fun a => moveLayers_stack hg po pc (below := none) (b0 := fun _ => 0) (b1 := fun _ => 0) (fun _ _ => rfl) (fun _ _ => rfl)
    (n := c.layer - 1) (k := 1) (a := a) (o := o) (w := w) le_rfl (by omega) o1 w1 o2 w2
  have hsl : SlabsOf g (([0] ++ w.map Slab.base) ++ [0]) (([0] ++ w.map Slab.thick) ++ [c.depth + c.dzdt * dt - c0]) c.layer
      (w ++ [y]) := by
    refine ⟨hafter.length, fun i z hz => ⟨?_, ?_, hafter.soil i z hz⟩⟩
    · have := congrArg (Option.map Slab.thick) hz
      rw [← List.getElem?_map] at this
      simpa [w5, t0] using this
    · have := congrArg (Option.map Slab.base) hz
      rw [← List.getElem?_map] at this
      simpa [w4] using this
  refine ⟨_, _, (c.depth + c.dzdt * dt - c0) * (c.theta - 0) + stackWater w c.psi, hsl,
    by rw [stackWater_append]; simp [stackWater, Slab.water, w5, w4, ← w3, hc, t0]; ring, fun h hh => ?_⟩
  obtain ⟨th, b1, b2, b3⟩ := C20_bounded s hp h hh
  rw [SoilProps.thetaAt, calcTheta_moistAt hp hh, Except.ok.injEq] at b1
  subst b1
  obtain ⟨psi, hpsi, hpsi0, hmo⟩ := psiOf_moist hp b2 b3
  refine ⟨psi, hpsi0, hmo, fun fuel aet' hrun => ?_⟩
  unfold moveDeepest
  have hprior : (if isFd then (old.depth - c0) * (old.theta - 0) + stackWater o old.psi + (precip - (0 + aet))
      else (old.depth - c0) * (old.theta - 0) + stackWater o old.psi) =
      stackWater (o ++ [x]) old.psi + (if isFd then precip - aet else 0) := by
    rw [stackWater_append]
    cases isFd <;> simp [stackWater, Slab.water, o5, o4, ← o3, ho, t0] <;> ring
  simp only [idxPred_get h1 e0, ok_bind, hl, hprior, hrun, clamp_inside b2 b3, hpsi]
  rfl

/-- C105 for the deepest front of a column with one front per layer: the same with all the water of the column. -/
theorem C105_deepest (g : Geo ℝ) (hg : Ground g) (hall : ∀ k q, 1 ≤ k → g.soil k = .ok q → q.Physical) (dt precip aet : ℝ) (isFd : Bool)
    (c old : Front ℝ) (s : SoilProps ℝ) (before after : List Slab) (h1 : 1 ≤ c.layer) (h2 : c.layer ≤ g.numLayers)
    (hs : g.soil c.layer = .ok s) (hc : c.theta = moistAt s c.psi) (ho : old.theta = moistAt s old.psi) (pc : 0 ≤ c.psi)
    (po : 0 ≤ old.psi) (hbefore : StackTo g (fun _ => 0) old.depth c.layer before)
    (hafter : StackTo g (fun _ => 0) (c.depth + c.dzdt * dt) c.layer after)
    (htop : layerTop g.cum c.layer ≤ c.depth + c.dzdt * dt)
    (hsol : ∃ h', 0 ≤ h' ∧ stackWater after h' = stackWater before old.psi + (if isFd then precip - aet else 0)) :
    ∃ h psi aet' N, (∀ fuel, N ≤ fuel → moveDeepest fuel g dt precip isFd c old s aet =
        .ok ({ c with depth := c.depth + c.dzdt * dt, theta := moistAt s h, psi := psi }, aet')) ∧ 0 ≤ h ∧ 0 ≤ psi ∧
      moistAt s psi = moistAt s h ∧
      SearchEnd (stackWater before old.psi + (if isFd then precip - aet else 0)) (stackWater after h) aet aet' := by
  obtain ⟨dTheta, dThick, newMass, hsl, hnew, hmove⟩ := moveDeepest_search g hg hall dt precip aet isFd c old s before after h1 h2 hs hc ho pc po hbefore hafter
  obtain ⟨h', hh', hsol⟩ := hsol
  obtain ⟨h, aet', N, r1, r2, -, r3⟩ := C89_solver g c.layer s after _ _ c.psi newMass _ aet h' hsl (hafter.thick_nonneg hg h2 htop) hall h1
    hs pc hnew hh' hsol
  obtain ⟨psi, q1, q2, q3⟩ := hmove h r2
  exact ⟨h, psi, aet', N, fun fuel hf => q3 fuel aet' (r1 fuel hf), r2, q1, q2, r3⟩

section Top
variable {K : Type} [Field K] [LinearOrder K] [IsStrictOrderedRing K] [CMath K] [LawfulNum K]

/-- C105 in the first layer: a front that stays stands where its speed takes it, but not below the column, and carries the water it had
(plus rain less ET, if it is the free-drainage front) as far as the soil can hold it. -/
theorem C105_top (dt precip column aet : K) (isFd : Bool) (c n old oldNext c' : Front K) (s : SoilProps K)
    (h : moveTopLayer dt precip column isFd c n old oldNext s aet = .ok (some c')) (hmove : c.dzdt ≠ 0 ∨ c.toBottom = true)
    (hpos : 0 < min (c.depth + c.dzdt * dt) column) (hr : s.thetaR ≤ s.thetaE) :
    c'.depth = min (c.depth + c.dzdt * dt) column ∧
      c'.depth * (c'.theta - n.theta) =
        min (old.depth * (old.theta - oldNext.theta) + (if isFd then precip - aet else 0)) (c'.depth * (s.thetaE - n.theta)) := by
  unfold moveTopLayer at h
  have hq : ¬ ((c.dzdt == 0) = true ∧ c.toBottom = false) := by
    rintro ⟨a, b⟩
    rcases hmove with hm | hm
    · exact hm (by simpa using a)
    · rw [hm] at b; exact absurd b (by simp)
  simp only [fmin_eq, fmax_eq] at h
  have e : (if isFd then old.depth * (old.theta - oldNext.theta) + (precip - (0 + aet)) else old.depth * (old.theta - oldNext.theta)) =
      old.depth * (old.theta - oldNext.theta) + (if isFd then precip - aet else 0) := by cases isFd <;> simp
  rw [if_neg hq, e] at h
  simp only [bind_ok_iff, cdiv_ok] at h
  obtain ⟨q, ⟨_, rfl⟩, h⟩ := h
  by_cases hlow : (old.depth * (old.theta - oldNext.theta) + (if isFd then precip - aet else 0)) / min (c.depth + c.dzdt * dt) column +
      n.theta < s.thetaR
  · rw [if_pos hlow] at h; simp [pure_eq_ok] at h
  rw [if_neg hlow] at h
  simp only [pure_eq_ok, Except.ok.injEq, Option.some.injEq] at h
  subst h
  refine ⟨rfl, ?_⟩
  dsimp only
  generalize old.depth * (old.theta - oldNext.theta) + (if isFd then precip - aet else 0) = P at *
  generalize min (c.depth + c.dzdt * dt) column = z at *
  rw [max_eq_right (le_min hr (not_lt.mp hlow))]
  rcases le_total s.thetaE (P / z + n.theta) with hc | hc
  · rw [min_eq_left hc, min_eq_right]
    rw [← sub_le_iff_le_add, le_div_iff₀ hpos] at hc
    linarith
  · rw [min_eq_right hc, min_eq_left]
    · field_simp; ring
    · rw [← le_sub_iff_add_le, div_le_iff₀ hpos] at hc
      linarith

end Top

/-- Water of whole layers of one soil. -/
theorem stackWater_one {g : Geo ℝ} {s : SoilProps ℝ} {b : SoilProps ℝ → ℝ} {h : ℝ} : ∀ {o : List Slab} {k : Nat}, 1 ≤ k → Whole g b k o →
    (∀ i, i < o.length → g.soil (k + i) = .ok s) →
    stackWater o h = (layerTop g.cum (k + o.length) - layerTop g.cum k) * (moistAt s h - b s)
  | [], k, _, _, _ => by simp [stackWater]
  | x :: o, k, hk, ho, hs => by
    obtain ⟨a1, a2, a3⟩ := ho.head
    have := hs 0 (by simp)
    rw [Nat.add_zero, a1, Except.ok.injEq] at this
    rw [stackWater_cons, stackWater_one (k := k + 1) (by omega) ho.tail (fun i hi => by
      have := hs (i + 1) (by simpa using hi)
      rwa [show k + (i + 1) = k + 1 + i by omega] at this), Slab.water, a2, a3, this, List.length_cons,
      show k + (o.length + 1) = k + 1 + o.length by omega]
    ring

theorem StackTo.one {g : Geo ℝ} {s : SoilProps ℝ} {b : SoilProps ℝ → ℝ} {h z : ℝ} {layer : Nat} {sl : List Slab}
    (hst : StackTo g b z layer sl) (h1 : 1 ≤ layer) (h0 : g.cum[0]? = some 0)
    (hs : ∀ k, 1 ≤ k → k ≤ layer → g.soil k = .ok s) : stackWater sl h = z * (moistAt s h - b s) := by
  obtain ⟨o, x, rfl, o1, o2, o3, o4, o5⟩ := hst.split h1
  rw [hs layer h1 le_rfl, Except.ok.injEq] at o3
  rw [stackWater_append, stackWater_one le_rfl o2 fun i hi => hs _ (by omega) (by omega)]
  have t0 : layerTop g.cum 1 = 0 := by unfold layerTop; rw [List.getD_eq_getElem?_getD, h0]; rfl
  simp only [stackWater, List.map_cons, List.map_nil, List.sum_cons, List.sum_nil, Slab.water, o4, o5, ← o3, t0, o1]
  rw [show 1 + (layer - 1) = layer by omega]
  ring

/-- C104, movement: in layers of one soil a front of layer 2 or deeper moves by the formula of the first layer,
`theta = theta below + water / depth`, up to the tolerance 1e-12 cm of the search, or the search ends otherwise (`SearchEnd`). -/
theorem C104_move (g : Geo ℝ) (hg : Ground g) (hall : ∀ k q, 1 ≤ k → g.soil k = .ok q → q.Physical) (dt precip aet : ℝ) (isFd : Bool)
    (c n old oldNext : Front ℝ) (s : SoilProps ℝ) (h1 : 1 ≤ c.layer) (h2 : c.layer ≤ g.numLayers)
    (hs : ∀ k, 1 ≤ k → k ≤ c.layer → g.soil k = .ok s) (hc : c.theta = moistAt s c.psi) (hn : n.theta = moistAt s n.psi)
    (ho : old.theta = moistAt s old.psi) (hon : oldNext.theta = moistAt s oldNext.psi) (pc : 0 ≤ c.psi) (pn : 0 ≤ n.psi)
    (po : 0 ≤ old.psi) (pon : 0 ≤ oldNext.psi) (htop : layerTop g.cum c.layer ≤ c.depth + c.dzdt * dt) (z water : ℝ)
    (hz : z = c.depth + c.dzdt * dt) (hz0 : 0 < z)
    (hw : water = old.depth * (old.theta - oldNext.theta) + (if isFd then precip - aet else 0))
    (hlo : s.thetaR < n.theta + water / z) (hhi : n.theta + water / z ≤ s.thetaE) :
    ∃ th aet' N, (∀ fuel, N ≤ fuel → moveInner fuel g dt precip isFd c n old oldNext oldNext s aet =
        .ok ({ c with depth := z, theta := th }, aet')) ∧
      SearchEnd water (z * (th - n.theta)) aet aet' := by
  obtain ⟨before, hbefore⟩ := stack_exists hg (fun q => moistAt q oldNext.psi) old.depth h2
  obtain ⟨after, hafter⟩ := stack_exists hg (fun q => moistAt q n.psi) z h2
  have hp := hall _ _ h1 (hs _ h1 le_rfl)
  have e1 : ∀ h, stackWater after h = z * (moistAt s h - n.theta) := fun h => by rw [hafter.one h1 hg.top hs, hn]
  have e2 : stackWater before old.psi = old.depth * (old.theta - oldNext.theta) := by
    rw [hbefore.one h1 hg.top hs, ho, hon]
  obtain ⟨h', k1, k2⟩ : ∃ h', 0 ≤ h' ∧ moistAt s h' = n.theta + water / z := by
    obtain ⟨psi, _, k2, k3⟩ := psiOf_moist hp hlo hhi
    exact ⟨psi, k2, k3⟩
  obtain ⟨h, aet', N, r1, r2, r3⟩ := C105_inner g hg hall dt precip aet isFd c n old oldNext s before after h1 h2 (hs _ h1 le_rfl) hc hn
    ho hon pc pn po pon hbefore (hz ▸ hafter) htop ⟨h', k1, by rw [e1, e2, ← hw, k2]; field_simp; ring⟩
  rw [e1, e2, ← hw] at r3
  exact ⟨moistAt s h, aet', N, fun fuel hf => by rw [r1 fuel hf, hz], r3⟩

theorem moistAt_loam {x y : ℝ} (hy : 0 < y) (h : 1 + (x / 100) ^ 2 = y ^ 2) : moistAt loam x = 1 / y := by
  have e1 : (loam.vgAlpha * x) ^ loam.vgN = (x / 100) ^ 2 := by
    rw [show loam.vgN = ((2 : ℕ) : ℝ) by norm_num [loam], Real.rpow_natCast]
    congr 1
    norm_num [loam]; ring
  unfold moistAt
  rw [e1, h, show loam.vgM = 1 / 2 by norm_num [loam], ← Real.sqrt_eq_rpow, Real.sqrt_sq hy.le]
  norm_num [loam]

theorem loam_75 : moistAt loam 75 = 4 / 5 := by
  rw [moistAt_loam (y := 5 / 4) (by norm_num) (by norm_num)]; norm_num

theorem loam_133 : moistAt loam (400 / 3) = 3 / 5 := by
  rw [moistAt_loam (y := 5 / 3) (by norm_num) (by norm_num)]; norm_num

theorem geoLoams_ground : Ground geoLoams where
  pos := by norm_num [geoLoams]
  soil k h1 h2 := by
    have : k = 1 ∨ k = 2 := by simp only [geoLoams] at h2; omega
    rcases this with rfl | rfl <;> exact ⟨loam, by simp [Geo.soil, geoLoams, idx, idxI, ok_bind], loam_physical⟩
  frost k h1 h2 := by
    have : k = 1 ∨ k = 2 := by simp only [geoLoams] at h2; omega
    rcases this with rfl | rfl <;> exact ⟨1, rfl, by norm_num⟩
  top := rfl
  cum k h := by
    have : k = 0 ∨ k = 1 := by simp only [geoLoams] at h; omega
    rcases this with rfl | rfl
    · exact ⟨0, 10, rfl, rfl, by norm_num⟩
    · exact ⟨10, 30, rfl, rfl, by norm_num⟩

theorem geoLoams_soil (k : Nat) (q : SoilProps ℝ) (_ : 1 ≤ k) (h : geoLoams.soil k = .ok q) : q = loam := by
  unfold Geo.soil at h
  simp only [geoLoams, bind_ok_iff] at h
  obtain ⟨t, _, h⟩ := h
  rw [idxI_ok_iff] at h
  have := List.mem_of_getElem? h.2
  simpa using this

/-- C104_move and C105_inner: a front at 15 cm in the second layer of loam, moisture 0.8 over 0.6, moves by 1 cm. -/
example : ∃ th aet' N, (∀ fuel, N ≤ fuel → moveInner fuel geoLoams 1 0 false
      { depth := 15, theta := 4/5, psi := 75, K := 0, layer := 2, front := 2, toBottom := false, dzdt := 1 }
      { depth := 30, theta := 3/5, psi := 400/3, K := 0, layer := 2, front := 3, toBottom := true, dzdt := 0 }
      { depth := 15, theta := 4/5, psi := 75, K := 0, layer := 2, front := 2, toBottom := false, dzdt := 1 }
      { depth := 30, theta := 3/5, psi := 400/3, K := 0, layer := 2, front := 3, toBottom := true, dzdt := 0 }
      { depth := 30, theta := 3/5, psi := 400/3, K := 0, layer := 2, front := 3, toBottom := true, dzdt := 0 } loam (1/10) =
    .ok ({ depth := 16, theta := th, psi := 75, K := 0, layer := 2, front := 2, toBottom := false, dzdt := 1 }, aet')) ∧
    SearchEnd 3 (16 * (th - 3/5)) (1/10) aet' :=
  C104_move geoLoams geoLoams_ground (fun k q h1 h => geoLoams_soil k q h1 h ▸ loam_physical) 1 0 (1/10) false
    { depth := 15, theta := 4/5, psi := 75, K := 0, layer := 2, front := 2, toBottom := false, dzdt := 1 }
    { depth := 30, theta := 3/5, psi := 400/3, K := 0, layer := 2, front := 3, toBottom := true, dzdt := 0 }
    { depth := 15, theta := 4/5, psi := 75, K := 0, layer := 2, front := 2, toBottom := false, dzdt := 1 }
    { depth := 30, theta := 3/5, psi := 400/3, K := 0, layer := 2, front := 3, toBottom := true, dzdt := 0 } loam
    (by norm_num) (by norm_num [geoLoams]) (fun k h1 h2 => by
      have : k = 1 ∨ k = 2 := by simp only at h2; omega
      rcases this with rfl | rfl <;> simp [Geo.soil, geoLoams, idx, idxI, ok_bind])
    loam_75.symm loam_133.symm loam_75.symm loam_133.symm (by norm_num) (by norm_num) (by norm_num) (by norm_num)
    (by norm_num [layerTop, geoLoams]) 16 3 (by norm_num) (by norm_num) (by norm_num) (by norm_num [loam]) (by norm_num [loam])

/-- C105_deepest: one front per layer of loam, 2 cm of rain on the free-drainage front. -/
example : ∃ before after, StackTo geoLoams (fun _ => 0) 30 2 before ∧ StackTo geoLoams (fun _ => 0) 30 2 after ∧
    ∃ h', 0 ≤ h' ∧ stackWater after h' = stackWater before 75 + (2 - 0) := by
  have hs : ∀ k, 1 ≤ k → k ≤ 2 → geoLoams.soil k = .ok loam := fun k h1 h2 => by
    have : k = 1 ∨ k = 2 := by omega
    rcases this with rfl | rfl <;> simp [Geo.soil, geoLoams, idx, idxI, ok_bind]
  obtain ⟨sl, hsl⟩ := stack_exists geoLoams_ground (fun _ => 0) 30 (layer := 2) (by norm_num [geoLoams])
  obtain ⟨psi, -, k2, k3⟩ := psiOf_moist loam_physical (th := 13 / 15) (by norm_num [loam]) (by norm_num [loam])
  refine ⟨sl, sl, hsl, hsl, psi, k2, ?_⟩
  rw [hsl.one (by norm_num) rfl hs, hsl.one (by norm_num) rfl hs, k3, loam_75]
  norm_num

open Sample in
/-- C105_top: a front of the first layer moves from 4 to 5 cm and keeps its 0.8 cm of water; as free-drainage front it takes in 0.1 cm. -/
example : okAnd (moveTopLayer 1 (1/10) 30 false { fr 4 (3/10) 1 1 false with dzdt := 1 } (fr 10 (1/10) 1 2 true)
      { fr 4 (3/10) 1 1 false with dzdt := 1 } (fr 10 (1/10) 1 2 true) soilA (0 : ℚ))
      (fun o => match o with | some f => f.depth == 5 && 5 * (f.theta - 1/10) == 8/10 | none => false) = true ∧
    okAnd (moveTopLayer 1 (1/10) 30 true { fr 4 (3/10) 1 1 false with dzdt := 1 } (fr 10 (1/10) 1 2 true)
      { fr 4 (3/10) 1 1 false with dzdt := 1 } (fr 10 (1/10) 1 2 true) soilA (0 : ℚ))
      (fun o => match o with | some f => f.depth == 5 && 5 * (f.theta - 1/10) == 9/10 | none => false) = true := by
  decide +kernel

end LGAR
