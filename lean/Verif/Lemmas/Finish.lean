import Verif.Lemmas.NoFuel
import Verif.Lemmas.SoilReal
import Verif.Spec.Bounds
/-
Over the real numbers every Update finishes.
-/
namespace LGAR

theorem NF.fin {β : Type} {x : Res β} (h : NF x) : Finishes fun _ => x := .const h.ne

theorem Finishes.bindN {β γ : Type} {x : Res β} {k : Nat → β → Res γ} (hx : NF x)
    (hk : ∀ a, x = .ok a → Finishes fun n => k n a) : Finishes fun n => x >>= k n := .bindC hx.ne hk

theorem Finishes.of_more {β : Type} {f : Nat → Res β} {r : Res β} (hr : r ≠ .error .fuel) {N : Nat}
    (h : ∀ n, N ≤ n → f n = r) : Finishes f := ⟨r, hr, N, h⟩

section
variable {alpha m n : ℝ}

theorem calcHFromSe_nonneg {Se h : ℝ} (ha : 0 < alpha) (hn : 1 < n) (hh : calcHFromSe Se alpha m n = .ok h) : 0 ≤ h := by
  unfold calcHFromSe at hh
  simp only [bind_ok_iff] at hh
  obtain ⟨ia, h1, e, _, p, _, en, h4, q, h5, hh⟩ := hh
  rw [cdiv_ne ha.ne'] at h1
  rw [cdiv_ne (by linarith : n ≠ 0)] at h4
  cases h1; cases h4
  cases hh
  unfold cpow at h5
  split at h5
  · rename_i hok
    cases h5
    simp only [CMath.powOk, decide_eq_true_eq] at hok
    have hp : 0 ≤ p - 1 := by
      rcases hok with h | ⟨h, _⟩ | ⟨_, k, hk⟩
      · exact h.le
      · exact h.ge
      · exfalso
        have h0 : (0 : ℝ) < 1 / n := by positivity
        have h1 : 1 / n < 1 := by rw [div_lt_one (by linarith)]; exact hn
        rw [hk] at h0 h1
        have : (0 : ℤ) < k := by exact_mod_cast h0
        have : k < (1 : ℤ) := by exact_mod_cast h1
        omega
    have : 0 ≤ (p - 1) ^ (1 / n) := Real.rpow_nonneg hp _
    exact mul_nonneg (by positivity) this
  · cases h5

theorem calcKFromSe_neg {Se Ks : ℝ} : calcKFromSe Se (-Ks) m = (calcKFromSe Se Ks m).map (fun x => -x) := by
  unfold calcKFromSe
  rcases csqrt Se with e | a
  · rfl
  rcases cdiv 1 m with e | b
  · rfl
  rw [ok_bind, ok_bind, ok_bind, ok_bind]
  rcases cpow Se b with e | c
  · rfl
  rw [ok_bind, ok_bind]
  rcases cpow (1 - c) m with e | d
  · rfl
  rw [ok_bind, ok_bind]
  rcases cpow (1 - d) 2.0 with e | d
  · rfl
  rw [ok_bind, ok_bind]
  simp only [pure_eq_ok, Except.map, Except.ok.injEq]
  ring

theorem trap_neg (G K1 K2 d x : ℝ) : -G + (-K1 + -K2) * d / x = -(G + (K1 + K2) * d / x) := by ring

theorem geffLoop_neg {Ks hi : ℝ} {fuel : Nat} {h2 dh K1 G : ℝ} :
    geffLoop alpha m n (-Ks) hi fuel h2 dh (-K1) (-G) = (geffLoop alpha m n Ks hi fuel h2 dh K1 G).map (fun x => -x) := by
  induction fuel generalizing h2 dh K1 G with
  | zero => rfl
  | succ f ih =>
    unfold geffLoop
    split
    · rcases calcSeFromH h2 alpha m n with e | Se
      · rfl
      rw [ok_bind, ok_bind, calcKFromSe_neg]
      rcases calcKFromSe Se Ks m with e | K2
      · rfl
      show (cdiv (-K1 - -K2) (-K2) >>= _) = _
      rw [ok_bind]
      by_cases h0 : K2 = 0
      · have e1 : ∀ a : ℝ, cdiv a (-K2) = .error (.nonfinite "division") := by
          intro a; subst h0; unfold cdiv; simp [CMath.divOk]
        have e2 : ∀ a : ℝ, cdiv a K2 = .error (.nonfinite "division") := by
          intro a; subst h0; unfold cdiv; simp [CMath.divOk]
        rw [e1, e2]; rfl
      · rw [cdiv_ne (neg_ne_zero.mpr h0), cdiv_ne h0, ok_bind, ok_bind]
        have e : (-K1 - -K2) / -K2 = (K1 - K2) / K2 := by
          rw [show -K1 - -K2 = -(K1 - K2) by ring, neg_div_neg_eq]
        rw [e]
        dsimp only
        rw [trap_neg]
        exact ih
    · rfl

theorem geffLoop_finishes (ha : 0 < alpha) (hm : 0 < m) (hn : 0 < n) {Ks hi h2 dh K1 G : ℝ}
    (hh : 0 ≤ h2) (hdh : 0 < dh) : Finishes fun fuel => geffLoop alpha m n Ks hi fuel h2 dh K1 G := by
  rcases lt_trichotomy Ks 0 with hK | hK | hK
  · obtain ⟨N, r, hr⟩ := geffLoop_terminates (hi := hi) (K1 := -K1) (G := -G) ha hm hn (neg_pos.mpr hK) hh hdh
    refine .of_more (r := .ok (-r)) (by simp) (N := N) fun k hk => ?_
    have := geffLoop_neg (alpha := alpha) (m := m) (n := n) (Ks := -Ks) (hi := hi) (fuel := k) (h2 := h2) (dh := dh)
      (K1 := -K1) (G := -G)
    rw [neg_neg, neg_neg, neg_neg] at this
    rw [this, geffLoop_mono hk hr]; rfl
  · subst hK
    by_cases hc : h2 < hi
    · refine .of_more (r := .error (.nonfinite "division")) (by simp) (N := 1) fun k hk => ?_
      obtain ⟨k, rfl⟩ : ∃ j, k = j + 1 := ⟨k - 1, by omega⟩
      have hr := seH_range (n := n) ha hm hh
      rw [geffLoop, if_pos hc, calcSeFromH_real ha hn hh, ok_bind, calcKFromSe_real hm hr.1.le hr.2, ok_bind]
      have e2 : ∀ a : ℝ, cdiv a (0 * muKh alpha m n h2) = .error (.nonfinite "division") := by
        intro a; rw [zero_mul]; unfold cdiv; simp [CMath.divOk]
      exact (congrArg (· >>= _) (e2 _)).trans rfl
    · refine .of_more (r := .ok G) (by simp) (N := 1) fun k hk => ?_
      obtain ⟨k, rfl⟩ : ∃ j, k = j + 1 := ⟨k - 1, by omega⟩
      rw [geffLoop, if_neg hc]
  · obtain ⟨N, r, hr⟩ := geffLoop_terminates (hi := hi) (K1 := K1) (G := G) ha hm hn hK hh hdh
    exact .of_more (r := .ok r) (by simp) (N := N) fun k hk => geffLoop_mono hk hr

end

theorem calcGeff_finishes {s : SoilProps ℝ} (hs : s.Physical) {closed : Bool} {t1 t2 e r Ks : ℝ} {nint : Int}
    (hi0 : 0 < nint) {la pb : ℝ} :
    Finishes fun fuel => calcGeff fuel closed t1 t2 e r s.vgAlpha s.vgN s.vgM Ks nint la pb := by
  unfold calcGeff
  refine .ite (fun _ => ?_) (fun _ => NF.fin (by nofuel!))
  refine .bindN NF.seTheta fun Sei _ => .bindN NF.seTheta fun Sef _ => ?_
  refine .bindN NF.hSe fun hi hhi => .bindN NF.hSe fun hf hhf => .bindN NF.cdiv fun dh0 hd => ?_
  refine .bindN NF.kSe fun K1 _ => ?_
  refine .bind ?_ fun G _ => NF.fin (by nofuel!)
  have h1 := calcHFromSe_nonneg hs.alpha hs.n hhi
  have h2 := calcHFromSe_nonneg hs.alpha hs.n hhf
  have hn1 : (1 : ℝ) ≤ CMath.ofInt nint := by
    show (1 : ℝ) ≤ (nint : ℝ); exact_mod_cast hi0
  rw [cdiv_ne (by linarith)] at hd
  cases hd
  by_cases hlt : hf < hi
  · have : 0 < (hi - hf) / (CMath.ofInt nint : ℝ) := div_pos (by linarith) (by linarith)
    exact geffLoop_finishes hs.alpha hs.m_pos hs.n_pos (by norm_num; linarith) (by norm_num; linarith)
  · refine .of_more (r := .ok 0) (by simp) (N := 1) fun k hk => ?_
    obtain ⟨k, rfl⟩ : ∃ j, k = j + 1 := ⟨k - 1, by omega⟩
    rw [geffLoop, if_neg]
    have : hi - hf ≤ (hi - hf) / (CMath.ofInt nint : ℝ) := by
      rw [le_div_iff₀ (by linarith)]; nlinarith
    have h3 : (hi - hf) / (CMath.ofInt nint : ℝ) ≤ 0 := div_nonpos_of_nonpos_of_nonneg (by linarith) (by linarith)
    norm_num; nlinarith

theorem PhysGeo.at {g : Geo ℝ} (hp : PhysGeo g) {l : List (Front ℝ)} (hl : Lay l) {i : Nat} {f : Front ℝ}
    (hf : deref l i = .ok f) {s : SoilProps ℝ} (hs : g.soil f.layer = .ok s) : s.Physical :=
  hp _ _ (hl f (List.mem_of_getElem? (deref_ok_iff.mp hf))) hs

theorem PhysGeo.atOpt {g : Geo ℝ} (hp : PhysGeo g) {l : List (Front ℝ)} (hl : Lay l) {i : Option Nat} {f : Front ℝ}
    (hf : derefOpt l i = .ok f) {s : SoilProps ℝ} (hs : g.soil f.layer = .ok s) : s.Physical := by
  cases i with
  | none => simp [derefOpt] at hf
  | some i => exact hp.at hl hf hs

theorem fpPotential_finishes {g : Geo ℝ} (hp : PhysGeo g) {l : List (Front ℝ)} (hl : Lay l) {closed : Bool} {nint : Int}
    (hi : 0 < nint) {dt aet ponded precip : ℝ} {nFd : Nat} :
    Finishes fun fuel => fpPotential fuel closed nint g dt aet ponded precip nFd l := by
  unfold fpPotential
  refine .bindN NF.derefOpt fun fd hfd => .bindN NF.deref fun h0 _ => .bindN NF.soil fun s hs => .bindN NF.idx fun ff _ => ?_
  dsimp only
  refine .ite (fun _ => NF.fin ?_) fun _ => .bindN NF.derefOpt fun b _ => ?_
  · nofuel!; exact NF.fpBottomSum
  · refine .bind (calcGeff_finishes (hp.atOpt hl hfd hs) hi) fun Geff _ => NF.fin ?_
    nofuel!; exact NF.fpBottomSum

theorem insertWater_finishes {g : Geo ℝ} (hp : PhysGeo g) {l : List (Front ℝ)} (hl : Lay l) {closed : Bool} {nint : Int}
    (hi : 0 < nint) {dt aet ponded volin precip pondMax : ℝ} {nFd : Nat} :
    Finishes fun fuel => insertWater fuel closed nint g dt aet ponded volin precip nFd pondMax l := by
  unfold insertWater fpCapacity
  refine .bind (.bind (fpPotential_finishes hp hl hi) fun fp _ => NF.fin ?_) fun _ _ => NF.fin NF.partitionPond
  nofuel!
  exact NF.maxStorage

theorem calcDryDepth_finishes {g : Geo ℝ} (hp : PhysGeo g) {l : List (Front ℝ)} (hl : Lay l) {closed : Bool} {nint : Int}
    (hi : 0 < nint) {dt : ℝ} : Finishes fun fuel => calcDryDepth fuel closed nint g dt l := by
  unfold calcDryDepth
  refine .bindN NF.deref fun c hc => .bindN NF.soil fun s hs => .bindN NF.idx fun ff _ => .bindN NF.cdiv fun tau _ => ?_
  refine .bind (calcGeff_finishes (hp.at hl hc hs) hi) fun G _ => NF.fin ?_
  nofuel!

theorem dzdtGo_finishes {g : Geo ℝ} (hp : PhysGeo g) {closed : Bool} {nint : Int} (hi : 0 < nint) {hpd : ℝ}
    {l : List (Front ℝ)} (hl : Lay l) : Finishes fun fuel => dzdtGo fuel closed nint hpd g l := by
  induction l with
  | nil => exact .ok _
  | cons c t ih =>
    unfold dzdtGo
    refine .ite (fun _ => .err (by simp)) fun _ => ?_
    refine .bindN NF.soil fun s hs => .bindN NF.idx fun ff _ => ?_
    cases t with
    | nil => exact .ok _
    | cons n t =>
      dsimp only
      refine .bind ?_ fun v _ => .bind (ih fun f hf => hl f (List.mem_cons_of_mem _ hf)) fun _ _ => .ok _
      unfold dzdtVel
      refine .ite (fun _ => .ok _) fun _ => ?_
      unfold dzdtOne
      refine .bindN NF.dzdtBottomSum fun b _ => .ite (fun _ => .err (by simp)) fun _ => ?_
      refine .bind (calcGeff_finishes (hp _ _ (hl c (by simp)) hs) hi) fun G _ => NF.fin ?_
      nofuel!
      exact NF.dzdtRaw

theorem dzdtCalc_finishes {g : Geo ℝ} (hp : PhysGeo g) {closed : Bool} {nint : Int} (hi : 0 < nint) {hpd : ℝ}
    {l : List (Front ℝ)} (hl : Lay l) : Finishes fun fuel => dzdtCalc fuel closed nint hpd g l := by
  unfold dzdtCalc
  exact .ite (fun _ => .err (by simp)) fun _ => dzdtGo_finishes hp hi hl

theorem PhysGeo.pos {g : Geo ℝ} (hp : PhysGeo g) : ∀ k s, 1 ≤ k → g.soil k = .ok s → 0 < s.vgAlpha ∧ 0 < s.vgN :=
  fun k s h1 hs => ⟨(hp k s h1 hs).alpha, (hp k s h1 hs).n_pos⟩

theorem moveOne_finishes {g : Geo ℝ} (hp : PhysGeo g) {dt precip : ℝ} {nFd n wf : Nat} {prev l : List (Front ℝ)}
    (hl : Lay l) {aet : ℝ} : Finishes fun fuel => moveOne fuel g dt precip nFd n wf prev l aet := by
  unfold moveOne
  refine .bindN NF.idx fun col _ => .bindN NF.derefOpt fun c hc => .bindN NF.soil fun s hs => ?_
  have hph := hp.atOpt hl hc hs
  refine .bindN NF.moveReadAbove fun _ _ => .ite (fun _ => ?_) fun _ => .ite (fun _ => ?_) fun _ => .pure _
  · refine .bindN NF.derefOpt fun nx _ => .ite (fun _ => NF.fin ?_) fun _ => .ite (fun _ => NF.fin ?_) fun _ => ?_
    · nofuel!
    · refine NF.bind NF.derefOpt fun o _ => NF.bind NF.derefOpt fun on _ => NF.bind NF.moveTopLayer fun r _ => ?_
      cases r with
      | none => dsimp only; nofuel!
      | some c' => dsimp only; exact NF.bind NF.psiOf fun _ _ => NF.pure
    · refine .bindN NF.derefOpt fun o _ => .bindN NF.derefOpt fun on _ => .bindN NF.derefOpt fun os _ => ?_
      refine .bind ?_ fun r _ => NF.fin ?_
      · unfold moveInner
        refine .bindN NF.idxPred fun b _ => .bindN NF.moveLayers fun a _ => ?_
        exact .bind (thetaMassBalance_finishes hp.pos hph.alpha hph.n_pos) fun r _ => .pure _
      · obtain ⟨c', a'⟩ := r
        dsimp only; exact NF.bind NF.psiOf fun _ _ => NF.pure
  · refine .bindN NF.derefOpt fun o _ => .bind ?_ fun r _ => .pure _
    unfold moveDeepest
    refine .bindN NF.idxPred fun b _ => .bindN NF.moveLayers fun a _ => ?_
    refine .bind (thetaMassBalance_finishes hp.pos hph.alpha hph.n_pos) fun r _ => NF.fin ?_
    obtain ⟨th, a'⟩ := r
    dsimp only; exact NF.bind NF.psiOf fun _ _ => NF.pure


theorem Ends.num {β : Type} {f : Nat → Res β} {a : β} (h : Ends f (.ok a)) : ∃ n, f n = .ok a := h.eventually

theorem moveOne_tags {fuel : Nat} {g : Geo ℝ} {dt precip : ℝ} {nFd : Nat} {prev l : List (Front ℝ)} {aet : ℝ}
    {n wf : Nat} {r : List (Front ℝ) × ℝ} (hn : NumFrom 1 l) (hl : n = l.length) (h1 : 1 ≤ wf) (h2 : wf ≤ n)
    (h : moveOne fuel g dt precip nFd n wf prev l aet = .ok r) : r.1.map Front.tag = l.map Front.tag := by
  obtain ⟨c, c', hc, hl1, hm⟩ := moveOne_cases hn hl h1 h2 h
  rw [hl1]
  exact set_tags hc hm.tag_eq

theorem moveOnes_finishes {g : Geo ℝ} (hp : PhysGeo g) {dt precip : ℝ} {nFd n wf : Nat} {prev l : List (Front ℝ)}
    (hl : Placed l) (hn : n = l.length) (hw : wf ≤ n) {aet : ℝ} :
    Finishes fun fuel => moveOnes fuel g dt precip nFd n prev wf l aet := by
  induction wf generalizing l aet with
  | zero => exact .ok _
  | succ w ih =>
    unfold moveOnes
    refine .bind (moveOne_finishes hp hl.lay) fun r hr => ?_
    obtain ⟨k, hk⟩ := hr.num
    have e := moveOne_tags hl.num hn (by omega) hw hk
    obtain ⟨l', a'⟩ := r
    exact ih (hl.skel (tag_skel e)) (by simpa [hn] using (congrArg List.length e).symm) (by omega)

theorem moveFronts_finishes {g : Geo ℝ} (hp : PhysGeo g) {dt precip oldMass : ℝ} {nFd : Nat} {prev l : List (Front ℝ)}
    (hl : Placed l) {aet : ℝ} : Finishes fun fuel => moveFronts fuel g dt precip nFd oldMass aet prev l := by
  unfold moveFronts
  refine .bind ?_ fun r hr => ?_
  · unfold moveMain
    refine .ite (fun _ => .ok _) fun _ => ?_
    exact .bind (moveOnes_finishes hp hl rfl le_rfl) fun r _ => NF.fin NF.moveTop
  · obtain ⟨k, hk⟩ := hr.num
    exact NF.fin (NF.movePost (hl.moveMain hk))

/-- The constants of a sub-timestep with another fuel. -/
abbrev StepCfg.at (c : StepCfg ℝ) (fuel : Nat) : StepCfg ℝ := { c with fuel := fuel }

theorem subFlow_finishes {c : StepCfg ℝ} (hp : PhysGeo c.geo) (hi : 0 < c.nint) {s : SubSt ℝ} (hl : Placed s.head) {create : Bool}
    {prev : List (Front ℝ)} {nFd : Nat} {rate ponded aet : ℝ} :
    Finishes fun fuel => subFlow (c.at fuel) s create prev nFd rate ponded aet := by
  unfold subFlow
  refine .ite (fun _ => ?_) fun _ => ?_
  · unfold flowCreate
    refine .bind (moveFronts_finishes hp hl) fun r hr => ?_
    obtain ⟨k, hk⟩ := hr.num
    have p1 := hl.moveFronts hk
    obtain ⟨l, aet, flux⟩ := r
    dsimp only at p1 ⊢
    refine .bind (calcDryDepth_finishes hp p1.lay hi) fun r hr => ?_
    refine .bindN NF.deref fun h _ => .bindN (NF.createSurficial p1) fun r _ => ?_
    exact Finishes.ite (p := r.1 < c.pondMax) (fun _ => .pure _) fun _ => .pure _
  · unfold flowMove
    refine .bind ?_ fun r hr => ?_
    · unfold surfaceFlow
      refine .ite (fun _ => ?_) fun _ => Finishes.ite (p := ponded < c.pondMax) (fun _ => .ok _) fun _ =>
        .ok (ponded - c.pondMax, 0, c.pondMax, c.pondMax)
      refine .bind (insertWater_finishes hp hl.lay hi) fun r _ => ?_
      exact .ite (fun _ => .err (by simp)) fun _ => .ok _
    · exact .bind (moveFronts_finishes hp hl) fun r _ => .pure _

theorem subStep_finishes {c : StepCfg ℝ} (hp : PhysGeo c.geo) (hi : 0 < c.nint) {s : SubSt ℝ} (hl : Placed s.head) :
    Finishes fun fuel => subStep (c.at fuel) s := by
  unfold subStep
  dsimp only
  refine .bindN (x := aetDemand c (CMath.fmax s.petMm 0 * 0.1) s.head) ?_ fun aet _ => .bindN NF.massBal fun v _ => .bindN NF.deref fun h _ => .bindN NF.soil fun hs _ => ?_
  · unfold aetDemand; nofuel!; exact NF.calcAet
  · refine .bind (subFlow_finishes hp hi hl) fun f hf => ?_
    obtain ⟨k, hk⟩ := hf.num
    refine .bind (dzdtCalc_finishes hp hi (hl.subFlow hk).lay) fun l _ => NF.fin ?_
    nofuel!

theorem subLoop_finishes {c : StepCfg ℝ} (hp : PhysGeo c.geo) (hi : 0 < c.nint) {n : Nat} {s : SubSt ℝ} (hl : Placed s.head) :
    Finishes fun fuel => subLoop (c.at fuel) n s := by
  induction n generalizing s with
  | zero => exact .ok _
  | succ n ih =>
    unfold subLoop
    refine .bind (subStep_finishes hp hi hl) fun s' hs => ?_
    obtain ⟨k, hk⟩ := hs.num
    exact Finishes.ite (p := c.endtimeS ≤ s'.timeS ∧ c.standalone = true) (fun _ => .pure _) fun _ => ih (hl.subStep hk)

theorem update_finishes {sa : Bool} {s : State ℝ} (hl : Placed s.head)
    (hi : 0 < s.p.nint) (hp : s.p.invalidSoil = false → ∀ s1 d, updatePre s = .ok (s1, d) → PhysGeo s1.geo) :
    Finishes fun fuel => update fuel sa s := by
  unfold update
  refine .ite (fun _ => .ok _) fun hv => ?_
  refine .bindN NF.updatePre fun r hr => ?_
  obtain ⟨s1, d⟩ := r
  dsimp only
  refine .bindN NF.massBal fun v _ => ?_
  have p1 : Placed s1.head := hl.skel (updatePre_skel hr)
  have n1 : s1.p.nint = s.p.nint := by
    obtain ⟨_, _, fs, soils, l, fc, pm, q, _, e, _⟩ := updatePre_inv hr
    rw [e]
  refine .bind ?_ fun u _ => NF.fin NF.updatePost
  exact subLoop_finishes (c := stepCfg 0 sa s1) (hp (by simpa using hv) s1 d hr) (by show 0 < s1.p.nint; omega) (s := subInit s1 v) p1

end LGAR
