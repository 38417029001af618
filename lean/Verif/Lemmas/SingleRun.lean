import Verif.Lemmas.SinglePass
import Verif.Lemmas.NoStop
import Verif.Lemmas.Balance
import Verif.Num.Mono
/-
A one-layer column over subcycles: speeds, the new surficial front, and the balance of a subcycle.
-/
set_option linter.unusedSectionVars false
namespace LGAR

section Exact
variable {K : Type} [Field K] [LinearOrder K] [IsStrictOrderedRing K] [CMath K] [LawfulNum K] [LawfulPow K] [LawfulMono K]

/-- The capillary drive of a drier front below a wetter one is not negative. -/
theorem capDrive_nonneg {fuel : Nat} {closed : Bool} {t1 t2 e r a n m Ks la ps G : K} {nint : Int} (hre : r < e)
    (h1 : r ≤ t1) (h12 : t1 ≤ t2) (h2 : t2 ≤ e) (hla : 0 < la) (hps : 0 ≤ ps)
    (h : calcGeff fuel closed t1 t2 e r a n m Ks nint la ps = .ok G) : 0 ≤ G := by
  cases closed
  · unfold calcGeff at h
    simp only [Bool.not_false, if_true, bind_ok_iff, pure_eq_ok, Except.ok.injEq, fabs_eq] at h
    obtain ⟨_, _, _, _, _, _, _, _, _, _, _, _, _, _, _, _, rfl⟩ := h
    exact abs_nonneg _
  · unfold calcGeff at h
    simp only [Bool.not_true, Bool.false_eq_true, if_false, bind_ok_iff, calcSeFromTheta, cdiv_ok] at h
    obtain ⟨Sef, ⟨_, rfl⟩, Sei, ⟨_, rfl⟩, q, ⟨_, rfl⟩, il, ⟨_, rfl⟩, h⟩ := h
    have hd : 0 < e - r := by linarith
    have hHc : 0 ≤ ps * ((2.0 + 3.0 * la) / (1 + 3.0 * la)) := by
      refine mul_nonneg hps (div_nonneg ?_ ?_) <;> positivity
    have he : (0 : K) ≤ 3.0 + 1 / la := by positivity
    have s0 : 0 ≤ (t1 - r) / (e - r) := div_nonneg (by linarith) hd.le
    have s1 : (t1 - r) / (e - r) ≤ (t2 - r) / (e - r) := div_le_div_of_nonneg_right (by linarith) hd.le
    have s2 : (t1 - r) / (e - r) ≤ 1 := by rw [div_le_one hd]; linarith
    split at h
    · split at h
      · simp only [pure_eq_ok, Except.ok.injEq] at h
        rw [← h]
        refine div_nonneg (mul_nonneg hHc ?_) ?_
        · have := LawfulMono.pow_le_pow _ _ _ s0 s1 he
          linarith
        · have := LawfulMono.pow_le_one _ _ s0 s2 he
          linarith
      · simp only [pure_eq_ok, Except.ok.injEq] at h
        rw [← h]; exact hHc
    · simp only [pure_eq_ok, Except.ok.injEq] at h
      rw [← h]; exact hHc

/-- Constants of a subcycle of a one-layer column with physical soil. -/
structure OneLayer (c : StepCfg K) (column : K) (s : SoilProps K) : Prop where
  layers : c.geo.numLayers = 1
  soil : c.geo.soil 1 = .ok s
  phys : PhysGeo c.geo
  lam : 0 < s.bcLambda
  psib : 0 ≤ s.bcPsib
  surf : layerTop c.geo.cum 1 = 0
  inc : c.geo.cum.Pairwise (· < ·)
  col : c.geo.cum[1]? = some column
  pos : 0 < column
  dt : 0 < c.dt
  pond : 0 ≤ c.pondMax
  frozen : ∀ f, c.geo.frozen[1]? = some f → 0 < f

theorem OneLayer.physSoil {c : StepCfg K} {column : K} {s : SoilProps K} (h : OneLayer c column s) : s.Physical :=
  h.phys 1 s le_rfl h.soil

/-- Fronts of a one-layer column at the start of a subcycle. -/
structure Settled (g : Geo K) (column e : K) (l : List (Front K)) : Prop where
  fine : Fine g l
  neat : Neat column e l
  top : ∀ f ∈ l.head?, 0 < f.depth
  speed : ∀ f ∈ l.dropLast, 0 < f.dzdt

theorem Neat.speed {fuel : Nat} {closed : Bool} {nint : Int} {hp column e : K} {g : Geo K} {l l' : List (Front K)}
    (hl : Neat column e l) (h : dzdtCalc fuel closed nint hp g l = .ok l') : Neat column e l' := by
  refine hl.congr ?_
  have e := congrArg (List.map (fun x : K × K × K × K × Nat × Int × Bool => (x.1, x.2.1, x.2.2.2.2.1))) (dzdtCalc_frame h)
  rw [List.map_map, List.map_map] at e
  exact e

theorem mass_speed {fuel : Nat} {closed : Bool} {nint : Int} {hp : K} {g : Geo K} {cum : List K} {l l' : List (Front K)}
    (h : dzdtCalc fuel closed nint hp g l = .ok l') : mass cum l' = mass cum l := by
  refine mass_congr_water _ _ _ ?_
  have e := congrArg (List.map (fun x : K × K × K × K × Nat × Int × Bool => (x.1, x.2.1, x.2.2.2.2.1))) (dzdtCalc_frame h)
  rw [List.map_map, List.map_map] at e
  exact e

/-- Every front but the deepest moves down. -/
theorem speed_single {c : StepCfg K} {hp column : K} {s : SoilProps K} {l l' : List (Front K)} (ho : OneLayer c column s)
    (hf : Fine c.geo l) (hl : Neat column s.thetaE l) (hd : ∀ f ∈ l, 0 < f.depth) (hhp : 0 ≤ hp)
    (h : dzdtCalc c.fuel c.closed c.nint hp c.geo l = .ok l') : ∀ f ∈ l'.dropLast, 0 < f.dzdt := by
  obtain ⟨_, hg⟩ := dzdtCalc_go h
  obtain ⟨hlen, hall⟩ := dzdtGo_get hg
  intro x hx
  obtain ⟨i, hi⟩ := List.getElem?_of_mem hx
  rw [List.getElem?_dropLast] at hi
  split at hi
  · rename_i hlt
    obtain ⟨cf, hc⟩ : ∃ cf, l[i]? = some cf := ⟨l[i]'(by omega), List.getElem?_eq_getElem _⟩
    obtain ⟨n, hn⟩ : ∃ n, l[i + 1]? = some n := ⟨l[i + 1]'(by omega), List.getElem?_eq_getElem _⟩
    have hcl := hl.lay cf (List.mem_of_getElem? hc)
    have hnl := hl.lay n (List.mem_of_getElem? hn)
    have hb : cf.toBottom = false := hf.good.col.not_flagged hc hn (hcl.trans hnl.symm)
    obtain ⟨hK, _, hh⟩ := hall i cf hc
    obtain ⟨s', ff, v, hs', hff, hv, he⟩ := hh n hn
    rw [hi, Option.some.injEq] at he
    subst he
    show 0 < v
    rw [hcl, ho.soil, Except.ok.injEq] at hs'
    subst hs'
    rw [dzdtVel, if_neg (by simp [hb]), dzdtOne] at hv
    simp only [bind_ok_iff] at hv
    obtain ⟨bs, _, hv⟩ := hv
    have hcn : n.theta < cf.theta := strictlyDrying_iff.mp hl.dry i cf n hc hn (hcl.trans hnl.symm)
    rw [if_neg (not_lt.mpr hcn.le)] at hv
    simp only [bind_ok_iff, pure_eq_ok, Except.ok.injEq] at hv
    obtain ⟨G, hG, w, hw, rfl⟩ := hv
    obtain ⟨s1, e1, n1, n2, _⟩ := hf.bd n (List.mem_of_getElem? hn)
    rw [hnl, ho.soil, Except.ok.injEq] at e1
    subst e1
    obtain ⟨s1, e1, c1, c2, _⟩ := hf.bd cf (List.mem_of_getElem? hc)
    rw [hcl, ho.soil, Except.ok.injEq] at e1
    subst e1
    have hG0 : 0 ≤ G := capDrive_nonneg ho.physSoil.gap n1 hcn.le c2 ho.lam ho.psib hG
    rw [hcl] at hff
    have hff0 := ho.frozen _ hff
    have hKs : 0 ≤ s.Ksat * ff := mul_nonneg ho.physSoil.ksat.le hff0.le
    have hd0 := hd cf (List.mem_of_getElem? hc)
    have hck : 0 ≤ cf.K := not_lt.mp hK
    refine (dzdtClamp_zero ?_).1
    unfold dzdtRaw at hw
    dsimp only at hw
    rw [if_pos hcl] at hw
    split at hw
    · simp only [bind_ok_iff, cdiv_ok, Except.ok.injEq] at hw
      obtain ⟨inv, ⟨_, rfl⟩, q, ⟨_, rfl⟩, rfl⟩ := hw
      have : 0 < cf.theta - n.theta := ‹_›
      positivity
    · simp only [Except.ok.injEq] at hw; exact hw.le
  · exact absurd hi (by simp)

/-- The dry depth lies in the column, and the first front is not saturated. -/
theorem dryDepth_single {c : StepCfg K} {column d : K} {s : SoilProps K} {f : Front K} {t : List (Front K)} {dry : K}
    (ho : OneLayer c column s) (hf : Fine c.geo (f :: t)) (hl : f.layer = 1)
    (h : calcDryDepth c.fuel c.closed c.nint c.geo c.dt (f :: t) = .ok (dry, d)) :
    0 < dry ∧ dry ≤ column ∧ f.theta < s.thetaE := by
  unfold calcDryDepth at h
  simp only [bind_ok_iff, deref_ok_iff, idx_ok_iff, cdiv_ok, csqrt_ok_iff, List.getElem?_cons_zero, Option.some.injEq, pure_eq_ok,
    Except.ok.injEq, Prod.mk.injEq, exists_eq_left', hl, ho.soil] at h
  obtain ⟨ff, hff, tau, ⟨hne, rfl⟩, G, hG, r, ⟨_, rfl⟩, bot, hbot, rfl, _⟩ := h
  obtain ⟨s1, e1, c1, c2, _⟩ := hf.bd f (by simp)
  rw [hl, ho.soil, Except.ok.injEq] at e1
  subst e1
  have hlt : f.theta < s.thetaE := lt_of_le_of_ne c2 (fun he => hne (by rw [he, sub_self]))
  rw [ho.col, Option.some.injEq] at hbot
  subst hbot
  have hff0 := ho.frozen _ hff
  have hk := ho.physSoil.ksat
  have hdt := ho.dt
  have hgap : 0 < s.thetaE - f.theta := by linarith
  have htau : 0 < c.dt * (s.Ksat * ff) / (s.thetaE - f.theta) := by positivity
  have hsq := LawfulPow.sqrt_nonneg (K := K) (c.dt * (s.Ksat * ff) / (s.thetaE - f.theta) * (c.dt * (s.Ksat * ff) / (s.thetaE - f.theta)) +
    4.0 * (c.dt * (s.Ksat * ff) / (s.thetaE - f.theta)) * G)
  rw [fmin_eq]
  refine ⟨lt_min ho.pos ?_, min_le_left _ _, hlt⟩
  refine mul_pos (by norm_num) ?_
  linarith

/-- The new surficial front. -/
theorem create_single {c : StepCfg K} {column ponded dry theta1 : K} {s : SoilProps K} {f : Front K} {t : List (Front K)}
    {r : K × K × List (Front K)} (ho : OneLayer c column s) (hf : Fine c.geo (f :: t)) (hl : Neat column s.thetaE (f :: t))
    (hlt : f.theta < s.thetaE) (hdry : 0 < dry) (hdc : dry ≤ column) (hp : 0 < ponded) (hth : theta1 = f.theta)
    (h : createSurficial c.geo ponded dry theta1 (f :: t) = .ok r) :
    Neat column s.thetaE r.2.2 ∧ mass c.geo.cum r.2.2 = mass c.geo.cum (f :: t) + r.2.1 := by
  subst hth
  obtain ⟨s', thn, psi, Kc, hs', hv, l1, rfl, hr⟩ := createSurficial_inv h
  rw [ho.soil, Except.ok.injEq] at hs'
  subst hs'
  have hfl := hl.lay f (by simp)
  obtain ⟨hm, _, _⟩ := surficial_amount hdry hp.le hv
  have hpos : f.theta < thn := by
    rcases hv with ⟨_, _, _, _, rfl⟩ | ⟨_, _, _, rfl⟩
    · refine lt_min ?_ hlt
      have : 0 < ponded / dry := div_pos hp hdry
      linarith
    · exact hlt
  have n1 : Neat column s.thetaE ((⟨dry, thn, psi, Kc, 1, 1, false, 0⟩ : Front K) :: incFronts (f :: t)) := by
    refine Neat.congr (l := (⟨dry, thn, psi, Kc, 1, 1, false, 0⟩ : Front K) :: f :: t) ?_ (by
      simp [incFronts])
    refine ⟨?_, ?_, ?_, ?_⟩
    · intro x hx
      rcases List.mem_cons.mp hx with rfl | hx
      · rfl
      · exact hl.lay x hx
    · exact ⟨fun _ => hpos, hl.dry⟩
    · intro x hx
      rcases List.mem_cons.mp hx with rfl | hx
      · rcases hl.head x rfl with h | h
        · exact h
        · exact absurd h hlt.ne
      · exact hl.tail x hx
    · intro x hx
      simp only [List.head?_cons, Option.mem_some_iff] at hx
      subst hx
      exact .inl ⟨hdry, hdc⟩
  have m1 : mass c.geo.cum ((⟨dry, thn, psi, Kc, 1, 1, false, 0⟩ : Front K) :: incFronts (f :: t)) =
      mass c.geo.cum (f :: t) + r.2.1 := by
    rw [mass_push rfl hfl, ho.surf, sub_zero]
    simp only
    rw [hm]; ring
  have g1 : Good c.geo ((⟨dry, thn, psi, Kc, 1, 1, false, 0⟩ : Front K) :: incFronts (f :: t)) :=
    ⟨hf.good.sound.push rfl, col_push hf.good.col rfl rfl⟩
  rcases hr with ⟨_, hr⟩ | ⟨_, l2, h2, h3⟩
  · rw [hr]; exact ⟨n1, m1⟩
  · have n2 := n1.merge g1.sound.num h2
    have := crossLayer_single (fun x hx => by rw [ho.layers]; exact n2.lay x hx) h3
    rw [this]
    exact ⟨n2, by rw [mergeFronts_mass g1.sound.num g1.col h2, m1]⟩

/-- Water movement of a subcycle. -/
theorem subFlow_single {c : StepCfg K} {st : SubSt K} {column rate ponded aet pc : K} {s : SoilProps K} {b : Bool} {f : SubFlow K}
    (ho : OneLayer c column s) (ht : Settled c.geo column s.thetaE st.head) (hv : st.volend = mass c.geo.cum st.head)
    (hp : 0 ≤ ponded) (hb : b = true → 0 < ponded)
    (h : subFlow c st b st.head (wettingFrontFreeDrainage st.head) rate ponded aet = .ok f) :
    Fine c.geo f.head ∧ Neat column s.thetaE f.head ∧ 0 ≤ f.hp ∧
      (FlowSolved c st b (wettingFrontFreeDrainage st.head) rate ponded aet →
        |mass c.geo.cum f.head + f.aet + f.rech - (mass c.geo.cum st.head + f.volin)| ≤ 1e-5 + 1e-7) := by
  have hne := ht.fine.good.col.ne_nil
  have hfd := freeDrainage_one ht.neat.lay hne
  rw [hfd] at h ⊢
  obtain ⟨_, hvolon, _⟩ := subFlow_surface ho.pond hp h
  unfold subFlow at h
  unfold FlowSolved
  split at h
  · rename_i hbt
    obtain ⟨l, flux, dry, d, h0, pd, hm, hd, hh, hcr, _, _, hre, _, ho'⟩ := flowCreate_inv h
    obtain ⟨gm, nm, bm⟩ := moveFronts_single ho.layers ho.soil ho.physSoil.gap ho.surf ho.inc ho.col ho.pos ho.dt.le ht.fine ht.neat
      ht.top ht.speed hv hm
    have fm := ht.fine.moveFronts ho.phys ho.inc (.inl ho.layers) hm
    simp only at gm nm bm fm
    have hrech : f.rech = flux := by
      rcases hre with ⟨e, h1, _⟩ | ⟨_, h1, _⟩
      · rw [h1]; exact (beq_iff_eq.mp e).symm
      · exact h1
    match l, hh with
    | x :: t, hh =>
      simp only [List.getElem?_cons_zero, Option.some.injEq] at hh
      subst hh
      obtain ⟨d0, d1, d2⟩ := dryDepth_single ho fm (nm.lay x (by simp)) hd
      obtain ⟨n1, m1⟩ := create_single ho fm nm d2 d0 d1 (hb hbt) rfl hcr
      simp only at n1 m1
      refine ⟨fm.create ho.phys (.inl ho.layers) hcr, n1, ?_, ?_⟩
      · rcases ho' with ⟨_, _, _, e⟩ | ⟨_, _, _, e⟩ <;> rw [e]
        exact ho.pond
      · rw [if_pos hbt]
        intro hsol
        have := bm hsol
        rw [m1, hrech]
        rw [hv] at this
        rw [show mass c.geo.cum (x :: t) + f.volin + f.aet + flux - (mass c.geo.cum st.head + f.volin) =
          mass c.geo.cum (x :: t) + f.aet + flux - (mass c.geo.cum st.head + 0) by ring]
        exact this
  · rename_i hbf
    obtain ⟨hsf, hm, _⟩ := flowMove_inv h
    obtain ⟨gm, nm, bm⟩ := moveFronts_single ho.layers ho.soil ho.physSoil.gap ho.surf ho.inc ho.col ho.pos ho.dt.le ht.fine ht.neat
      ht.top ht.speed hv hm
    refine ⟨ht.fine.moveFronts ho.phys ho.inc (.inl ho.layers) hm, nm, ?_, ?_⟩
    · unfold surfaceFlow at hsf
      split at hsf
      · simp only [bind_ok_iff, Prod.exists] at hsf
        obtain ⟨r, v, p, _, hsf⟩ := hsf
        split at hsf
        · exact absurd hsf (by simp)
        · simp only [Except.ok.injEq, Prod.mk.injEq] at hsf
          rw [← hsf.2.2.2, hsf.2.2.1]; exact hvolon
      · split at hsf
        · simp only [Except.ok.injEq, Prod.mk.injEq] at hsf
          exact hsf.2.2.2.le
        · simp only [Except.ok.injEq, Prod.mk.injEq] at hsf
          rw [← hsf.2.2.2]; exact ho.pond
    · rw [if_neg hbf]
      intro hsol
      have := bm (hsol.of_ok hsf)
      rw [hv] at this
      exact this

/-- What holds between two subcycles. -/
structure Steady (c : StepCfg K) (column : K) (s : SoilProps K) (st : SubSt K) : Prop where
  tidy : Settled c.geo column s.thetaE st.head
  vol : st.volend = mass c.geo.cum st.head
  pond : 0 ≤ st.volon

theorem wants_rain {pp pc th e v : K} (h : wantsFront pp pc th e v = true) : 0 < pc := by
  unfold wantsFront at h
  simp only [Bool.and_eq_true, decide_eq_true_eq] at h
  exact h.1.2

theorem rain_nonneg {x d : K} (hd : 0 < d) : 0 ≤ CMath.fmax x 0 * 0.1 * d := by
  have : 0 ≤ CMath.fmax x (0 : K) := by rw [fmax_eq]; exact le_max_right _ _
  have h1 : (0 : K) ≤ 0.1 := by norm_num
  positivity

theorem Steady.step {c : StepCfg K} {column : K} {s : SoilProps K} {st st' : SubSt K} (ho : OneLayer c column s)
    (hs : Steady c column s st) (h : subStep c st = .ok st') : Steady c column s st' := by
  obtain ⟨aet, vs, h0, hsoil, f, l, ve, h1, ha, hvs, hh0, hhs, hsf, hl, hve, _, hh1, hpos, rfl⟩ := subStep_inv h
  have hr := rain_nonneg (x := st.precipMm) ho.dt
  have hpd := hs.pond
  obtain ⟨ff, nf, hhp, _⟩ := subFlow_single (pc := 0) ho hs.tidy hs.vol (by linarith)
    (fun e => by have := wants_rain e; linarith) hsf
  obtain ⟨_, hvolon, _⟩ := subFlow_surface ho.pond (by linarith) hsf
  have hn := nf.speed hl
  refine ⟨⟨ff.speed hl, hn, ?_, ?_⟩, massBal_val hve, hvolon⟩
  · intro x hx
    rw [List.head?_eq_getElem?] at hx
    rw [Option.mem_def, hh1, Option.some.injEq] at hx
    subst hx; exact hpos
  · refine speed_single ho ff nf ?_ hhp hl
    have hd := congrArg (List.map (fun x : K × K × K × K × Nat × Int × Bool => x.1)) (dzdtCalc_frame hl)
    rw [List.map_map, List.map_map] at hd
    intro x hx
    match hfh : f.head, hx with
    | y :: t, hx =>
      rcases List.mem_cons.mp hx with rfl | hx
      · rw [hfh] at hd
        have := congrArg (fun z => z[0]?) hd
        simp only [List.getElem?_map, hh1, List.getElem?_cons_zero, Option.map_some, Option.some.injEq] at this
        have e : h1.depth = x.depth := this
        rw [← e]; exact hpos
      · exact (nf.tail x (by rw [hfh]; exact hx)).1

theorem Steady.loop {c : StepCfg K} {column : K} {s : SoilProps K} (ho : OneLayer c column s) : ∀ {n : Nat} {st st' : SubSt K},
    Steady c column s st → subLoop c n st = .ok st' → Steady c column s st'
  | 0, st, st', hs, h => by simp [subLoop] at h; subst h; exact hs
  | n + 1, st, st', hs, h => by
    unfold subLoop at h
    simp only [bind_ok_iff] at h
    obtain ⟨s1, h1, h⟩ := h
    have := hs.step ho h1
    split at h
    · simp only [pure_eq_ok, Except.ok.injEq] at h
      subst h; exact this
    · exact this.loop ho h

/-- A subcycle of a one-layer column does not stop at the mass-balance check. -/
theorem Steady.step_ns {c : StepCfg K} {column : K} {s : SoilProps K} {st : SubSt K} (ho : OneLayer c column s)
    (hs : Steady c column s st) (hsol : StepSolved c st) : NS (subStep c st) := by
  unfold subStep
  rw [listCopy_eq]
  refine NS.bind NS.aetDemand fun aet ha => ?_
  refine NS.bind NS.massBal fun vs hvs => ?_
  refine NS.bind NS.deref fun h0 hh0 => ?_
  refine NS.bind NS.soil fun hso hhs => ?_
  refine NS.bind NS.subFlow fun f hsf => ?_
  refine NS.bind NS.dzdtCalc fun l hl => ?_
  refine NS.bind NS.massBal fun ve hve => ?_
  have hr := rain_nonneg (x := st.precipMm) ho.dt
  have hpd := hs.pond
  obtain ⟨_, _, _, hb⟩ := subFlow_single (pc := 0) ho hs.tidy hs.vol (by linarith)
    (fun e => by have := wants_rain e; linarith) hsf
  obtain ⟨hsum, _⟩ := subFlow_surface ho.pond (by linarith) hsf
  obtain ⟨v0, v1, _⟩ := volonClean_diff hpd
  have hb := hb (((hsol.of_ok ha).of_ok hh0).of_ok hhs)
  have e1 := massBal_val hvs
  have e2 := massBal_val hve
  rw [mass_speed hl] at e2
  rw [if_neg]
  · refine NS.bind NS.deref fun _ _ => ?_
    exact NS.bind NS.cassert fun _ _ => NS.pure
  · rw [not_lt, fabs_eq, e1, e2]
    rw [abs_le] at hb ⊢
    obtain ⟨b1, b2⟩ := hb
    have n1 : (1e-5 : K) + 1e-7 + 1e-12 ≤ 1.0e-4 := by norm_num
    constructor <;> linarith

theorem Steady.loop_ns {c : StepCfg K} {column : K} {s : SoilProps K} (ho : OneLayer c column s) : ∀ {n : Nat} {st : SubSt K},
    Steady c column s st → LoopSolved c n st → NS (subLoop c n st)
  | 0, st, _, _ => by unfold subLoop; exact NS.ok
  | n + 1, st, hs, h => by
    unfold subLoop
    refine NS.bind (hs.step_ns ho h.1) fun s1 h1 => ?_
    split
    · exact NS.pure
    · exact (hs.step ho h1).loop_ns ho (h.2.of_ok h1)

end Exact
end LGAR
