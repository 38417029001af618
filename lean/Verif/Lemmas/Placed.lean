import Verif.Lemmas.Update
import Verif.Lemmas.Stable
/-
Fronts are numbered 1, 2, ... and lie in layer 1 or below, in every run and for every arithmetic; and the loops over the list
finish.
-/
namespace LGAR

section Free
variable {α : Type} [Add α] [Sub α] [Mul α] [Div α] [Neg α] [Zero α] [One α] [OfScientific α]
  [LT α] [LE α] [DecidableLT α] [DecidableLE α] [BEq α] [CMath α]

/-- Numbers 1, 2, ... and layer at least 1. -/
structure Placed (l : List (Front α)) : Prop where
  num : NumFrom 1 l
  lay : ∀ f ∈ l, 1 ≤ f.layer

/-- Layer at least 1. -/
abbrev Lay (l : List (Front α)) : Prop := ∀ f ∈ l, 1 ≤ f.layer

theorem Lay.of_map {l l' : List (Front α)} (h : Lay l) (e : l'.map (fun f => f.layer) = l.map (fun f => f.layer)) : Lay l' := by
  intro f hf
  have : f.layer ∈ l'.map (fun f => f.layer) := List.mem_map.mpr ⟨f, hf, rfl⟩
  rw [e, List.mem_map] at this
  obtain ⟨f0, h0, e0⟩ := this
  rw [← e0]; exact h f0 h0

theorem decFronts_layer (l : List (Front α)) : (decFronts l).map (fun f => f.layer) = l.map (fun f => f.layer) := by
  induction l with
  | nil => rfl
  | cons f t ih => simp only [decFronts_cons, List.map_cons, ih]

theorem Placed.skel {l l' : List (Front α)} (hs : Placed l) (h : l'.map Front.skel = l.map Front.skel) : Placed l' := by
  refine ⟨skel_num h hs.num, Lay.of_map hs.lay ?_⟩
  have := congrArg (List.map fun x : Nat × Int × Bool × α => x.1) h
  rwa [List.map_map, List.map_map] at this

theorem Placed.merge {g : Geo α} {l l' : List (Front α)} (hs : Placed l) (h : mergeFronts g l = .ok l') : Placed l' := by
  refine ⟨mergeFronts_num hs.num h, (mergeLoop_ind (P := Lay) ?_ hs.num hs.lay h).2⟩
  intro cur l r hn hp hst
  rcases mergeStep_inv hn hst with rfl | ⟨a, c, n, nn, b, d, psi, Kc, rfl, _, _, _, _, _, _, _, rfl⟩
  · exact hp
  · intro f hf
    rcases List.mem_append.mp hf with hf | hf
    · exact hp f (by simp [hf])
    · rcases List.mem_cons.mp hf with rfl | hf
      · exact hp c (by simp)
      · exact Lay.of_map (l := nn :: b) (fun x hx => hp x (by simp at hx ⊢; tauto)) (decFronts_layer _) f hf

theorem Placed.cross {g : Geo α} {l l' : List (Front α)} (hs : Placed l) (h : crossLayer g l = .ok l') : Placed l' := by
  refine ⟨crossLayer_num hs.num h, crossLoop_ind (P := Lay) ?_ hs.lay h⟩
  intro cur l l' hp hx
  rcases crossStep_inv hx with rfl | ⟨a, c, n, nn, b, s, ff, s2, bot, psi, Kc, thetaNew, Se, z, rfl, _, _, _, _, _, _, _, _, _, _,
    _, _, _, rfl⟩
  · exact hp
  · intro f hf
    rcases List.mem_append.mp hf with hf | hf
    · exact hp f (by simp [hf])
    · simp only [List.mem_cons] at hf
      rcases hf with rfl | rfl | rfl | hf
      · exact hp c (by simp)
      · simp
      · exact hp _ (by simp)
      · exact hp f (by simp [hf])

theorem updAbove_lay {g : Geo α} {psi : α} {k : Nat} : ∀ {l l' : List (Front α)}, updAbove g psi k l = .ok l' →
    l'.map (fun f => f.layer) = l.map (fun f => f.layer)
  | [], _, h => by simp [updAbove] at h
  | f :: t, l', h => by
    unfold updAbove at h
    split at h
    · simp only [bind_ok_iff, pure_eq_ok, Except.ok.injEq] at h
      obtain ⟨s, _, th, _, r, hr, rfl⟩ := h
      simp only [List.map_cons, updAbove_lay hr]
    · simp only [pure_eq_ok, Except.ok.injEq] at h; subst h; rfl

theorem Placed.checkFix {g : Geo α} {mc : α} {l : List (Front α)} {r : List (Front α) × α} (hs : Placed l)
    (h : checkFix g mc l = .ok r) : Placed r.1 := by
  rcases checkFix_inv h with rfl | h
  · exact hs
  · refine ⟨fixDry_num hs.num h, ?_⟩
    unfold fixDry at h
    simp only [bind_ok_iff] at h
    obtain ⟨_, _, h⟩ := h
    refine (fixDryLoop_ind (P := fun l _ => Lay l) ?_ hs.num hs.lay h).2
    intro a b c n mc r hn hp _ _ hr
    obtain ⟨m0, m1, l2, _, _, rfl, hc⟩ := fixDryRepair_inv hn hr
    have hrest : Lay (a ++ decFronts (n :: b)) :=
      Lay.of_map (l := a ++ n :: b) (fun x hx => hp x (by simp at hx ⊢; tauto))
        (by rw [List.map_append, List.map_append, decFronts_layer])
    rcases hc with ⟨_, rfl⟩ | ⟨_, d, b', s, Se, psi, hb, _, _, _, hu⟩
    · exact hrest
    · refine Lay.of_map hrest ?_
      rw [updAbove_lay hu]
      simp only [List.cons.injEq] at hb
      obtain ⟨rfl, rfl⟩ := hb
      simp [decFronts_cons]

theorem Placed.domain {g : Geo α} {dom : α} {l : List (Front α)} {r : α × List (Front α)} (hs : Placed l)
    (h : crossDomain g dom l = .ok r) : Placed r.2 := by
  refine ⟨crossDomain_num hs.num h, ?_⟩
  rcases domainLoop_inv hs.num h with rfl | ⟨a, c, n, psi, Kc, rfl, _, _, rfl⟩
  · exact hs.lay
  · refine Lay.of_map (l := a ++ [n]) (fun x hx => hs.lay x (by simp at hx ⊢; tauto)) ?_
    rw [List.map_append, List.map_append, decFronts_layer]; rfl

theorem Placed.moveOnes {fuel : Nat} {g : Geo α} {dt precip : α} {nFd : Nat} {prev l : List (Front α)} {aet : α}
    {r : List (Front α) × α} (hs : Placed l)
    (h : moveOnes fuel g dt precip nFd l.length prev l.length l aet = .ok r) : Placed r.1 :=
  hs.skel (tag_skel (moveOnes_tags hs.num rfl le_rfl h))

theorem Placed.moveTop {g : Geo α} {oldMass precip aet : α} {l : List (Front α)} {r : List (Front α) × α × α}
    (hs : Placed l) (h : moveTop g oldMass precip l aet = .ok r) : Placed r.1 := by
  obtain ⟨l1, h1, h2⟩ := moveTop_tags h
  exact (hs.cross h1).skel (tag_skel h2)

theorem Placed.moveMain {fuel : Nat} {g : Geo α} {dt oldMass precip : α} {nFd : Nat} {prev l : List (Front α)} {aet : α}
    {r : List (Front α) × α × α} (hs : Placed l)
    (h : moveMain fuel g dt oldMass precip nFd prev l aet = .ok r) : Placed r.1 := by
  unfold LGAR.moveMain at h
  split at h
  · simp only [Except.ok.injEq] at h; subst h; exact hs
  · simp only [bind_ok_iff, Prod.exists] at h
    obtain ⟨l1, aet1, h1, h⟩ := h
    exact (hs.moveOnes h1).moveTop h

theorem Placed.movePost {g : Geo α} {l : List (Front α)} {aet flux : α} {r : List (Front α) × α × α}
    (hs : Placed l) (h : movePost g l aet flux = .ok r) : Placed r.1 := by
  obtain ⟨l1, mc1, l2, l3, l4, mc4, l5, column, fl, l6, l7, mc7, l8, h1, h2, h3, h4, h5, _, h6, h7, h8, h9, _, _⟩ :=
    movePost_inv h
  have s5 : Placed l5 := ((((hs.checkFix h1).merge h2).cross h3).checkFix h4).merge h5
  exact (((s5.domain h6).checkFix h7).skel (refresh_skel h8)).skel (fixSingle_skel h9)

theorem Placed.moveFronts {fuel : Nat} {g : Geo α} {dt oldMass precip : α} {nFd : Nat} {prev l : List (Front α)}
    {aet : α} {r : List (Front α) × α × α} (hs : Placed l)
    (h : moveFronts fuel g dt precip nFd oldMass aet prev l = .ok r) : Placed r.1 := by
  unfold LGAR.moveFronts at h
  simp only [bind_ok_iff, Prod.exists] at h
  obtain ⟨l1, aet1, fl, h1, h⟩ := h
  exact (hs.moveMain h1).movePost h

theorem Placed.createFront {g : Geo α} {ponded dry theta1 : α} {l : List (Front α)} {r : α × α × List (Front α)}
    (hs : Placed l) (h : createFront g ponded dry theta1 l = .ok r) : Placed r.2.2 := by
  obtain ⟨s, thn, Se, psi, Kc, ff, _, _, _, _, _, _, e⟩ := createFront_inv h
  rw [e]
  refine ⟨⟨rfl, NumFrom.inc hs.num⟩, ?_⟩
  intro f hf
  rcases List.mem_cons.mp hf with rfl | hf
  · exact le_rfl
  · exact Lay.of_map hs.lay (by unfold incFronts; rw [List.map_map]; rfl) f hf

theorem Placed.create {g : Geo α} {ponded dry theta1 : α} {l : List (Front α)} {r : α × α × List (Front α)}
    (hs : Placed l) (h : createSurficial g ponded dry theta1 l = .ok r) : Placed r.2.2 := by
  obtain ⟨l1, h1, h2⟩ := createSurficial_steps h
  have p1 := hs.createFront h1
  rcases h2 with ⟨_, e⟩ | ⟨_, l2, hm, hc⟩
  · rw [e]; exact p1
  · exact (p1.merge hm).cross hc

theorem Placed.speed {fuel : Nat} {closed : Bool} {nint : Int} {hp : α} {g : Geo α} {l l' : List (Front α)}
    (hs : Placed l) (h : dzdtCalc fuel closed nint hp g l = .ok l') : Placed l' := by
  have e := dzdtCalc_frame h
  have e1 := congrArg (List.map fun x : α × α × α × α × Nat × Int × Bool => x.2.2.2.2.1) e
  have e2 := congrArg (List.map fun x : α × α × α × α × Nat × Int × Bool => x.2.2.2.2.2.1) e
  rw [List.map_map, List.map_map] at e1 e2
  refine ⟨?_, Lay.of_map hs.lay e1⟩
  have e' : l'.map (fun f => f.front) = l.map (fun f => f.front) := e2
  have hn := hs.num
  rw [numFrom_iff] at hn ⊢
  intro i hi
  have hlen : l'.length = l.length := by simpa using congrArg List.length e'
  have := congrArg (fun x => x[i]?) e'
  simp only [List.getElem?_map] at this
  rw [List.getElem?_eq_getElem hi, List.getElem?_eq_getElem (by omega)] at this
  simp only [Option.map_some, Option.some.injEq] at this
  rw [this]; exact hn i (by omega)

theorem Placed.subFlow {c : StepCfg α} {s : SubSt α} {b : Bool} {nFd : Nat} {rate ponded aet : α}
    {prev : List (Front α)} {f : SubFlow α} (hs : Placed s.head)
    (h : subFlow c s b prev nFd rate ponded aet = .ok f) : Placed f.head := by
  unfold LGAR.subFlow at h
  split at h
  · obtain ⟨l, flux, dry, d, h0, pd, hm, _, _, hc, _⟩ := flowCreate_inv h
    exact (hs.moveFronts hm).create hc
  · obtain ⟨_, hm, _⟩ := flowMove_inv h
    exact hs.moveFronts hm

theorem Placed.subStep {c : StepCfg α} {s s' : SubSt α} (hs : Placed s.head) (h : subStep c s = .ok s') :
    Placed s'.head := by
  obtain ⟨aet, vs, h0, hsoil, f, l, ve, h1, _, _, _, _, hf, hl, _, _, _, _, rfl⟩ := subStep_inv h
  exact (hs.subFlow hf).speed hl

theorem Placed.update {fuel : Nat} {sa : Bool} {s s' : State α} (hs : Placed s.head)
    (h : update fuel sa s = .ok s') : Placed s'.head := by
  rcases update_inv h with ⟨_, rfl⟩ | ⟨_, s1, d, v, u, h1, _, hu, h2⟩
  · exact hs
  · obtain ⟨_, _, _, hh, _⟩ := updatePost_inv h2
    have := subLoop_ind (P := fun s => Placed s.head) (fun _ _ h h' => h.subStep h') (hs.skel (updatePre_skel h1)) hu
    rw [hh]; exact this

end Free
end LGAR
