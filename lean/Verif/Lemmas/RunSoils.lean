import Verif.Lemmas.CalibSoil
import Verif.Props.Runs
/-
The soils over a run, in any arithmetic.
-/
set_option linter.unusedSectionVars false
namespace LGAR

section LawFree
variable {α : Type} [Add α] [Sub α] [Mul α] [Div α] [Neg α] [Zero α] [One α] [OfScientific α]
  [LT α] [LE α] [DecidableLT α] [DecidableLE α] [BEq α] [CMath α]

/-- Without calibration the soils stay. -/
theorem update_soils {fuel : Nat} {sa : Bool} {s s' : State α} (hc : s.p.calibFlag = false) (h : update fuel sa s = .ok s') :
    s'.soils = s.soils ∧ s'.p.calibFlag = false := by
  rcases update_inv h with ⟨_, rfl⟩ | ⟨_, s1, d, v, u, h1, hv, hu, h2⟩
  · exact ⟨rfl, hc⟩
  · obtain ⟨_, _, _, _, _, hso, _, _, _, _, _, _, hpp, _⟩ := updatePost_inv h2
    obtain ⟨_, _, fs, soils, l, fc, pm, q, _, rfl, _, ⟨hc', _⟩ | ⟨_, _, _, _, e, _⟩⟩ := updatePre_inv h1
    · rw [hc] at hc'; simp at hc'
    · exact ⟨by rw [hso]; exact e, by rw [hpp]⟩

/-- The soil of every layer satisfies `Q`. -/
def SoilsAre (Q : SoilProps α → Prop) (g : Geo α) : Prop := ∀ k s, 1 ≤ k → g.soil k = .ok s → Q s

theorem SoilsAre.congr {Q : SoilProps α → Prop} {g g' : Geo α} (hp : SoilsAre Q g) (h1 : g'.soilType = g.soilType)
    (h2 : g'.soils = g.soils) : SoilsAre Q g' :=
  fun k s hk hs => hp k s hk (by rw [← geo_soil h1 h2]; exact hs)

/-- The soils change in the first Update only, and only when calibration parameters are used. -/
theorem run_soils {Q : SoilProps α → Prop} {s0 s : State α} {hist : List (State α)} (hr : Run s0 hist s) (h0 : SoilsAre Q s0.geo)
    (hcal : s0.p.calibFlag = true → ∀ a, hist.head? = some a → SoilsAre Q a.geo) (hv : s0.p.invalidSoil = false) :
    SoilsAre Q s.geo ∧ s.p.layerSoilType = s0.p.layerSoilType ∧ s.p.invalidSoil = false ∧ (hist = [] → s = s0) ∧
      (hist ≠ [] → s.p.calibFlag = false) ∧ (s.p.calibFlag = true → s0.p.calibFlag = true) := by
  induction hr with
  | nil => exact ⟨h0, rfl, hv, fun _ => rfl, fun h => absurd rfl h, id⟩
  | @step hist s s1 s2 fuel sa hr hi hu ih =>
    have hcal' : s0.p.calibFlag = true → ∀ a, hist.head? = some a → SoilsAre Q a.geo := by
      intro h a ha
      refine hcal h a ?_
      cases hist with
      | nil => simp at ha
      | cons b t => simpa using ha
    obtain ⟨i1, i2, i3, i4, i5, i6⟩ := ih hcal'
    obtain ⟨f1, _, f3, f4, _⟩ := update_fixed hu
    obtain ⟨_, _, _, _, e5, e6', _, _, _, e6⟩ := hi.frame
    have hflag : s2.p.calibFlag = false := by
      rcases update_inv hu with ⟨hx, _⟩ | ⟨_, s1', d, v, u, h1, _, _, h2⟩
      · rw [e6] at hx; simp only [i3] at hx; exact absurd hx (by simp)
      · obtain ⟨_, _, _, _, _, _, _, _, _, _, _, _, hpp, _⟩ := updatePost_inv h2
        obtain ⟨_, _, fs, soils, l, fc, pm, q, _, rfl, _⟩ := updatePre_inv h1
        rw [hpp]
    refine ⟨?_, by rw [f3, e6]; exact i2, by rw [f4, e6]; exact i3, by simp, fun _ => hflag, fun h => by simp [hflag] at h⟩
    by_cases hf : s.p.calibFlag = true
    · have hnil : hist = [] := by
        by_contra hne
        rw [i5 hne] at hf; simp at hf
      subst hnil
      exact hcal (i6 hf) s2 rfl
    · have hf1 : s1.p.calibFlag = false := by rw [e6]; simpa using hf
      obtain ⟨k1, _⟩ := update_soils hf1 hu
      refine i1.congr ?_ ?_
      · show s2.p.layerSoilType = s.p.layerSoilType
        rw [f3, e6]
      · show s2.soils = s.soils
        rw [k1]; obtain ⟨_, _, _, _, rfl⟩ := hi; rfl

theorem head_snoc {β : Type} {l : List β} {x a : β} (h : l.head? = some a) : (l ++ [x]).head? = some a := by
  cases l with
  | nil => simp at h
  | cons b t => simpa using h

end LawFree
end LGAR
