import Verif.Num.Lawful
/-
Concrete data for the examples that show the hypotheses of theorems to be satisfiable, and for counterexamples.
-/
namespace LGAR.Sample
attribute [-instance] Rat.instOfScientific

/-- The call returns and its value passes the test. -/
def okAnd {β : Type} (x : Res β) (p : β → Bool) : Bool :=
  match x with
  | .ok a => p a
  | .error _ => false

theorem okAnd_exists {β : Type} {x : Res β} {p : β → Prop} [DecidablePred p]
    (h : okAnd x (fun a => decide (p a)) = true) : ∃ a, x = .ok a ∧ p a := by
  cases x with
  | ok a => exact ⟨a, rfl, by simpa [okAnd] using h⟩
  | error e => simp [okAnd] at h

/-- The result is undefined behaviour. -/
def isUb {β : Type} (x : Res β) : Bool :=
  match x with
  | .error (.ub _) => true
  | _ => false

theorem isUb_exists {β : Type} {x : Res β} (h : isUb x = true) : ∃ why, x = .error (.ub why) := by
  unfold isUb at h
  split at h
  · exact ⟨_, rfl⟩
  · simp at h

/-- A front with head and conductivity 0. -/
def fr (depth theta : ℚ) (layer : Nat) (front : Int) (toBottom : Bool) : Front ℚ :=
  { depth := depth, theta := theta, psi := 0, K := 0, layer := layer, front := front, toBottom := toBottom, dzdt := 0 }

/-- Two fronts in layer 1, one in layer 2 (bottoms at 10 and 30 cm). -/
def col3 : List (Front ℚ) :=
  [fr 4 (3/10) 1 1 false, fr 10 (2/10) 1 2 true, fr 30 (1/10) 2 3 true]

/-- A soil with curve exponents n = m = 1 and alpha = 1/100: `Se(h) = 1/(1 + h/100)`, `K = Ksat * sqrt Se * Se^2`, so that all
values are rational where `Se` is a square (theta = 0.292 at Se = 0.64, 0.208 at 0.36, 0.175 at 0.25, 0.343 at 0.81). -/
def soilA : SoilProps ℚ :=
  { thetaR := 1/10, thetaE := 4/10, vgAlpha := 1/100, vgN := 1, vgM := 1, bcLambda := 1, bcPsib := 10, hMin := 1,
    Ksat := 1, thetaWp := 15/100 }

/-- A second soil with the same curve shape (theta = 0.356, 0.244, 0.2, 0.424). -/
def soilB : SoilProps ℚ :=
  { thetaR := 1/10, thetaE := 5/10, vgAlpha := 1/100, vgN := 1, vgM := 1, bcLambda := 1, bcPsib := 10, hMin := 1,
    Ksat := 2, thetaWp := 15/100 }

/-- Two layers of 10 and 20 cm with soils A and B. -/
def geo2 : Geo ℚ :=
  { numLayers := 2, cum := [0, 10, 30], soilType := [0, 1, 2], frozen := [1, 1, 1], soils := [soilA, soilA, soilB] }

end LGAR.Sample
