import Verif.Model.Update
import Verif.Num.Lawful
/-
Termination.  The C loops without an iteration bound (calc_Geff, lgar_theta_mass_balance) take fuel in the model.  A
computation finishes when all large enough fuel gives one and the same result, and that result is not the exhausted fuel.
-/
namespace LGAR
variable {β : Type}

/-- All large enough fuel gives one result `r`, not the exhausted fuel. -/
def Ends (f : Nat → Res β) (r : Res β) : Prop := r ≠ .error .fuel ∧ ∃ N, ∀ n, N ≤ n → f n = r

/-- The computation finishes. -/
def Finishes (f : Nat → Res β) : Prop := ∃ r, Ends f r

/-- Calibration arrays with physical values in every place. -/
def Calib.Physical {K : Type} [Field K] [LinearOrder K] (c : Calib K) : Prop :=
  ∀ (i : Nat) (e r n a k : K), c.thetaE[i]? = some e → c.thetaR[i]? = some r → c.vgN[i]? = some n → c.vgAlpha[i]? = some a →
    c.Ksat[i]? = some k → 0 ≤ r ∧ r < e ∧ 0 < a ∧ 1 < n ∧ 0 < k

end LGAR
