import Verif.Model.Bmi
/-
Writing to the variables that the BMI hands out as results (C96).
-/
namespace LGAR
variable {α : Type}

/-- The output variables that report water moved or front states.  The other two are the depths of the layers and the number of
fronts. -/
def resultNames : List String :=
  ["precipitation", "potential_evapotranspiration", "actual_evapotranspiration", "surface_runoff", "giuh_runoff", "soil_storage",
   "total_discharge", "infiltration", "percolation", "groundwater_to_stream_recharge", "mass_balance",
   "soil_moisture_wetting_fronts", "soil_depth_wetting_fronts"]

/-- The same object but for what it reports. -/
def SameButResults (s t : State α) : Prop :=
  ∃ c m d, t = { s with conv := c, p := { s.p with moistureWf := m, depthWf := d } }

/-- A call of the BMI that may change the object. -/
inductive Call (α : Type) where
  | set (name : String) (src : Data α)
  | setAt (name : String) (inds : List Int) (src : Data α)
  | update

/-- The call writes to a result. -/
def Call.writesResult : Call α → Bool
  | .set n _ => n ∈ resultNames
  | .setAt n _ _ => n ∈ resultNames
  | .update => false

variable [Add α] [Sub α] [Mul α] [Div α] [Neg α] [Zero α] [One α] [OfScientific α]
  [LT α] [LE α] [DecidableLT α] [DecidableLE α] [BEq α] [CMath α]

/-- One call. -/
def Call.exec (fuel : Nat) (sa : Bool) (s : State α) : Call α → Res (State α)
  | .set n src => setValue s n src
  | .setAt n inds src => setValueAtIndices s n inds src
  | .update => LGAR.update fuel sa s

/-- Calls one after the other, until one fails. -/
def calls (fuel : Nat) (sa : Bool) : List (Call α) → State α → Res (State α)
  | [], s => .ok s
  | x :: xs, s => do
    let s1 ← x.exec fuel sa s
    calls fuel sa xs s1

end LGAR
