import Verif.Num.Float
import Verif.Num.Real
import Verif.Props.Lists
import Verif.Props.Passes
import Verif.Props.Infil
import Verif.Props.Soil
import Verif.Props.Speed
import Verif.Props.Runs
import Verif.Props.Structure
import Verif.Props.Bounds
import Verif.Props.Update
import Verif.Props.Time
import Verif.Props.Books
import Verif.Props.Routing
import Verif.Props.Frozen
import Verif.Props.Bmi
import Verif.Props.Config
import Verif.Props.Init
import Verif.Props.Driver
import Verif.Validate
import Verif.Lemmas.MoveSafe
import Verif.Spec.Fits
import Verif.Spec.Lone
import Verif.Lemmas.RunSafe
import Verif.Lemmas.Undrained
import Verif.Props.Safety
import Verif.Lemmas.Correction
import Verif.Props.Correction
import Verif.Model.Heap
import Verif.Spec.Heap
import Verif.Lemmas.Heap
import Verif.Lemmas.Own
import Verif.Props.Heap
import Verif.Spec.Pond
import Verif.Props.Pond
import Verif.Spec.Ends
import Verif.Lemmas.Stable
import Verif.Lemmas.ThetaLoop
import Verif.Lemmas.Placed
import Verif.Lemmas.NoFuel
import Verif.Lemmas.Finish
import Verif.Lemmas.FinishRun
import Verif.Spec.SampleReal
import Verif.Props.Termination
import Verif.Props.Stops
import Verif.Num.Mono
import Verif.Lemmas.NoStop
import Verif.Lemmas.SingleLayer
import Verif.Spec.Solved
import Verif.Spec.Place
import Verif.Lemmas.SinglePass
import Verif.Lemmas.SingleRun
import Verif.Props.Single
import Verif.Props.Order
import Verif.Model.Blocks
import Verif.Lemmas.Blocks
import Verif.Props.Blocks
import Verif.Spec.Curve
import Verif.Lemmas.Curve
import Verif.Props.Curve
import Verif.Lemmas.Count
import Verif.Props.Count
import Verif.Num.Rounded
import Verif.Spec.Rounding
import Verif.Spec.SampleDbl
import Verif.Lemmas.Rounding
import Verif.Lemmas.RoundStore
import Verif.Lemmas.RoundTime
import Verif.Lemmas.RoundRoute
import Verif.Props.Rounding
import Verif.Spec.Cut
import Verif.Lemmas.Cut
import Verif.Props.Cut
import Verif.Spec.Rest
import Verif.Lemmas.Rest
import Verif.Lemmas.RestRun
import Verif.Props.Rest
import Verif.Spec.Twin
import Verif.Lemmas.Twin
import Verif.Props.Twin
import Verif.Spec.Renum
import Verif.Lemmas.Renum
import Verif.Props.Renum
import Verif.Props.Rain
import Verif.Props.Frost
import Verif.Model.SoilFile
import Verif.Spec.SoilFile
import Verif.Lemmas.SoilFile
import Verif.Props.SoilFile
import Verif.Spec.Table
import Verif.Lemmas.Table
import Verif.Props.Table
import Verif.Props.Reported
import Verif.Model.Output
import Verif.Spec.Output
import Verif.Lemmas.Output
import Verif.Props.Output
import Verif.Num.Compare
import Verif.Spec.Anchor
import Verif.Lemmas.Anchor
import Verif.Props.Anchor
import Verif.Spec.GreenAmpt
import Verif.Props.Capacity
import Verif.Lemmas.CalibSoil
import Verif.Lemmas.Damp
import Verif.Lemmas.RunSoils
import Verif.Lemmas.MoistRound
import Verif.Num.Correct
import Verif.Props.Moisture
import Verif.Spec.Solver
import Verif.Lemmas.Solver
import Verif.Props.Solver
import Verif.Lemmas.SignsRound
import Verif.Props.Signs
import Verif.Spec.Storage
import Verif.Lemmas.Storage
import Verif.Props.Storage
import Verif.Spec.Restart
import Verif.Lemmas.Restart
import Verif.Props.Restart
import Verif.Model.MemFuncs
import Verif.Spec.MemFuncs
import Verif.Props.MemFuncs
import Verif.Props.MergeShape
import Verif.Props.SpeedLaw
import Verif.Spec.Writes
import Verif.Props.Writes
import Verif.Spec.InitSafe
import Verif.Lemmas.InitSafe
import Verif.Props.InitSafe
import Verif.Lemmas.Recharge
import Verif.Props.Ints
import Verif.Props.Recharge
import Verif.Props.Clock
import Verif.Props.SameCal
import Verif.Props.Mualem
import Verif.Props.Recession
import Verif.Props.Boundary
import Verif.Spec.Carry
import Verif.Props.Carry
import Verif.Spec.Slope
import Verif.Lemmas.Converge
import Verif.Lemmas.Slope
import Verif.Props.Found
import Verif.Spec.Dry
import Verif.Lemmas.Dry
import Verif.Lemmas.DryRun
import Verif.Props.Dry
import Verif.Model.Pool
import Verif.Spec.Pool
import Verif.Lemmas.Pool
import Verif.Props.Pool
import Verif.Lemmas.McLoop
import Verif.Props.Closes
import Verif.Props.Bottom
import Verif.Lemmas.Cap
import Verif.Props.Saturation
import Verif.Lemmas.Several
import Verif.Props.LayerBooks
import Verif.Props.Upward
