import Verif.Model.Binary
import Verif.Model.BodyPos
import Verif.Model.BodySoilUpd
import Verif.Model.Example
import Verif.Model.Intersect
import Verif.Model.Num
import Verif.Model.Output
import Verif.Model.Real
import Verif.Model.Relax
import Verif.Model.Session
import Verif.Model.SoilDynamics
import Verif.Model.Types
import Verif.Model.Utils
import Verif.Spec.Above
import Verif.Spec.Active
import Verif.Spec.Ahead
import Verif.Spec.Avalanche
import Verif.Spec.Ball
import Verif.Spec.Binary
import Verif.Spec.Carry
import Verif.Spec.CarryFits
import Verif.Spec.CellStart
import Verif.Spec.Cells
import Verif.Spec.Chart
import Verif.Spec.Checks
import Verif.Spec.Column
import Verif.Spec.Cone
import Verif.Spec.Drawn
import Verif.Spec.Exact
import Verif.Spec.Example
import Verif.Spec.Fits
import Verif.Spec.Footprint
import Verif.Spec.Geom
import Verif.Spec.History
import Verif.Spec.LeftBehind
import Verif.Spec.Line
import Verif.Spec.Opening
import Verif.Spec.Output
import Verif.Spec.Outside
import Verif.Spec.Plane
import Verif.Spec.Reach
import Verif.Spec.Record
import Verif.Spec.Rest
import Verif.Spec.Rounded
import Verif.Spec.Settle
import Verif.Spec.Shape
import Verif.Spec.Stability
import Verif.Spec.State
import Verif.Spec.Transport
import Verif.Spec.WellFormed
import Verif.Proof.Above
import Verif.Proof.Active
import Verif.Proof.Ahead
import Verif.Proof.Avalanche
import Verif.Proof.BallFlt
import Verif.Proof.Basic
import Verif.Proof.Bends
import Verif.Proof.Binary
import Verif.Proof.BladeBack
import Verif.Proof.BodyExample
import Verif.Proof.BodyPos
import Verif.Proof.Carry
import Verif.Proof.CellsExact
import Verif.Proof.Chart
import Verif.Proof.ChartFresh
import Verif.Proof.ChartLoop
import Verif.Proof.ChartMove
import Verif.Proof.ChartPlace
import Verif.Proof.ChartRelax
import Verif.Proof.ChartRun
import Verif.Proof.ChartStep
import Verif.Proof.CheckFlt
import Verif.Proof.Checks
import Verif.Proof.Cone
import Verif.Proof.CornerDir
import Verif.Proof.CornerFlt
import Verif.Proof.Cover
import Verif.Proof.Depth
import Verif.Proof.Drawn
import Verif.Proof.DrawnFlt
import Verif.Proof.Energy
import Verif.Proof.Equil
import Verif.Proof.Evolution
import Verif.Proof.Example
import Verif.Proof.ExampleCon
import Verif.Proof.ExampleFlt
import Verif.Proof.ExamplePlace
import Verif.Proof.ExampleRun
import Verif.Proof.ExampleStart
import Verif.Proof.FaceFlt
import Verif.Proof.Floor
import Verif.Proof.Frame
import Verif.Proof.Fuel
import Verif.Proof.Gentle
import Verif.Proof.History
import Verif.Proof.Include
import Verif.Proof.InitFlt
import Verif.Proof.InterB
import Verif.Proof.InterS
import Verif.Proof.InterT
import Verif.Proof.Lattice
import Verif.Proof.LeftBehind
import Verif.Proof.Line
import Verif.Proof.LineFlt
import Verif.Proof.Livelock
import Verif.Proof.Margin
import Verif.Proof.MovedFlt
import Verif.Proof.Moves
import Verif.Proof.Near
import Verif.Proof.Noise
import Verif.Proof.Opening
import Verif.Proof.Ops
import Verif.Proof.Outside
import Verif.Proof.Pace
import Verif.Proof.PlaceFlt
import Verif.Proof.Plane
import Verif.Proof.PoseFlt
import Verif.Proof.Reach
import Verif.Proof.Record
import Verif.Proof.RelaxB
import Verif.Proof.RelaxT
import Verif.Proof.Rest
import Verif.Proof.RotAcc
import Verif.Proof.RotFlt
import Verif.Proof.Safe
import Verif.Proof.Scoop
import Verif.Proof.Settle
import Verif.Proof.Shape
import Verif.Proof.Shuffle
import Verif.Proof.Sim
import Verif.Proof.SimBody
import Verif.Proof.SimCheck
import Verif.Proof.SimInter
import Verif.Proof.SimPos
import Verif.Proof.SimRelax
import Verif.Proof.SimRun
import Verif.Proof.SimRunB
import Verif.Proof.SimStart
import Verif.Proof.SimStep
import Verif.Proof.Simulate
import Verif.Proof.Stability
import Verif.Proof.Sums
import Verif.Proof.Tops
import Verif.Proof.TopsFlt
import Verif.Proof.Total
import Verif.Proof.TotalFlt
import Verif.Proof.Trajectory
import Verif.Proof.Transport
import Verif.Proof.Volume
import Verif.Proof.Walls
import Verif.Proof.Window
import Verif.Props.Above
import Verif.Props.Accuracy
import Verif.Props.Active
import Verif.Props.Ahead
import Verif.Props.Amount
import Verif.Props.Avalanche
import Verif.Props.BladeBack
import Verif.Props.BodyGeometry
import Verif.Props.BodyPos
import Verif.Props.Carry
import Verif.Props.Cases
import Verif.Props.Cells
import Verif.Props.CellsInit
import Verif.Props.CheckAcc
import Verif.Props.Checks
import Verif.Props.Cone
import Verif.Props.Construct
import Verif.Props.Converge
import Verif.Props.CornerAcc
import Verif.Props.Depth
import Verif.Props.Drawn
import Verif.Props.Equilibrium
import Verif.Props.Evolution
import Verif.Props.Example
import Verif.Props.History
import Verif.Props.Init
import Verif.Props.InitFlt
import Verif.Props.Intersect
import Verif.Props.LeftBehind
import Verif.Props.Line
import Verif.Props.Margin
import Verif.Props.Moves
import Verif.Props.Noise
import Verif.Props.Opening
import Verif.Props.Output
import Verif.Props.Outside
import Verif.Props.Place
import Verif.Props.Plane
import Verif.Props.Quaternion
import Verif.Props.Reach
import Verif.Props.Record
import Verif.Props.Rest
import Verif.Props.Rounded
import Verif.Props.RunFlt
import Verif.Props.RunInit
import Verif.Props.Scoop
import Verif.Props.Session
import Verif.Props.Shape
import Verif.Props.Shuffle
import Verif.Props.Step
import Verif.Props.Symmetry
import Verif.Props.Trajectory
import Verif.Props.Transport
import Verif.Props.Walls
