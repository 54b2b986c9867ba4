import Verif.Model.Angles
import Verif.Model.Csv
import Verif.Model.Eigen
import Verif.Model.Example
import Verif.Model.FilterBase
import Verif.Model.Float
import Verif.Model.FloatAngles
import Verif.Model.FloatKF
import Verif.Model.FloatKF2
import Verif.Model.Geometry
import Verif.Model.KF
import Verif.Model.Llt
import Verif.Model.Messages
import Verif.Model.Models
import Verif.Model.NaN
import Verif.Model.NaNData
import Verif.Model.Setters
import Verif.Model.SixD
import Verif.Model.Subset
import Verif.Model.Subset16
import Verif.Model.Time
import Verif.Model.UKF
import Verif.Model.VS
import Verif.Spec.Apart
import Verif.Spec.Asking
import Verif.Spec.Axes
import Verif.Spec.Bias
import Verif.Spec.Ceiling
import Verif.Spec.Clock
import Verif.Spec.Csv
import Verif.Spec.DataFree
import Verif.Spec.Doubt
import Verif.Spec.Effect
import Verif.Spec.Example
import Verif.Spec.Experiment
import Verif.Spec.Fed
import Verif.Spec.Fewer
import Verif.Spec.Filter
import Verif.Spec.Follows
import Verif.Spec.Forget
import Verif.Spec.History
import Verif.Spec.Innovation
import Verif.Spec.Ledger
import Verif.Spec.LinearUse
import Verif.Spec.Memory
import Verif.Spec.Messages
import Verif.Spec.Meter
import Verif.Spec.Mismatch
import Verif.Spec.Models
import Verif.Spec.Motion
import Verif.Spec.NaNData
import Verif.Spec.Nearby
import Verif.Spec.Noise
import Verif.Spec.Observed
import Verif.Spec.Offset
import Verif.Spec.Part
import Verif.Spec.Quadratic
import Verif.Spec.Readings
import Verif.Spec.Roughly
import Verif.Spec.Scale
import Verif.Spec.Sharing
import Verif.Spec.Sigma
import Verif.Spec.Subset
import Verif.Spec.Turns
import Verif.Spec.Units
import Verif.Spec.Vague
import Verif.Spec.World
import Verif.Spec.WorstCase
import Verif.Lemmas.AllActive
import Verif.Lemmas.Apart
import Verif.Lemmas.Api
import Verif.Lemmas.Asking
import Verif.Lemmas.At
import Verif.Lemmas.Core
import Verif.Lemmas.Csv
import Verif.Lemmas.Effect
import Verif.Lemmas.Eigensolver
import Verif.Lemmas.Example
import Verif.Lemmas.ExampleStuck
import Verif.Lemmas.Float
import Verif.Lemmas.History
import Verif.Lemmas.InOrder
import Verif.Lemmas.Invariants
import Verif.Lemmas.KFApi
import Verif.Lemmas.KFSteps
import Verif.Lemmas.Kalman
import Verif.Lemmas.Ledger
import Verif.Lemmas.Llt
import Verif.Lemmas.Loops
import Verif.Lemmas.Meter
import Verif.Lemmas.Moments
import Verif.Lemmas.Nearby
import Verif.Lemmas.Numeric
import Verif.Lemmas.Observed
import Verif.Lemmas.OneStep
import Verif.Lemmas.Order
import Verif.Lemmas.OutOfOrder
import Verif.Lemmas.Part
import Verif.Lemmas.PartUKF
import Verif.Lemmas.PlantInv
import Verif.Lemmas.PlantRel
import Verif.Lemmas.PlantSim
import Verif.Lemmas.Quadratic
import Verif.Lemmas.Queues
import Verif.Lemmas.RigidBody
import Verif.Lemmas.Scale
import Verif.Lemmas.Settle
import Verif.Lemmas.Sharing
import Verif.Lemmas.SharingVS
import Verif.Lemmas.Sigma
import Verif.Lemmas.Sim
import Verif.Lemmas.SixD
import Verif.Lemmas.SixDStateless
import Verif.Lemmas.SixDUKF
import Verif.Lemmas.Steps
import Verif.Lemmas.Subset
import Verif.Lemmas.Subset16
import Verif.Lemmas.SysInv
import Verif.Lemmas.Taint
import Verif.Lemmas.Ties
import Verif.Lemmas.TimeMap
import Verif.Lemmas.Trig
import Verif.Lemmas.Turning
import Verif.Lemmas.UKFAffine
import Verif.Lemmas.UKFApi
import Verif.Lemmas.UKFSize
import Verif.Lemmas.UKFSteps
import Verif.Lemmas.UKFUnits
import Verif.Lemmas.UKFVSSteps
import Verif.Lemmas.Uninit
import Verif.Lemmas.VSApi
import Verif.Lemmas.VSInv
import Verif.Lemmas.VSSteps
import Verif.Lemmas.Vague
import Verif.Lemmas.WithApi
import Verif.Examples.Counter
import Verif.Examples.Leaky
import Verif.Examples.Linear
import Verif.Examples.Quad
import Verif.Examples.Toy
import Verif.Props.Agree
import Verif.Props.AgreeCorrect
import Verif.Props.AllActive
import Verif.Props.Angles
import Verif.Props.Apart
import Verif.Props.Asking
import Verif.Props.AskingSixD
import Verif.Props.Averages
import Verif.Props.Believed
import Verif.Props.BestLinear
import Verif.Props.Bias
import Verif.Props.BiasCorrect
import Verif.Props.BiasesSixD
import Verif.Props.Bounds
import Verif.Props.Cases
import Verif.Props.Ceiling
import Verif.Props.Cholesky
import Verif.Props.Clock
import Verif.Props.Conserved
import Verif.Props.Consistency
import Verif.Props.Convex
import Verif.Props.Csv
import Verif.Props.DataFree
import Verif.Props.Doubt
import Verif.Props.Effects
import Verif.Props.Ellipses
import Verif.Props.Example
import Verif.Props.ExampleLimits
import Verif.Props.Fewer
import Verif.Props.Float
import Verif.Props.FloatAngles
import Verif.Props.FloatKF
import Verif.Props.FloatKF2
import Verif.Props.Follows
import Verif.Props.Forgetting
import Verif.Props.Frame
import Verif.Props.Gaps
import Verif.Props.ImuJacobian
import Verif.Props.Init
import Verif.Props.Innovations
import Verif.Props.Integration
import Verif.Props.Kalman
import Verif.Props.LateBest
import Verif.Props.LateData
import Verif.Props.LeastSquares
import Verif.Props.Ledger
import Verif.Props.LeftRight
import Verif.Props.Linear
import Verif.Props.LinearPart
import Verif.Props.Merge
import Verif.Props.Messages
import Verif.Props.Mismatch
import Verif.Props.Modes
import Verif.Props.Monotone
import Verif.Props.NaN
import Verif.Props.NaNData
import Verif.Props.Nearby
import Verif.Props.Observed
import Verif.Props.OddPart
import Verif.Props.Offset
import Verif.Props.OffsetSixD
import Verif.Props.OneCorrection
import Verif.Props.OutOfOrder
import Verif.Props.Part
import Verif.Props.PartUKF
import Verif.Props.Physics
import Verif.Props.Planar
import Verif.Props.PlanarTurns
import Verif.Props.Precision
import Verif.Props.Quadratic
import Verif.Props.Queues
import Verif.Props.Readings
import Verif.Props.Response
import Verif.Props.Resume
import Verif.Props.Rewind
import Verif.Props.Rooms
import Verif.Props.Rotations
import Verif.Props.Roughly
import Verif.Props.Scale
import Verif.Props.Semantics
import Verif.Props.Setters
import Verif.Props.Sharing
import Verif.Props.SharingVS
import Verif.Props.Sides
import Verif.Props.Simultaneous
import Verif.Props.SixD
import Verif.Props.SixDAxes
import Verif.Props.SixDFilter
import Verif.Props.SixDNoise
import Verif.Props.SixDRateJac
import Verif.Props.SixDSensors
import Verif.Props.SixDSystem
import Verif.Props.SixDUKF
import Verif.Props.Stacked
import Verif.Props.StationaryUser
import Verif.Props.Steady
import Verif.Props.Subset16
import Verif.Props.Subsets
import Verif.Props.Superposition
import Verif.Props.Switching
import Verif.Props.Symmetry
import Verif.Props.Ties
import Verif.Props.TimeShift
import Verif.Props.Total
import Verif.Props.Transforms
import Verif.Props.Turns
import Verif.Props.Uninit
import Verif.Props.Units
import Verif.Props.Unscented
import Verif.Props.UnscentedLinear
import Verif.Props.UnscentedUnits
import Verif.Props.Unseen
import Verif.Props.VSHistory
import Verif.Props.VSPitfalls
import Verif.Props.Vague
import Verif.Props.VariableState
import Verif.Props.Window
import Verif.Props.Work
import Verif.Props.WorstCase
import Verif.Witness.Equivalences
import Verif.Witness.Families
import Verif.Witness.Filter
import Verif.Witness.Numeric
import Verif.Upstream.FilterBase
import Verif.Upstream.Geometry
import Verif.Upstream.KalmanFilter
import Verif.Upstream.SixD
