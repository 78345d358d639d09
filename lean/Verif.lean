import Verif.Num.XReal
import Verif.Model.Step
import Verif.Model.Api
import Verif.Test.Replay
import Verif.Proofs.Entity
import Verif.Proofs.Search
import Verif.Proofs.Step
import Verif.Proofs.Carry
import Verif.Proofs.System
import Verif.Proofs.Stored
import Verif.Proofs.Total
import Verif.Props.Handles
import Verif.Props.Store
import Verif.Props.Links
import Verif.Proofs.Sleep
import Verif.Props.Sleep
import Verif.Proofs.StepTotal
import Verif.Proofs.ExecTotal
import Verif.Props.Panic
import Verif.Num.Fin
import Verif.Num.Pose
import Verif.Num.Rodrigues
import Verif.Props.Pose
import Verif.Num.Body
import Verif.Props.Response
import Verif.Num.Mass
import Verif.Num.MassState
import Verif.Props.Mass
import Verif.Props.Inertia
import Verif.Proofs.Integrate
import Verif.Props.Motion
import Verif.Props.Momentum
import Verif.Props.Ranges
import Verif.Props.Times
import Verif.Props.Detect
import Verif.Props.Scene
import Verif.Props.Witness
import Verif.Proofs.Paired
import Verif.Props.Neighbors
import Verif.Num.LogExp
import Verif.Props.Wake
import Verif.Props.Drowsy
import Verif.Props.Earliest
import Verif.Props.Clock
import Verif.Props.Planes
import Verif.Props.Features
import Verif.Props.MeshPlane
import Verif.Props.Segment
import Verif.Props.Box
import Verif.Props.MeshMesh
import Verif.Props.Pairs
import Verif.Props.Build
import Verif.Props.Finite
import Verif.Props.Floor
import Verif.Props.Through
import Verif.Props.Polygon
import Verif.Props.SphereMesh
import Verif.Props.Normals
import Verif.Props.Conserve
import Verif.Props.Spin
import Verif.Props.UnitNormals
import Verif.Props.Repeat
import Verif.Props.Corner
import Verif.Num.Shift
import Verif.Props.ShiftHit
import Verif.Props.Place
import Verif.Props.PlaceStep
import Verif.Props.PlaceApi
import Verif.Props.Frame
import Verif.Props.Lying
import Verif.Props.Sinking
import Verif.Num.F32
import Verif.Num.Kernel
import Verif.Test.Binary32
import Verif.Props.Binary
import Verif.Props.Rounding
import Verif.Props.Missed
import Verif.Props.Awake
import Verif.Props.Slide
import Verif.Props.Solid
import Verif.Proofs.Apart
import Verif.Props.Bystander
import Verif.Props.Alone
import Verif.Proofs.Rest
import Verif.Props.Rest
import Verif.Proofs.Anchor
import Verif.Props.Anchor
import Verif.Props.Drift
import Verif.Props.Fall
import Verif.Props.Normals32
import Verif.Props.Turned
import Verif.Props.Momentum32
import Verif.Props.Guise
import Verif.Props.Accept
import Verif.Props.Crash
import Verif.Props.Jam
import Verif.Props.Parabola
import Verif.Props.Hang
import Verif.Props.Support
import Verif.Props.Again
import Verif.Props.Grip
import Verif.Props.Rolling
import Verif.Props.Riding
import Verif.Props.Slope
import Verif.Props.Hill
import Verif.Props.Astray
import Verif.Props.Whirl
import Verif.Props.Halfway
import Verif.Props.Room
import Verif.Props.Overtake
import Verif.Props.Series
import Verif.Props.PointSpeed
import Verif.Props.Untied
import Verif.Props.Bounce
import Verif.Props.Drop
import Verif.Props.Jitter
import Verif.Props.Billiards
import Verif.Props.Commute
import Verif.Props.Fresh
import Verif.Props.Undo
import Verif.Props.Trace
import Verif.Props.Idle
import Verif.Props.Twice
import Verif.Props.Reverse
import Verif.Props.Jointly
import Verif.Props.Jobs
import Verif.Props.Settle
import Verif.Props.Skid
import Verif.Props.Height
