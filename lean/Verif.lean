import Verif.Arith
import Verif.Model.Constants
import Verif.Model.Vec
import Verif.Model.Transforms
import Verif.Model.Satrec
import Verif.Model.Ext
import Verif.Model.Initl
import Verif.Model.Dpper
import Verif.Model.Dscom
import Verif.Model.Dspace
import Verif.Model.Dsinit
import Verif.Model.Sgp4
import Verif.Model.Sgp4init
import Verif.Model.Str
import Verif.Model.Io
import Verif.Spec.Sgp4Spec
import Verif.Proofs.Loop
import Verif.Proofs.Sgp4Lemmas
import Verif.Proofs.Refine
import Verif.Props.Propagate
import Verif.Props.DeepOutput
import Verif.Props.Init
import Verif.RealArith
import Verif.Spec.Geometry
import Verif.Spec.Calendar
import Verif.Proofs.CalendarLemmas
import Verif.Props.Frames
import Verif.Props.Geodetic
import Verif.Props.Time
import Verif.Props.Orbit
import Verif.Spec.DeepSpec
import Verif.Props.Deep
import Verif.Props.DeepInit
import Verif.Props.LunarSolar
import Verif.Spec.TleSpec
import Verif.Proofs.StrLemmas
import Verif.Props.Parse
import Verif.Props.ParseFiles
import Verif.Props.Decode
import Verif.F64.Basic
import Verif.F64.Round
import Verif.F64.Real
import Verif.F64.Ops
import Verif.F64.SqrtSq
import Verif.F64.Consts
import Verif.Props.F64Look
import Verif.Props.F64Time
import Verif.Props.F64Jday
import Verif.Spec.Report3
import Verif.Spec.LowPerigee
import Verif.Spec.TleWriter
import Verif.Props.Coefficients
import Verif.Props.DragSeries
import Verif.Props.EndToEnd
import Verif.Props.Epoch
import Verif.Props.Kepler
import Verif.Props.Accept
import Verif.Props.Samples
import Verif.Spec.Sdp4
import Verif.Props.DeepCoefficients
import Verif.Props.DeepEndToEnd
import Verif.Spec.Resonance
import Verif.Props.Resonance
import Verif.F64.LibmSpec
import Verif.Props.F64Frames
import Verif.Props.F64Geodetic
import Verif.Props.F64Parse
import Verif.Props.F64Nan
import Verif.Props.F64Finite
import Verif.Props.F64Dspace
import Verif.Props.F64Resonance
import Verif.Props.Returns
import Verif.Props.DeepAccept
import Verif.Props.InitEpoch
import Verif.Props.LongTerm
import Verif.Props.ParseOutcome
import Verif.Props.TwoLineFile
import Verif.Props.TextToState
import Verif.Props.GeodeticError
import Verif.Props.Integrator
import Verif.Props.TextToRecord
import Verif.F64.Approx
import Verif.Props.F64Accuracy
import Verif.Props.F64Tail
import Verif.Props.F64Sgp4
import Verif.Props.F64Deep
import Verif.Props.F64Observe
import Verif.F64.Relative
import Verif.Props.F64TailWide
import Verif.Props.InitChain
import Verif.Props.F64Init
import Verif.Props.F64InitFront
import Verif.Props.F64Calm
import Verif.Props.F64Text
import Verif.Props.Laws
import Verif.Props.Motion
import Verif.Props.MotionOrbit
import Verif.Props.MotionSecular
import Verif.Props.Velocity
import Verif.Props.MotionChord
import Verif.Props.F64Date
import Verif.Props.MotionForce
import Verif.Props.Attraction
import Verif.Props.F64Sight
import Verif.Props.Place
import Verif.Props.F64Track
import Verif.Props.TimeFar
import Verif.Props.F64Constants
import Verif.Props.F64Degrees
import Verif.Props.F64TrackDegrees
import Verif.F64.AtanWide
import Verif.Props.F64TailFar
import Verif.Props.DeepChain
import Verif.Props.F64DeepInit
import Verif.Props.F64DeepMoon
import Verif.Props.F64DeepFront
import Verif.Props.F64DeepText
import Verif.Props.F64DeepSight
import Verif.Props.F64DeepLatitude
import Verif.Props.F64Doppler
import Verif.Props.ParseMultiple
import Verif.Props.Drift
import Verif.Props.F64Order
import Verif.Props.WriteRead
import Verif.Props.F64Later
import Verif.Props.Unused
import Verif.Props.F64Planes
import Verif.Props.Horizon
import Verif.Props.F64Latitude
import Verif.Props.F64Equator
import Verif.Props.F64Reckon
import Verif.Props.F64Overhead
import Verif.Props.MeanLongitude
import Verif.Props.F64Geostationary
import Verif.Props.DeepRound
import Verif.Props.F64DeepEquator
import Verif.Props.F64Laws
import Verif.Props.F64Tilt
import Verif.Props.F64Precession
import Verif.Props.F64DeepPrecession
import Verif.Props.F64Epoch
import Verif.Props.F64EpochVelocity
import Verif.Props.F64DeepEpoch
import Verif.Props.F64Areas
import Verif.Props.F64Follow
import Verif.Props.F64DeepFollow
import Verif.Props.F64FollowVelocity
import Verif.Tests.FloatTests
import Verif.Tests.F64Tests
import Verif.F64.ApproxFn
import Verif.Proofs.NewtonApprox
import Verif.Props.F64Kepler
