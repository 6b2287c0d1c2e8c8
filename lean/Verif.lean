import Verif.Props.Crc
import Verif.Props.Recorder
import Verif.Props.Api
import Verif.Props.Fusion
import Verif.Props.Schedule
import Verif.Props.Height
import Verif.Props.Junk
import Verif.Props.Kalman
import Verif.Props.Symm
import Verif.Props.Convert
import Verif.Props.RotVec
import Verif.Props.Rigid
import Verif.Props.Perfect
import Verif.Props.Ahrs
import Verif.Props.Stats
import Verif.Props.JunkReal
import Verif.Props.Outage
import Verif.Props.DataManager
import Verif.Props.Config
import Verif.Props.Post
import Verif.Props.SeqCheck
import Verif.Props.NavWriter
import Verif.Props.FileIO
import Verif.Props.Layout
import Verif.Props.Adi
import Verif.Props.DcmEst
import Verif.Props.Strapdown
import Verif.Props.Coning
import Verif.Props.Sensitivity
import Verif.Props.Output
import Verif.Props.AlignOut
import Verif.Props.Transition
import Verif.Props.Covariance
import Verif.Props.Gravity
import Verif.Props.Innovation
import Verif.Model.FusionExt
import Verif.Props.Monitor
import Verif.Props.Builds
import Verif.Props.OptionalStates
import Verif.Props.Logging
import Verif.Props.LoggingPos
import Verif.Props.PostOld
import Verif.Props.Ignored
import Verif.Props.Export
import Verif.Props.Summary
import Verif.Props.Restart
import Verif.Props.Range
import Verif.Props.Stamps
import Verif.Props.AttitudePhase
import Verif.Props.Mounting
import Verif.Props.NaN
import Verif.Props.Rest
import Verif.Props.Refine
import Verif.Props.Rounding
import Verif.Props.Information
import Verif.Props.Rodrigues
import Verif.Props.Variance
import Verif.Props.ZuptBound
import Verif.Model.Threads
import Verif.Props.Threads
import Verif.Model.Pipeline
import Verif.Props.Pipeline
import Verif.Props.Level
import Verif.Props.LevelRun
import Verif.Props.LongRun
import Verif.Model.RtSim
import Verif.Spec.RtSim
import Verif.Props.RtSim
import Verif.Props.Flags
import Verif.Props.Midpoint
import Verif.Spec.Stochastic
import Verif.Props.Optimal
import Verif.Props.DateLine
import Verif.Model.Ui
import Verif.Spec.Ui
import Verif.Props.Ui
import Verif.Props.Lock
import Verif.Props.Angles
import Verif.Model.ReadUntil
import Verif.Props.ReadUntil
import Verif.Props.Repeated
import Verif.Props.ZeroStd
import Verif.Model.ResultLine
import Verif.Spec.ResultLine
import Verif.Props.ResultLine
import Verif.Props.Monotone
import Verif.Props.LoggingAlign
import Verif.Spec.ChiSquare
import Verif.Props.ChiSquare
import Verif.Props.Convention
import Verif.Props.Clock
import Verif.Model.Reports
import Verif.Props.Reports
import Verif.Props.Scaling
import Verif.Spec.BodyFrame
import Verif.Lemmas.BodyFrame
import Verif.Props.BodyFrame
import Verif.Model.OdoGen
import Verif.Spec.OdoGen
import Verif.Props.OdoGen
import Verif.Model.ErrAnalysis
import Verif.Spec.ErrAnalysis
import Verif.Props.ErrAnalysis
import Verif.Props.FreeFall
import Verif.Model.Scripts
import Verif.Props.Scripts
import Verif.Model.PyIns
import Verif.Props.PyIns
import Verif.Model.PyEarth
import Verif.Props.PyEarth
import Verif.Model.InstallAngle
import Verif.Model.ShowTraj
import Verif.Props.Meridian
import Verif.Props.InstallAngle
import Verif.Props.ShowTraj
import Verif.Model.PureIns
import Verif.Props.PureIns
import Verif.Model.UiThread
import Verif.Spec.UiThread
import Verif.Props.UiThread
import Verif.Model.NavPlot
import Verif.Spec.NavPlot
import Verif.Props.NavPlot
import Verif.Model.OldTools
import Verif.Props.OldTools
import Verif.Spec.Turning
import Verif.Props.Turning
import Verif.Spec.TurningRounded
import Verif.Props.TurningRounded
import Verif.Spec.EarthAttitude
import Verif.Props.EarthAttitude
import Verif.Spec.PlaceMoves
import Verif.Props.PlaceMoves
import Verif.Spec.TrueAttitude
import Verif.Props.TrueAttitude
import Verif.Spec.TrueForce
import Verif.Props.TrueForce
import Verif.Spec.VelocityMoves
import Verif.Props.VelocityMoves
import Verif.Spec.TrueFlight
import Verif.Props.FlightLip
import Verif.Props.FlightTruth
import Verif.Props.FlightGeo
import Verif.Props.FlightStep
import Verif.Props.FlightOne
import Verif.Props.FlightStep2
import Verif.Props.Converges
import Verif.Spec.RoundedFlight
import Verif.Lemmas.Approx
import Verif.Props.RoundedNav
import Verif.Props.RoundedStep
import Verif.Props.RoundedGood
import Verif.Props.RoundedRepair
import Verif.Props.RoundedFlight
import Verif.Props.LoaderReuse
import Verif.Spec.Coasting
import Verif.Props.Coasting
import Verif.Spec.RoundedReports
import Verif.Props.RoundedReports
import Verif.Spec.RoundedAttitude
import Verif.Props.RoundedAttitude
import Verif.Spec.ResultFile
import Verif.Props.ResultFile
import Verif.Spec.GnssGap
import Verif.Props.GnssGap
import Verif.Props.GainBound
import Verif.Spec.FilterFlight
import Verif.Props.FilterStep
import Verif.Props.FilterFollow
import Verif.Props.FilterFlight
import Verif.Spec.FixFile
import Verif.Props.FixFile
import Verif.Spec.CovFlight
import Verif.Props.CovForm
import Verif.Props.PhiBound
import Verif.Props.CovFlight
import Verif.Props.CovRun
import Verif.Props.CovC212
import Verif.Props.CovFile
import Verif.Props.CovBound
import Verif.Props.CovDrop
import Verif.Props.CovLines
import Verif.Props.CovAlmost
