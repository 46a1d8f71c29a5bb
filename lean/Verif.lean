import Verif.Aid.Align
import Verif.Aid.Clock
import Verif.Aid.Disabled
import Verif.Aid.DisabledFlow
import Verif.Aid.Frame
import Verif.Aid.Gps
import Verif.Aid.Grow
import Verif.Aid.GsfReset
import Verif.Aid.HeadingReset
import Verif.Aid.Lockout
import Verif.Aid.Lockout2
import Verif.Aid.Mag
import Verif.Aid.MagMore
import Verif.Aid.MagNumeric
import Verif.Aid.MagProps
import Verif.Aid.Odom
import Verif.Aid.Other
import Verif.Aid.Recovery
import Verif.Aid.Reported
import Verif.Aid.ReportedProps
import Verif.Aid.Sources
import Verif.Aid.Sources2
import Verif.Aid.State
import Verif.Aid.VisionRecovery
import Verif.AlphaFilter.Model
import Verif.AlphaFilter.Props
import Verif.Basic.F32
import Verif.Basic.Num
import Verif.Basic.RealTrig
import Verif.Basic.Rot
import Verif.Basic.Time
import Verif.Boot.Average
import Verif.Boot.InitState
import Verif.Boot.Model
import Verif.Boot.Props
import Verif.Boot.Safe
import Verif.Control.Baro
import Verif.Control.Height
import Verif.Control.HeightProps
import Verif.Control.RangeAid
import Verif.Control.VertAccel
import Verif.Cov.Bookkeep
import Verif.Cov.BookkeepProps
import Verif.Cov.BookkeepProps2
import Verif.Cov.Init
import Verif.Cov.Model
import Verif.Cov.PredictGen
import Verif.Cov.PredictGenA
import Verif.Cov.PredictGenB
import Verif.Cov.PredictGenC
import Verif.Cov.PredictGenD
import Verif.Cov.PredictModel
import Verif.Cov.PredictProps
import Verif.Cov.PredictProps2
import Verif.Cov.PredictProps3
import Verif.Cov.PredictSpec
import Verif.Cov.Props
import Verif.Cov.Props2
import Verif.Cov.QuatCov
import Verif.Cov.Quiet
import Verif.Cov.RotVec
import Verif.Ekf.Output
import Verif.Ekf.OutputProps
import Verif.Ekf.Predict
import Verif.Ekf.PredictProps
import Verif.Ekf.QuatLib
import Verif.Ekf.Reset
import Verif.Ekf.ResetProps
import Verif.Ekf.State
import Verif.Ekf.Tracking
import Verif.Ekf.TrackingVert
import Verif.Ekf.TrackingYaw
import Verif.Fp.Arith
import Verif.Fp.Cov
import Verif.Fp.Exact
import Verif.Fp.Filters
import Verif.Fp.NaN
import Verif.Fp.Quat
import Verif.Fp.QuatUnit
import Verif.Fusion.Accuracy
import Verif.Fusion.Airspeed
import Verif.Fusion.Bounded
import Verif.Fusion.BoundedMag
import Verif.Fusion.Core
import Verif.Fusion.Declination
import Verif.Fusion.Drag
import Verif.Fusion.Flow
import Verif.Fusion.FlowAdmit
import Verif.Fusion.FlowComp
import Verif.Fusion.GenAsp
import Verif.Fusion.GenBeta
import Verif.Fusion.GenDecl
import Verif.Fusion.GenDragX
import Verif.Fusion.GenDragY
import Verif.Fusion.GenFlowX
import Verif.Fusion.GenFlowY
import Verif.Fusion.GenGpsYaw
import Verif.Fusion.GenMagIV
import Verif.Fusion.GenMagX
import Verif.Fusion.GenMagY
import Verif.Fusion.GenMagZ
import Verif.Fusion.GpsYaw
import Verif.Fusion.Heading
import Verif.Fusion.Honest
import Verif.Fusion.HonestEx
import Verif.Fusion.HonestGps
import Verif.Fusion.HonestMag
import Verif.Fusion.Mag
import Verif.Fusion.OthersNaN
import Verif.Fusion.Sideslip
import Verif.Fusion.VelPos
import Verif.Fusion.VelPosNaN
import Verif.Fusion.WindReset
import Verif.Fusion.Yaw
import Verif.Fusion.YawProps
import Verif.Geo.Arc
import Verif.Geo.LineArc
import Verif.Geo.Model
import Verif.Geo.Props
import Verif.Geo.Sphere
import Verif.GeoLookup.Model
import Verif.GeoLookup.Props
import Verif.GeoLookup.Tables
import Verif.Gps.Checks
import Verif.Gps.ChecksProps
import Verif.Gps.DriftReport
import Verif.Gps.NaN
import Verif.Gps.Origin
import Verif.Gps.OriginMore
import Verif.Gsf.Ahrs
import Verif.Gsf.Coarse
import Verif.Gsf.Model
import Verif.Gsf.More
import Verif.Gsf.Props
import Verif.Gsf.Run
import Verif.Gsf.Select
import Verif.Gsf.SelectEx
import Verif.Gsf.Update
import Verif.ImuDownSampler.Model
import Verif.ImuDownSampler.Props
import Verif.Interface.Delivery
import Verif.Interface.Front
import Verif.Interface.FrontSafe
import Verif.Interface.GpsHeading
import Verif.Interface.Model
import Verif.Interface.Props
import Verif.Interface.Props2
import Verif.Meas.GpsMeas
import Verif.Meas.Motion
import Verif.Meas.Published
import Verif.Meas.Reset
import Verif.Meas.Synthetic
import Verif.Meas.Vision
import Verif.Meas.YawTest
import Verif.RangeFinder.Model
import Verif.RangeFinder.Props
import Verif.RangeFinder.Props2
import Verif.RangeFinder.Step
import Verif.RingBuffer.Lemmas
import Verif.RingBuffer.Model
import Verif.RingBuffer.PopLemmas
import Verif.RingBuffer.Props
import Verif.RingBuffer.Spec
import Verif.Status.DeadReckoning
import Verif.Status.Outputs
import Verif.Status.Words
import Verif.Terrain.Converge
import Verif.Terrain.Model
import Verif.Terrain.NaN
import Verif.Terrain.NaNReal
import Verif.Terrain.Props
import Verif.Terrain.Run
import Verif.Utils.Model
import Verif.Utils.Props
import Verif.Whole.Attitude
import Verif.Whole.Bounded
import Verif.Whole.Closed
import Verif.Whole.CovInv
import Verif.Whole.Cover
import Verif.Whole.CoverFuse
import Verif.Whole.CoverGen
import Verif.Whole.CoverPred
import Verif.Whole.Effects
import Verif.Whole.Extra
import Verif.Whole.FlowNot
import Verif.Whole.GpsClosed
import Verif.Whole.GpsReset
import Verif.Whole.HeightReset
import Verif.Whole.History
import Verif.Whole.Linear
import Verif.Whole.Mirror
import Verif.Whole.MirrorFuse
import Verif.Whole.MirrorGen
import Verif.Whole.MirrorPred
import Verif.Whole.Model
import Verif.Whole.Perfect
import Verif.Whole.PsdEx
import Verif.Whole.PsdFix
import Verif.Whole.PsdFuse
import Verif.Whole.PsdHist
import Verif.Whole.PsdNot
import Verif.Whole.PsdPred
import Verif.Whole.PsdUpd
import Verif.Whole.Shift
import Verif.Whole.ShiftBase
import Verif.Whole.ShiftFuse
import Verif.Whole.ShiftGen
import Verif.Whole.SignBase
import Verif.Whole.SignDefs
import Verif.Whole.SignFuse
import Verif.Whole.SignPred
import Verif.Whole.VisionOdometry
import Verif.Whole.VisionReset
import Verif.Wind.Config
import Verif.Wind.Model
import Verif.Wind.NaN
import Verif.Wind.NaNReal
import Verif.Wind.Props
import Verif.Wind.Reject
import Verif.Wind.Run
import Verif.Yaw.Course
import Verif.Yaw.Model
import Verif.Yaw.Props
import Verif.Yaw.Turn
