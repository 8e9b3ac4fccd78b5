import Verif.Props.Actuators
import Verif.Props.Aim
import Verif.Props.AimFlux
import Verif.Props.AimGradient
import Verif.Props.AimHistory
import Verif.Props.Aiming
import Verif.Props.AlignSurface
import Verif.Props.Alignment
import Verif.Props.AlignmentLoss
import Verif.Props.Balance
import Verif.Props.Bitmap
import Verif.Props.Blockers
import Verif.Props.Blur
import Verif.Props.Collective
import Verif.Props.Converge
import Verif.Props.Crop
import Verif.Props.CylinderImage
import Verif.Props.Deflectometry
import Verif.Props.Derivatives
import Verif.Props.Device
import Verif.Props.Downhill
import Verif.Props.Env
import Verif.Props.FacetOrder
import Verif.Props.Field
import Verif.Props.FieldShapes
import Verif.Props.FineMirror
import Verif.Props.Fit
import Verif.Props.Flatten
import Verif.Props.Flux
import Verif.Props.FocalSpotLoss
import Verif.Props.Geo
import Verif.Props.Geodesy
import Verif.Props.Grazing
import Verif.Props.Group
import Verif.Props.GroupFlux
import Verif.Props.Identify
import Verif.Props.Intersect
import Verif.Props.KinConfig
import Verif.Props.Kinematics
import Verif.Props.LBVH
import Verif.Props.LBVHAny
import Verif.Props.LBVHExact
import Verif.Props.LightSources
import Verif.Props.Lock
import Verif.Props.Lockstep
import Verif.Props.Logging
import Verif.Props.Loop
import Verif.Props.Losses
import Verif.Props.ManyRays
import Verif.Props.Mapping
import Verif.Props.Margin
import Verif.Props.Mirrored
import Verif.Props.MirroredMore
import Verif.Props.Morton
import Verif.Props.MotorImage
import Verif.Props.NanGradient
import Verif.Props.Neighbours
import Verif.Props.NoisyLoss
import Verif.Props.Nurbs
import Verif.Props.NurbsBatch
import Verif.Props.NurbsSpans
import Verif.Props.PaintData
import Verif.Props.PaintHeliostat
import Verif.Props.PaintTower
import Verif.Props.PixelLimit
import Verif.Props.PointSun
import Verif.Props.Pointing
import Verif.Props.Regularizers
import Verif.Props.Report
import Verif.Props.Requests
import Verif.Props.Resolution
import Verif.Props.Result
import Verif.Props.Rotations
import Verif.Props.Rounded
import Verif.Props.RoundedActuator
import Verif.Props.RoundedChain
import Verif.Props.RoundedFilter
import Verif.Props.RoundedImage
import Verif.Props.RoundedKinematics
import Verif.Props.RoundedLanding
import Verif.Props.RoundedMotors
import Verif.Props.RoundedMotorsImage
import Verif.Props.RoundedRay
import Verif.Props.RoundedSpan
import Verif.Props.Sampler
import Verif.Props.Sampling
import Verif.Props.SaveScenario
import Verif.Props.Schedule
import Verif.Props.Shared
import Verif.Props.SoftMask
import Verif.Props.Splat
import Verif.Props.SplatGradient
import Verif.Props.Spread
import Verif.Props.Stral
import Verif.Props.SurfaceImage
import Verif.Props.Surfaces
import Verif.Props.Tower
import Verif.Props.TowerFile
import Verif.Props.Trace
import Verif.Props.TraceShapes
import Verif.Props.Tracking
import Verif.Props.Training
import Verif.Props.Transforms
import Verif.Props.Translation
import Verif.Props.Validation
import Verif.Audit
