import Verif.Basic.Division
import Verif.Basic.Hoare
import Verif.Basic.Keeps
import Verif.Basic.OMap
import Verif.Basic.Outcome
import Verif.Model.Arrays
import Verif.Model.BackEnd
import Verif.Model.BodyFrames
import Verif.Model.Camera
import Verif.Model.CloudTransform
import Verif.Model.ComputeDistances
import Verif.Model.Crash
import Verif.Model.Degeneracy
import Verif.Model.DegeneracyFiles
import Verif.Model.EigenExt
import Verif.Model.EigenRos
import Verif.Model.Evaluation
import Verif.Model.FileConverter
import Verif.Model.Formatter
import Verif.Model.FrontEnd
import Verif.Model.GraphHistory
import Verif.Model.GraphManager
import Verif.Model.IcpEnv
import Verif.Model.IcpNonlinear
import Verif.Model.IcpPlaneDx2
import Verif.Model.IcpPlaneDzdx
import Verif.Model.IcpPointDx2
import Verif.Model.IcpPointDzdx
import Verif.Model.IsamHistory
import Verif.Model.Launch
import Verif.Model.LidarOptions
import Verif.Model.LidarPipeline
import Verif.Model.Locks
import Verif.Model.Mapping
import Verif.Model.MappingReal
import Verif.Model.Metrics
import Verif.Model.Motion
import Verif.Model.NavigationNodes
import Verif.Model.Odometry
import Verif.Model.Parameters
import Verif.Model.PclCloud
import Verif.Model.PclDeskew
import Verif.Model.PointTypes
import Verif.Model.Quaternion
import Verif.Model.QueueSizes
import Verif.Model.Registration
import Verif.Model.RegistrationCovariance
import Verif.Model.RegistrationDebug
import Verif.Model.RepairTimestamps
import Verif.Model.RosNetwork
import Verif.Model.Scheduling
import Verif.Model.Stereo
import Verif.Model.StereoDrawing
import Verif.Model.StereoMask
import Verif.Model.StereoPoints
import Verif.Model.StereoTracker
import Verif.Model.Synchroniser
import Verif.Model.TrackStatistics
import Verif.Model.Trajectory
import Verif.Model.Utilities
import Verif.Model.Values
import Verif.Model.Wiring
import Verif.Spec.Arrays
import Verif.Spec.BackEnd
import Verif.Spec.BackEndHistory
import Verif.Spec.BodyFrames
import Verif.Spec.Camera
import Verif.Spec.Correspondences
import Verif.Spec.DataSets
import Verif.Spec.Derivatives
import Verif.Spec.EigenRos
import Verif.Spec.Evaluation
import Verif.Spec.FrontEnd
import Verif.Spec.FrontEndFailures
import Verif.Spec.Gaussian
import Verif.Spec.Geometry
import Verif.Spec.Graph
import Verif.Spec.GraphExtract
import Verif.Spec.IcpNonlinear
import Verif.Spec.Isam
import Verif.Spec.Launch
import Verif.Spec.LidarPipeline
import Verif.Spec.Mapping
import Verif.Spec.Minimiser
import Verif.Spec.Motion
import Verif.Spec.Odometry
import Verif.Spec.Parameters
import Verif.Spec.ParametersValid
import Verif.Spec.PclCloud
import Verif.Spec.PclCodec
import Verif.Spec.PclDeskew
import Verif.Spec.PclReal
import Verif.Spec.Registration
import Verif.Spec.RegistrationCovariance
import Verif.Spec.RegistrationDebug
import Verif.Spec.Robots
import Verif.Spec.Stereo
import Verif.Spec.StereoDrawing
import Verif.Spec.StereoMask
import Verif.Spec.StereoTracker
import Verif.Spec.Synchroniser
import Verif.Spec.Trajectory
import Verif.Spec.Utilities
import Verif.Spec.Wiring
import Verif.Lemmas.Arrays
import Verif.Lemmas.BackEndForget
import Verif.Lemmas.BackEndFrame
import Verif.Lemmas.BackEndHistory
import Verif.Lemmas.BackEndReg
import Verif.Lemmas.BackEndSched
import Verif.Lemmas.BackEndState
import Verif.Lemmas.BackEndValued
import Verif.Lemmas.BodyFrames
import Verif.Lemmas.BodyFramesFlat
import Verif.Lemmas.Cholesky
import Verif.Lemmas.Derivatives
import Verif.Lemmas.EigenRos
import Verif.Lemmas.Evaluation
import Verif.Lemmas.Fed
import Verif.Lemmas.FrontEnd
import Verif.Lemmas.FrontEndBaro
import Verif.Lemmas.FrontEndFun
import Verif.Lemmas.FrontEndImu
import Verif.Lemmas.FrontEndMove
import Verif.Lemmas.FrontEndPubs
import Verif.Lemmas.GraphExtract
import Verif.Lemmas.GraphFactors
import Verif.Lemmas.GraphFrame
import Verif.Lemmas.GraphNewIds
import Verif.Lemmas.GraphRanges
import Verif.Lemmas.GraphStereo
import Verif.Lemmas.GraphValues
import Verif.Lemmas.IcpCanonical
import Verif.Lemmas.IcpEntriesPlaneDx2
import Verif.Lemmas.IcpEntriesPlaneDzdx
import Verif.Lemmas.IcpEntriesPointDx2
import Verif.Lemmas.IcpEntriesPointDzdx
import Verif.Lemmas.IcpNodes
import Verif.Lemmas.IcpSecondDerivatives
import Verif.Lemmas.IsamLink
import Verif.Lemmas.Iso
import Verif.Lemmas.Locks
import Verif.Lemmas.Mapping
import Verif.Lemmas.MappingExtract
import Verif.Lemmas.Minimiser
import Verif.Lemmas.Parameters
import Verif.Lemmas.ParametersValid
import Verif.Lemmas.PclCloud
import Verif.Lemmas.PclDeskew
import Verif.Lemmas.PclPoints
import Verif.Lemmas.Quaternion
import Verif.Lemmas.ResidualDerivatives
import Verif.Lemmas.RosNetwork
import Verif.Lemmas.RotationDerivatives
import Verif.Lemmas.RotationVector
import Verif.Lemmas.Scheduling
import Verif.Lemmas.Stereo
import Verif.Lemmas.StereoDrawing
import Verif.Lemmas.StereoHistory
import Verif.Lemmas.StereoTracker
import Verif.Lemmas.Synchroniser
import Verif.Lemmas.Trajectory
import Verif.Lemmas.TrajectoryAlignment
import Verif.Lemmas.TrajectoryLib
import Verif.Lemmas.Unmarg
import Verif.Lemmas.Wiring
import Verif.Lemmas.WiringSystem
import Verif.Props.BackEnd
import Verif.Props.BackEndHistory
import Verif.Props.BackEndSched
import Verif.Props.Baseline
import Verif.Props.BodyFrames
import Verif.Props.Camera
import Verif.Props.CameraNodes
import Verif.Props.CloudTransform
import Verif.Props.ComputeDistances
import Verif.Props.Correspondences
import Verif.Props.Crash
import Verif.Props.CrashNode
import Verif.Props.DataSets
import Verif.Props.DataSetsPrinted
import Verif.Props.Deadlock
import Verif.Props.Degeneracy
import Verif.Props.DegeneracyFiles
import Verif.Props.EigenCovariance
import Verif.Props.EigenGeometry
import Verif.Props.EigenPolar
import Verif.Props.EigenRates
import Verif.Props.EigenRosArrays
import Verif.Props.EigenRosImu
import Verif.Props.EigenRosMessages
import Verif.Props.EigenRosPose
import Verif.Props.EigenValidity
import Verif.Props.EndToEnd
import Verif.Props.Evaluation
import Verif.Props.FileConverter
import Verif.Props.Formatter
import Verif.Props.FrontEnd
import Verif.Props.FrontEndDeskew
import Verif.Props.FrontEndFailures
import Verif.Props.FrontEndStereo
import Verif.Props.GraphFactors
import Verif.Props.GraphRanges
import Verif.Props.GraphStereo
import Verif.Props.GraphValues
import Verif.Props.IcpLinear
import Verif.Props.IcpNonlinear
import Verif.Props.ImuChain
import Verif.Props.Isam
import Verif.Props.Launch
import Verif.Props.LidarOptions
import Verif.Props.LidarPipeline
import Verif.Props.Locks
import Verif.Props.Mapping
import Verif.Props.MappingGeometry
import Verif.Props.MappingWitness
import Verif.Props.MarginalisedKnown
import Verif.Props.Metrics
import Verif.Props.MotionDeskew
import Verif.Props.MotionState
import Verif.Props.NamedKeys
import Verif.Props.NavigationNodes
import Verif.Props.ParametersAgree
import Verif.Props.ParametersDefaults
import Verif.Props.ParametersEffect
import Verif.Props.ParametersExamples
import Verif.Props.ParametersIterations
import Verif.Props.ParametersStages
import Verif.Props.ParametersValid
import Verif.Props.PclAddFields
import Verif.Props.PclCast
import Verif.Props.PclDeskew
import Verif.Props.PclFields
import Verif.Props.PclFilter
import Verif.Props.PclNormals
import Verif.Props.PclStatistics
import Verif.Props.PclUnitVectors
import Verif.Props.PointTypes
import Verif.Props.QueueSizes
import Verif.Props.Registration
import Verif.Props.RegistrationChain
import Verif.Props.RegistrationCovariance
import Verif.Props.RegistrationDebug
import Verif.Props.RegistrationMessage
import Verif.Props.RegistrationMinimiser
import Verif.Props.RepairTimestamps
import Verif.Props.RobotMotion
import Verif.Props.Robots
import Verif.Props.StereoCost
import Verif.Props.StereoDrawing
import Verif.Props.StereoDrawingNode
import Verif.Props.StereoEquations
import Verif.Props.StereoFilters
import Verif.Props.StereoFinder
import Verif.Props.StereoMask
import Verif.Props.StereoMatcher
import Verif.Props.StereoPoints
import Verif.Props.StereoRange
import Verif.Props.StereoReported
import Verif.Props.StereoScan
import Verif.Props.StereoTracker
import Verif.Props.StereoTrackerWitness
import Verif.Props.Synchroniser
import Verif.Props.TrackStatistics
import Verif.Props.Trajectory
import Verif.Props.TrajectoryAlignment
import Verif.Props.Utilities
import Verif.Props.Values
import Verif.Props.WindowNode
import Verif.Props.Wiring
import Verif.Conformance.EigenExt
import Verif.Conformance.GraphManager
import Verif.Conformance.Pcl
