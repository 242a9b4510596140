import Verif.Core.OMap
import Verif.Core.Outcome
import Verif.Lemmas.Agree
import Verif.Lemmas.Average
import Verif.Lemmas.Collect
import Verif.Lemmas.Detection
import Verif.Lemmas.Dijkstra
import Verif.Lemmas.DijkstraDirect
import Verif.Lemmas.Disk
import Verif.Lemmas.DiskSave
import Verif.Lemmas.Finish
import Verif.Lemmas.FinishRun
import Verif.Lemmas.FromConfig
import Verif.Lemmas.GraphHistory
import Verif.Lemmas.GraphIndex
import Verif.Lemmas.GroupDirect
import Verif.Lemmas.GroupMerge
import Verif.Lemmas.GroupObs
import Verif.Lemmas.GroupPose
import Verif.Lemmas.Groups
import Verif.Lemmas.HandEye
import Verif.Lemmas.Hang
import Verif.Lemmas.HangProgram
import Verif.Lemmas.HangReport
import Verif.Lemmas.HangRun
import Verif.Lemmas.Idle
import Verif.Lemmas.IdleWhole
import Verif.Lemmas.Joined
import Verif.Lemmas.Keypoints
import Verif.Lemmas.Lifetime
import Verif.Lemmas.ListAux
import Verif.Lemmas.Noise
import Verif.Lemmas.NonOverlap
import Verif.Lemmas.NonOverlapPairs
import Verif.Lemmas.NonOverlapPoses
import Verif.Lemmas.ObjectNumbers
import Verif.Lemmas.ObjectPairs
import Verif.Lemmas.Objects
import Verif.Lemmas.ObjectsBuild
import Verif.Lemmas.ObjectsCollection
import Verif.Lemmas.ObjectsMerge
import Verif.Lemmas.ObjectsObs
import Verif.Lemmas.ObjectsUpdate
import Verif.Lemmas.Order
import Verif.Lemmas.Pinhole
import Verif.Lemmas.Pipeline
import Verif.Lemmas.Pixels
import Verif.Lemmas.Placement
import Verif.Lemmas.Pool
import Verif.Lemmas.Program
import Verif.Lemmas.ProgramSame
import Verif.Lemmas.Quaternion
import Verif.Lemmas.QuaternionMean
import Verif.Lemmas.Ransac
import Verif.Lemmas.Reload
import Verif.Lemmas.Reorder
import Verif.Lemmas.ReorderFinish
import Verif.Lemmas.ReorderGroups
import Verif.Lemmas.ReorderMerge
import Verif.Lemmas.ReorderPairs
import Verif.Lemmas.ReorderRun
import Verif.Lemmas.ReportSame
import Verif.Lemmas.ReportShaped
import Verif.Lemmas.Rigid
import Verif.Lemmas.RigidGroup
import Verif.Lemmas.Rigs
import Verif.Lemmas.RigsMerge
import Verif.Lemmas.RigsPairs
import Verif.Lemmas.Rodrigues
import Verif.Lemmas.Rooted
import Verif.Lemmas.Saddle
import Verif.Lemmas.Schedule
import Verif.Lemmas.Scripts
import Verif.Lemmas.StaleMerge
import Verif.Lemmas.Store
import Verif.Lemmas.Structure
import Verif.Lemmas.Svd
import Verif.Lemmas.Trust
import Verif.Lemmas.TrustObjects
import Verif.Lemmas.Units
import Verif.Lemmas.UnitsLength
import Verif.Lemmas.UnitsProgram
import Verif.Lemmas.UnitsRefine
import Verif.Lemmas.UnitsReport
import Verif.Lemmas.UnitsRun
import Verif.Lemmas.UnitsSearch
import Verif.Lemmas.WholeSame
import Verif.Model.Analysis
import Verif.Model.Average
import Verif.Model.Camera
import Verif.Model.Config
import Verif.Model.Crash
import Verif.Model.Detection
import Verif.Model.Disk
import Verif.Model.Display
import Verif.Model.Feedback
import Verif.Model.Figure
import Verif.Model.Finish
import Verif.Model.Folders
import Verif.Model.FromConfig
import Verif.Model.Graph
import Verif.Model.GroupPose
import Verif.Model.Groups
import Verif.Model.HandEye
import Verif.Model.Images
import Verif.Model.InitCamera
import Verif.Model.Keypoints
import Verif.Model.Lifetime
import Verif.Model.NonOverlap
import Verif.Model.Objects
import Verif.Model.Order
import Verif.Model.Output
import Verif.Model.Pipeline
import Verif.Model.Pool
import Verif.Model.Poses
import Verif.Model.Print
import Verif.Model.Program
import Verif.Model.Quaternion
import Verif.Model.Race
import Verif.Model.Ransac
import Verif.Model.Refine
import Verif.Model.ReproErr
import Verif.Model.Residual
import Verif.Model.Rigid
import Verif.Model.Saddle
import Verif.Model.Scripts
import Verif.Model.Start
import Verif.Model.Store
import Verif.Model.Structure
import Verif.Model.Triangulate
import Verif.Model.Whole
import Verif.Props.Agree
import Verif.Props.AgreeExample
import Verif.Props.Analysis
import Verif.Props.AnalysisWhole
import Verif.Props.Average
import Verif.Props.Boards
import Verif.Props.Camera
import Verif.Props.Config
import Verif.Props.ConfigMore
import Verif.Props.Crash
import Verif.Props.CrashExample
import Verif.Props.Detection
import Verif.Props.DetectionImages
import Verif.Props.Disk
import Verif.Props.Display
import Verif.Props.Exact
import Verif.Props.ExactReport
import Verif.Props.Feedback
import Verif.Props.FeedbackExample
import Verif.Props.Figure
import Verif.Props.Finish
import Verif.Props.Folders
import Verif.Props.FromConfig
import Verif.Props.FromConfigExample
import Verif.Props.FromConfigMore
import Verif.Props.Gauge
import Verif.Props.Graph
import Verif.Props.GroupPose
import Verif.Props.Groups
import Verif.Props.HalfTurn
import Verif.Props.HandEye
import Verif.Props.Hang
import Verif.Props.HangExample
import Verif.Props.Idle
import Verif.Props.IdleReport
import Verif.Props.IdleWhole
import Verif.Props.IdleWholeExample
import Verif.Props.Images
import Verif.Props.InitCamera
import Verif.Props.Initial
import Verif.Props.Joined
import Verif.Props.Lifetime
import Verif.Props.Majority
import Verif.Props.Noise
import Verif.Props.NoiseHandEye
import Verif.Props.NoiseObjects
import Verif.Props.NonOverlap
import Verif.Props.Objects
import Verif.Props.Order
import Verif.Props.OrderExample
import Verif.Props.OrderFail
import Verif.Props.Outliers
import Verif.Props.Output
import Verif.Props.OutputObjects
import Verif.Props.Pipeline
import Verif.Props.PixelExample
import Verif.Props.PixelFiles
import Verif.Props.PixelSearch
import Verif.Props.PixelSingle
import Verif.Props.Pixels
import Verif.Props.Place
import Verif.Props.PlaceExample
import Verif.Props.Pool
import Verif.Props.PoolWhole
import Verif.Props.Poses
import Verif.Props.Print
import Verif.Props.Problem
import Verif.Props.Program
import Verif.Props.Quaternion
import Verif.Props.Race
import Verif.Props.Ransac
import Verif.Props.RealExample
import Verif.Props.Recordings
import Verif.Props.RecordingsExample
import Verif.Props.Refine
import Verif.Props.Reorder
import Verif.Props.ReorderErrors
import Verif.Props.ReorderRun
import Verif.Props.Report
import Verif.Props.ReproErr
import Verif.Props.Residual
import Verif.Props.Rigid
import Verif.Props.Rigs
import Verif.Props.RigsExample
import Verif.Props.RigsWhole
import Verif.Props.Saddle
import Verif.Props.SaddleExact
import Verif.Props.SaddleKernel
import Verif.Props.SavedPoses
import Verif.Props.Schedule
import Verif.Props.ScriptsDraw
import Verif.Props.ScriptsExact
import Verif.Props.ScriptsRigs
import Verif.Props.ScriptsStat
import Verif.Props.ScriptsTruth
import Verif.Props.Start
import Verif.Props.Store
import Verif.Props.Triangulate
import Verif.Props.Trust
import Verif.Props.TrustObjects
import Verif.Props.Units
import Verif.Props.Whole
import Verif.Props.WholeExample
import Verif.Props.WholeSame
import Verif.Props.WholeSameExample
import Verif.Spec.Agree
import Verif.Spec.Boards
import Verif.Spec.Crash
import Verif.Spec.Disk
import Verif.Spec.Exact
import Verif.Spec.Feedback
import Verif.Spec.Finish
import Verif.Spec.FromConfig
import Verif.Spec.Graph
import Verif.Spec.Groups
import Verif.Spec.Hang
import Verif.Spec.Idle
import Verif.Spec.Images
import Verif.Spec.Initial
import Verif.Spec.Joined
import Verif.Spec.Lifetime
import Verif.Spec.Majority
import Verif.Spec.Noise
import Verif.Spec.NonOverlap
import Verif.Spec.Objects
import Verif.Spec.Order
import Verif.Spec.Pipeline
import Verif.Spec.Pixels
import Verif.Spec.Poses
import Verif.Spec.Print
import Verif.Spec.Problem
import Verif.Spec.Program
import Verif.Spec.Projection
import Verif.Spec.Ransac
import Verif.Spec.Refine
import Verif.Spec.Reorder
import Verif.Spec.Report
import Verif.Spec.ReproErr
import Verif.Spec.Rigs
import Verif.Spec.Saddle
import Verif.Spec.Schedule
import Verif.Spec.Steady
import Verif.Spec.Store
import Verif.Spec.Structure
import Verif.Spec.Trust
import Verif.Spec.Units
import Verif.Spec.Whole
