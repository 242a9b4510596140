import Verif.Model.Scripts
import Verif.Model.Disk

/-! post_calibration_analysis.py: all analysis scripts on directories of results. -/
namespace Verif.Analysis
open Verif Verif.Folders Verif.Disk Verif.Scripts Verif.Output Verif.Rigid

variable {V Pt Img KP : Type}

/-- The contents of the files. -/
abbrev Stored (V Pt Img KP : Type) : Type := Content V (Pose ℝ) Pt ℝ Img KP

/-- What a script that expects the parameters of the cameras reads; of other content every node is empty, and the
functions applied to it fail (`FileStorage::getNode`). -/
def asCameras : Option (Stored V Pt Img KP) → Outcome (List (CamEntry ℝ (Pose ℝ)))
  | some (.cameras l) => .ok l
  | _ => .throw

def asObjects : Option (Stored V Pt Img KP) → Outcome (List (Nat × List (Option (Column Pt))))
  | some (.objects l) => .ok l
  | _ => .throw

def asPoses : Option (Stored V Pt Img KP) → Outcome (List (Nat × List V))
  | some (.poses l) => .ok l
  | _ => .throw

def asErrors : Option (Stored V Pt Img KP) → Outcome (Nat × List GroupNode)
  | some (.errors e) => .ok e
  | _ => .throw

/-- Everything shown or printed for one directory. -/
structure Shown (Pt : Type) where
  printed : Printed
  smallCameras : List (List (Vec3 ℝ × Vec3 ℝ))
  object : List (List Pt)
  cameras : List (List (Vec3 ℝ × Vec3 ℝ))
  boards : List (Nat × List Pt)
  bars : List ℝ

/-- `sequence_path / name`. -/
def inside (p name : Str) : Loc := ⟨(loc p).abs, (loc p).names ++ [name]⟩

/-- display_cam_obj_pose.py:10-55: cameras of half length 0.1, then object 0. -/
noncomputable def camObjPose [SMul (Pose ℝ) Pt] (ofVec : V → Pose ℝ) (d : Disk (Stored V Pt Img KP)) (p : Str) :
    Outcome (List (List (Vec3 ℝ × Vec3 ℝ)) × List (List Pt)) := do
  let cams ← asCameras (d.file (inside p "calibrated_cameras_data.yml".toList))
  let small ← drawnCameras cams 0.1
  let objs ← asObjects (d.file (inside p "calibrated_objects_data.yml".toList))
  let poses ← asPoses (d.file (inside p "calibrated_objects_pose_data.yml".toList))
  let drawn ← drawnObject ofVec objs poses
  pure (small, drawn)

/-- post_calibration_analysis.py:14-34: one directory.  `truthOf` reads the ground truth.  The pictures the scripts
save are left out: they are not read. -/
noncomputable def analyse [SMul (Pose ℝ) Pt] (ofVec : V → Pose ℝ)
    (truthOf : Option (Stored V Pt Img KP) → Outcome (List (Mat4 ℝ × Mat3 ℝ))) (d : Disk (Stored V Pt Img KP)) (p : Str) :
    Outcome (Shown Pt) := do
  analysisInputs d p
  let cams ← asCameras (d.file (inside p "calibrated_cameras_data.yml".toList))
  let truth ← truthOf (d.file ⟨(loc p).abs, (loc p).parent.names ++ ["GroundTruth.yml".toList]⟩)
  let printed ← poseErrors cams truth
  let co ← camObjPose ofVec d p
  let big ← drawnCameras cams 0.5
  let objs ← asObjects (d.file (inside p "calibrated_objects_data.yml".toList))
  let boards ← drawnBoards objs
  let errs ← asErrors (d.file (inside p "reprojection_error_data.yml".toList))
  let bars ← errorStatistic errs
  pure ⟨printed, co.1, co.2, big, boards, bars⟩

/-- post_calibration_analysis.py:12-34: all directories, in order; the first that fails ends the script. -/
noncomputable def analyseAll [SMul (Pose ℝ) Pt] (ofVec : V → Pose ℝ)
    (truthOf : Option (Stored V Pt Img KP) → Outcome (List (Mat4 ℝ × Mat3 ℝ))) (d : Disk (Stored V Pt Img KP)) (ps : List Str) :
    Outcome (List (Shown Pt)) := each (analyse ofVec truthOf d) ps

end Verif.Analysis
