import Verif.Model.Pipeline
import Verif.Model.Output
import Verif.Model.Images
import Verif.Model.ReproErr
import Verif.Model.Refine

/-!
The end of calibrate.cpp: the final object poses and refinements (calibrate.cpp:51-61) and the reports (63-84).
-/
namespace Verif.Finish
open Structure Objects Groups GroupPose NonOverlap Pipeline

variable {V G Pt P Path Img K : Type}

/-- calibrate.cpp:59-61: the last refinement, if the intrinsics are not fixed; tables and object poses. -/
def lastRefine [Group G] [SMul G Pt] (n : Numerics V G) (fix : Int) (bpts : List (List Pt)) (st : State G Pt P)
    (op : OMap (Nat × Nat) (OMap Nat V)) : Outcome (State G Pt P × OMap (Nat × Nat) (OMap Nat V)) :=
  if fix = 0 then do
    let st ← refineAll n 6 bpts st
    pure (st, refinePoses (n.inGroup 6) op)
  else .ok (st, op)

/-- calibrate.cpp:51-61: `estimatePoseAllObjects`, `computeAllObjPoseInCameraGroup`,
`refineAllCameraGroupAndObjects`, and the last refinement. -/
def finalStage [Group G] [SMul G Pt] (n : Numerics V G) (fix : Int) (bpts : List (List Pt)) (st : State G Pt P) :
    Outcome (State G Pt P × OMap (Nat × Nat) (OMap Nat V)) := do
  let st1 ← refineAll n 5 bpts st
  lastRefine n fix bpts st1
    (refinePoses (n.inGroup 5) (objectPoses n.toVec n.avgV st.t st.oo (n.objPose 5)))

/-- calibrate.cpp:20-61. -/
def run [Group G] [SMul G Pt] (n : Numerics V G) (fix : Int) (bpts : List (List Pt))
    (s : Store P Path) (obs : List (BoardObs P)) :
    Outcome (State G Pt P × OMap (Nat × Nat) (OMap Nat V)) := do
  let st ← overlapping n bpts s obs
  let pp ← nonOverlapping n st
  let st ← afterMerge n bpts s obs pp st
  let st ← mergeGroups2 n s pp st
  finalStage n fix bpts st

/-! ### The reports -/

/-- What the reports are made of besides the tables. -/
structure Env (V G Pt K Path Img : Type) where
  /-- `RVecT2Proj` -/
  ofVec : V → G
  /-- `distortion_model_` -/
  model : Nat → Int
  /-- `cv::projectPoints` with the intrinsics of a camera -/
  projBrown : Nat → G → List Pt → Outcome (List (ℝ × ℝ))
  /-- `cv::fisheye::projectPoints` -/
  projKannala : Nat → G → List Pt → Outcome (List (ℝ × ℝ))
  /-- the cameras -/
  cams : List (Output.CamData K)
  /-- six zeros -/
  zero : V
  /-- `color_` of the objects -/
  colour : Nat → Int × Int × Int
  /-- `cv::imread` -/
  imread : Path → Option Img
  emptyPath : Path
  /-- `save_path_` -/
  save : Folders.Str
  /-- `save_detect_`, `save_repro_` -/
  saveDetect : Int
  saveRepro : Int
  /-- `group_pose_` of the object observations before the last refinement -/
  gp : Nat → V
  /-- pose of an object observation in its camera, as saved -/
  camPose : Nat → V

/-- The tables as seen by the reports. -/
def scene (en : Env V G Pt K Path Img) (r : State G Pt (ℝ × ℝ) × OMap (Nat × Nat) (OMap Nat V)) :
    Output.Scene V G Pt :=
  { objs := r.1.objs, oo := r.1.oo, t := r.1.t, op := r.2, ofVec := en.ofVec, model := en.model
    projBrown := en.projBrown, projKannala := en.projKannala }

/-- McCalib.cpp:1866-1869: one group. -/
noncomputable def logGroup [Group G] [SMul G Pt] (sc : Output.Scene V G Pt) (acc : List (List ReproErr.GroupLine))
    (e : Nat × CamGroup G) : Outcome (List (List ReproErr.GroupLine)) := do
  let ls ← ReproErr.reproErrorCameraGroup sc e.2
  pure (acc ++ [ls])

/-- McCalib.cpp:1866-1869 `reproErrorAllCamGroup`: the lines logged, per group. -/
noncomputable def reproErrorAllCamGroup [Group G] [SMul G Pt] (sc : Output.Scene V G Pt) :
    Outcome (List (List ReproErr.GroupLine)) :=
  Outcome.foldlM (logGroup sc) [] sc.t.groups

/-- McCalib.cpp:2075-2078: one camera. -/
noncomputable def detectCam (en : Env V G Pt K Path Img) (sc : Output.Scene V G Pt) (frames : OMap Nat (FrameRec Path))
    (acc : List (List (Images.Written Img))) (c : Nat) : Outcome (List (List (Images.Written Img))) := do
  let w ← Images.saveDetectionImages sc en.colour en.imread en.emptyPath en.save frames c
  pure (acc ++ [w])

/-- calibrate.cpp:67-68, McCalib.cpp:2075-2078: the images written, per camera. -/
noncomputable def detectAll (en : Env V G Pt K Path Img) (sc : Output.Scene V G Pt) (frames : OMap Nat (FrameRec Path)) :
    Outcome (List (List (Images.Written Img))) :=
  if en.saveDetect = 1 then Outcome.foldlM (detectCam en sc frames) [] (List.range en.cams.length) else .ok []

/-- McCalib.cpp:1995-1998: one camera. -/
noncomputable def reproCam [Group G] (en : Env V G Pt K Path Img) (sc : Output.Scene V G Pt) (gp : Nat → V)
    (frames : OMap Nat (FrameRec Path)) (acc : List (List (Images.Written Img))) (c : Nat) :
    Outcome (List (List (Images.Written Img))) := do
  let w ← Images.saveReprojectionImages sc gp en.imread en.emptyPath en.save frames c
  pure (acc ++ [w])

/-- calibrate.cpp:69-70, McCalib.cpp:1995-1998. -/
noncomputable def reproAll [Group G] (en : Env V G Pt K Path Img) (sc : Output.Scene V G Pt) (gp : Nat → V)
    (frames : OMap Nat (FrameRec Path)) : Outcome (List (List (Images.Written Img))) :=
  if en.saveRepro = 1 then Outcome.foldlM (reproCam en sc gp frames) [] (List.range en.cams.length) else .ok []

/-- What a run leaves behind. -/
structure Reports (V G Pt K Img : Type) where
  log : List (List ReproErr.GroupLine)
  detections : List (List (Images.Written Img))
  reprojections : List (List (Images.Written Img))
  cameras : List (Output.CamEntry K G)
  objects : List (Nat × List (Option (Output.Column Pt)))
  poses : List (Nat × List V)
  errors : Nat × List Output.GroupNode
  average : Option ℝ

/-- calibrate.cpp:63-82: the reports, in this order; `saveDetectedKeypoints` (83) is in `Model/Keypoints`. The poses
that `updateObjObsPose` gives to the object observations at the end of the last refinement (McCalib.cpp:1885-1886,
2357-2359) are computed here. -/
noncomputable def report [Zero K] [One K] [Group G] [SMul G Pt] (en : Env V G Pt K Path Img) (bpts : List (List Pt))
    (frames : OMap Nat (FrameRec Path)) (r : State G Pt (ℝ × ℝ) × OMap (Nat × Nat) (OMap Nat V)) :
    Outcome (Reports V G Pt K Img) := do
  let sc := scene en r
  let gp ← Images.updateAll sc en.zero en.gp
  let log ← reproErrorAllCamGroup sc
  let det ← detectAll en sc frames
  let rep ← reproAll en sc gp frames
  let cams ← Output.saveCamerasParams en.cams r.1.t.groups
  let objs ← Output.save3DObj bpts r.1.objs
  let errs ← Output.saveReprojectionError sc
  let avg ← Output.computeAvgReprojectionError sc
  pure { log := log, detections := det, reprojections := rep, cameras := cams, objects := objs
         poses := Output.save3DObjPose r.1.objs r.1.oo en.camPose, errors := errs, average := avg }

end Verif.Finish
