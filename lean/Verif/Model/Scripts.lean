import Verif.Model.Output
import Verif.Lemmas.RigidGroup
import Mathlib.Analysis.SpecialFunctions.Trigonometric.Inverse

/-!
Model of the scripts that read the result files (`python_utils`).  A node that is missing, or an empty matrix, reads
as `None`; taking its shape, a slice or a mean then raises an exception (`throw`).  As in `Model/Output`, a key
`frame_<i>` is represented by the number, and of equal keys the first is read.  `numpy` computes with exact reals;
a not-a-number is `none`.  Windows and image files are not modelled, only what is drawn.
-/
namespace Verif.Scripts
open Output Rigid

variable {G Pt V : Type}

/-- An exception if there is nothing. -/
def orThrow {α : Type} : Option α → Outcome α
  | some a => .ok a
  | none => .throw

/-- A Python loop that appends to a list. -/
def collect {α β : Type} (f : α → Outcome β) (acc : List β) (a : α) : Outcome (List β) := do
  let b ← f a
  pure (acc ++ [b])

/-- The whole loop. -/
def each {α β : Type} (f : α → Outcome β) (l : List α) : Outcome (List β) := Outcome.foldlM (collect f) [] l

/-- `np.mean` of a list that is not empty. -/
noncomputable def npMean (l : List ℝ) : ℝ := l.sum / l.length

/-! ### compute_error_statistic.py -/

/-- compute_error_statistic.py:22-26 `verify_num_camera_groups`. -/
def verifyNumCameraGroups (n : Nat) : Outcome Unit := if n = 1 then .ok () else .throw

/-- compute_error_statistic.py:58-69: the mean of the errors of a camera; its colour is one of a hundred
(11-19, 42). -/
noncomputable def cameraError (fn : FrameNode) (c : Nat) : Outcome ℝ := do
  let e ← orThrow (fn.cams.find? fun e => e.1 == c)
  if e.2.length = 0 then .throw
  else if c < 100 then pure (npMean e.2)
  else .throw

/-- compute_error_statistic.py:53-75: one frame of the list (of the heights, line 71). -/
noncomputable def frameError (gn : GroupNode) (f : Nat) : Outcome ℝ := do
  let fn ← orThrow (gn.frames.find? fun n => n.frame == f)
  if fn.cameraList.length = 0 then .throw
  else do
    let means ← each (cameraError fn) fn.cameraList
    pure (npMean means)

/-- compute_error_statistic.py:41-77 `compute_error_statistic`: the heights of the bars, one per frame. -/
noncomputable def errorStatistic (file : Nat × List GroupNode) : Outcome (List ℝ) := do
  verifyNumCameraGroups file.1
  let gn ← orThrow (file.2.find? fun n => n.group == 0)
  if gn.frameList.length = 0 then .throw
  else each (frameError gn) gn.frameList

/-! ### compute_pose_error_vs_gt.py -/

/-- What is read for a camera: rotation, translation, matrix of intrinsics. -/
structure View where
  rot : Mat3 ℝ
  trans : Vec3 ℝ
  intr : Mat3 ℝ

/-- `cam_pose[0:3, 0:3]`, `cam_pose[0:3, 3]` (compute_pose_error_vs_gt.py:101-102, 140-141). -/
def view (pose : Mat4 ℝ) (intr : Mat3 ℝ) : View := ⟨projRot pose, projTrans pose, intr⟩

/-- `np.arccos`. -/
noncomputable def npArccos (x : ℝ) : Option ℝ := if -1 ≤ x ∧ x ≤ 1 then some (Real.arccos x) else none

/-- `np.degrees`. -/
noncomputable def npDegrees (x : ℝ) : ℝ := x * (180 / Real.pi)

/-- compute_pose_error_vs_gt.py:44: the cosine of the angle between two rotations. -/
noncomputable def cosine (est gt : Mat3 ℝ) : ℝ := 0.5 * ((est⁻¹ * gt).trace - 1)

/-- compute_pose_error_vs_gt.py:43-65; a singular matrix has no inverse. -/
noncomputable def rotationError (est gt : Mat3 ℝ) : Outcome (Option ℝ) :=
  if est.det = 0 then .throw
  else .ok <| match npArccos (cosine est gt) with
    | some a => some (npDegrees a)
    | none => (npArccos (1 - |1 - cosine est gt|)).map npDegrees

/-- compute_pose_error_vs_gt.py:42. -/
noncomputable def translationError (est gt : Vec3 ℝ) : ℝ :=
  Real.sqrt ((gt 0 - est 0) ^ 2 + (gt 1 - est 1) ^ 2 + (gt 2 - est 2) ^ 2)

/-- compute_pose_error_vs_gt.py:37-41: an entry of the matrix of intrinsics. -/
noncomputable def entryError (est gt : Mat3 ℝ) (i j : Fin 3) : ℝ := Real.sqrt ((est i j - gt i j) ^ 2)

/-- The errors of one camera (compute_pose_error_vs_gt.py:23-28). -/
structure Errors where
  rot : Option ℝ
  trans : ℝ
  fx : ℝ
  fy : ℝ
  u0 : ℝ
  v0 : ℝ

/-- compute_pose_error_vs_gt.py:30-67: one camera; ground truth, estimate. -/
noncomputable def cameraErrors (e : View × View) : Outcome Errors := do
  let r ← rotationError e.2.rot e.1.rot
  pure { rot := r, trans := translationError e.2.trans e.1.trans
         fx := entryError e.2.intr e.1.intr 0 0, fy := entryError e.2.intr e.1.intr 1 1
         u0 := entryError e.2.intr e.1.intr 0 2, v0 := entryError e.2.intr e.1.intr 1 2 }

/-- `np.mean`, also of nothing or of not-a-numbers. -/
noncomputable def npMean? (l : List (Option ℝ)) : Option ℝ :=
  if l.length = 0 then none else (l.mapM id).map npMean

/-- What is printed (compute_pose_error_vs_gt.py:75-80; the last line, 81, is the mean of two of these). -/
structure Printed where
  trans : Option ℝ
  rot : Option ℝ
  fx : Option ℝ
  fy : Option ℝ
  u0 : Option ℝ
  v0 : Option ℝ

/-- compute_pose_error_vs_gt.py:69-74. -/
noncomputable def printed (l : List Errors) : Printed :=
  { trans := npMean? (l.map fun e => some e.trans), rot := npMean? (l.map fun e => e.rot)
    fx := npMean? (l.map fun e => some e.fx), fy := npMean? (l.map fun e => some e.fy)
    u0 := npMean? (l.map fun e => some e.u0), v0 := npMean? (l.map fun e => some e.v0) }

/-- `fs.getNode("nb_camera").real()`: 0 if missing. -/
def numCameras (file : List (CamEntry ℝ G)) : Nat :=
  (file.findSome? fun
    | .nbCamera n => some n
    | .camera _ _ => none).getD 0

/-- compute_pose_error_vs_gt.py:98-106: one camera of the parameter file. -/
def readCamera (file : List (CamEntry ℝ (Pose ℝ))) (c : Nat) : Outcome View := do
  let n ← orThrow (lookup file c)
  pure (view n.pose.1 n.matrix)

/-- compute_pose_error_vs_gt.py:84-114 `read_est_results`. -/
def readEstimate (file : List (CamEntry ℝ (Pose ℝ))) : Outcome (List View) :=
  each (readCamera file) (List.range (numCameras file))

/-- compute_pose_error_vs_gt.py:137: the axes of the ground truth point the other way. -/
def flipYZ : Mat4 ℝ := !![1, 0, 0, 0; 0, -1, 0, 0; 0, 0, -1, 0; 0, 0, 0, 1]

/-- compute_pose_error_vs_gt.py:132-145: one camera of the ground truth: `P_<i+1>`, `K_<i+1>`; a singular matrix has
no inverse. -/
noncomputable def readTruth (e : Mat4 ℝ × Mat3 ℝ) : Outcome View :=
  if (flipYZ * e.1 * flipYZ).det = 0 then .throw else .ok (view (flipYZ * e.1 * flipYZ)⁻¹ e.2)

/-- compute_pose_error_vs_gt.py:151-184 `compute_pose_error_vs_gt`; the loop over cameras (14-81) uses the
same index in all lists. -/
noncomputable def poseErrors (file : List (CamEntry ℝ (Pose ℝ))) (truth : List (Mat4 ℝ × Mat3 ℝ)) :
    Outcome Printed := do
  let est ← readEstimate file
  let gt ← each readTruth truth
  if est.length = gt.length then do
    let l ← each cameraErrors (gt.zip est)
    pure (printed l)
  else .throw

/-! ### display_cam_obj_pose.py -/

/-- Every 50th number below `n` (display_cam_obj_pose.py:41-42: `range(0, n, 50)`). -/
def every50 (n : Nat) : List Nat := (List.range ((n + 49) / 50)).map (50 * ·)

/-- display_cam_obj_pose.py:43-45: the points of the object for one column. -/
def placePoints [SMul G Pt] (ofVec : V → G) (poses : List V) (pts : List Pt) (i : Nat) : Outcome (List Pt) := do
  let v ← orThrow poses[i]?
  pure (pts.map (ofVec v • ·))

/-- display_cam_obj_pose.py:29-53: the points drawn: one list per pose shown.  `objFile`, `poseFile` are the files of
`save3DObj`, `save3DObjPose`. -/
def drawnObject [SMul G Pt] (ofVec : V → G) (objFile : List (Nat × List (Option (Column Pt))))
    (poseFile : List (Nat × List V)) : Outcome (List (List Pt)) := do
  let cols ← orThrow (objFile.find? fun e => e.1 == 0)
  let poses ← orThrow (poseFile.find? fun e => e.1 == 0)
  if cols.2.length = 0 ∨ poses.2.length = 0 then .throw
  else each (placePoints ofVec poses.2 (cols.2.filterMap fun c => c.map fun c => c.pt)) (every50 poses.2.length)

/-! ### display_calib_object.py -/

/-- display_calib_object.py:11-25: `np.unique` of the board row, and the points of each of these boards. -/
def drawnBoards (objFile : List (Nat × List (Option (Column Pt)))) : Outcome (List (Nat × List Pt)) := do
  let cols ← orThrow (objFile.find? fun e => e.1 == 0)
  if cols.2.length = 0 then .throw
  else
    let cs := cols.2.filterMap id
    let boards := (cs.map fun c => c.board).mergeSort.dedup
    pure (boards.map fun b => (b, (cs.filter fun c => c.board == b).map fun c => c.pt))

/-! ### display_calib_cameras.py -/

/-- display_calib_cameras.py:206-224: the corners of the body (1-12) and the axes (13-16) of a camera of half length
`r`, in its own frame. -/
noncomputable def bodyPoints (r : ℝ) : List (Vec3 ℝ) :=
  [![r, -r, -2 * r], ![r, r, -2 * r], ![-r, -r, -2 * r], ![-r, r, -2 * r],
   ![r, -r, 2 * r], ![r, r, 2 * r], ![-r, -r, 2 * r], ![-r, r, 2 * r],
   ![1.5 * r, -1.5 * r, 3 * r], ![1.5 * r, 1.5 * r, 3 * r], ![-1.5 * r, -1.5 * r, 3 * r], ![-1.5 * r, 1.5 * r, 3 * r],
   ![0, 0, 0], ![0, 0, 2 * r], ![0, 2 * r, 0], ![2 * r, 0, 0]]

/-- display_calib_cameras.py:227-242. -/
noncomputable def placedBody (R : Mat3 ℝ) (T : Vec3 ℝ) (r : ℝ) : List (Vec3 ℝ) := (bodyPoints r).map (transformPt R T)

/-- One call of `ax.plot`: the numbers (from 0) of the points whose x, y and z are used at the two ends. -/
structure Plot where
  x : Nat × Nat
  y : Nat × Nat
  z : Nat × Nat

/-- A call that joins two points. -/
def Plot.edge (a b : Nat) : Plot := ⟨(a, b), (a, b), (a, b)⟩

/-- display_calib_cameras.py:20-185: the calls, in order. -/
def plots : List Plot :=
  [.edge 0 1, .edge 0 2, ⟨(3, 2), (3, 2), (3, 3)⟩, .edge 1 3,
   .edge 4 5, .edge 4 6, .edge 7 6, .edge 5 7,
   .edge 0 4, .edge 1 5, .edge 2 6, .edge 3 7,
   .edge 8 9, .edge 8 10, .edge 11 10, .edge 9 11,
   .edge 4 8, .edge 5 9, .edge 6 10, ⟨(7, 11), (7, 7), (7, 11)⟩,
   .edge 12 13, .edge 12 14, .edge 12 15]

/-- The two ends drawn by a call. -/
def ends (pts : List (Vec3 ℝ)) (p : Plot) : Outcome (Vec3 ℝ × Vec3 ℝ) := do
  let x1 ← orThrow pts[p.x.1]?
  let x2 ← orThrow pts[p.x.2]?
  let y1 ← orThrow pts[p.y.1]?
  let y2 ← orThrow pts[p.y.2]?
  let z1 ← orThrow pts[p.z.1]?
  let z2 ← orThrow pts[p.z.2]?
  pure (![x1 0, y1 1, z1 2], ![x2 0, y2 1, z2 2])

/-- display_calib_cameras.py:188-246 `add_camera_to_subplot`: the segments drawn. -/
noncomputable def drawnCamera (R : Mat3 ℝ) (T : Vec3 ℝ) (r : ℝ) : Outcome (List (Vec3 ℝ × Vec3 ℝ)) :=
  each (ends (placedBody R T r)) plots

/-- display_calib_cameras.py:258-264, display_cam_obj_pose.py:21-27: one camera of the file. -/
noncomputable def drawnOf (file : List (CamEntry ℝ (Pose ℝ))) (r : ℝ) (c : Nat) :
    Outcome (List (Vec3 ℝ × Vec3 ℝ)) := do
  let n ← orThrow (lookup file c)
  drawnCamera (projRot n.pose.1) (projTrans n.pose.1) r

/-- display_calib_cameras.py:249-264 `display_calib_cameras` (`r` is 0.5; 0.1 in display_cam_obj_pose.py:13-27): the
segments drawn for each camera. -/
noncomputable def drawnCameras (file : List (CamEntry ℝ (Pose ℝ))) (r : ℝ) :
    Outcome (List (List (Vec3 ℝ × Vec3 ℝ))) := each (drawnOf file r) (List.range (numCameras file))

/-! ### utils.py -/

/-- utils.py:5-12 `axis_equal_3d`: the new limits of one axis; `all` are the limits of the three axes. -/
noncomputable def axisEqual (all : Fin 3 → ℝ × ℝ) (d : Fin 3) : ℝ × ℝ :=
  let size := max (max |(all 0).2 - (all 0).1| |(all 1).2 - (all 1).1|) |(all 2).2 - (all 2).1|
  let centre := ((all d).1 + (all d).2) / 2
  (centre - size / 2, centre + size / 2)

end Verif.Scripts
