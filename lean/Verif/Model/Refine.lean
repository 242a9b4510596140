import Verif.Model.Residual
import Verif.Model.Ransac
import Verif.Model.Groups

/-!
Model of the five functions that build a Ceres problem and run the solver.  The parameter blocks live in
an environment addressed by `Param`; a cost term is a function of the environment.  The solver itself is a
parameter: any function of the problem and the environment (see `Solver.Frame` for its contract).  The
loss (`HuberLoss(1.0)` for every term) and the solver options are part of the solver.
-/
namespace Verif.Refine
open Residual Rigid Objects Groups

/-- The parameter blocks of the program. -/
inductive Param where
  /-- `BoardObs::pose_` of a board observation -/
  | boardObs (i : Nat)
  /-- `Object3DObs::pose_` of an object observation -/
  | objObs (i : Nat)
  /-- `CameraGroup::relative_camera_pose_[cam]` -/
  | camPose (group cam : Nat)
  /-- `CameraGroupObs::object_pose_[obj]` of the observation of a group in a frame -/
  | objPose (group frame obj : Nat)
  /-- `Object3D::relative_board_pose_[board]` -/
  | boardPose (obj board : Nat)
  /-- `Camera::intrinsics_` -/
  | intr (cam : Nat)
  deriving DecidableEq, Repr

/-- Values of all blocks. -/
abbrev Env := Param → Block

/-- A residual block: the cost as a function of the environment. -/
abbrev Term := Env → Option (ℝ × ℝ)

/-- `ceres::Solve`. -/
abbrev Solver := List Term → Env → Env

/-- Two environments that differ at most in one block. -/
def AgreeOff (k : Param) (e e' : Env) : Prop := ∀ k', k' ≠ k → e k' = e' k'

/-- A block on which no term depends. -/
def NoInfluence (k : Param) (pb : List Term) : Prop := ∀ t ∈ pb, ∀ e e', AgreeOff k e e' → t e = t e'

/-- Contract of `ceres::Solve`: a block that no residual depends on (in particular one that is not part of
the problem) is returned as it was; its Jacobian is zero, so every step of the solver is zero in it. -/
def Solver.Frame (solve : Solver) : Prop :=
  ∀ pb e k, NoInfluence k pb → solve pb e k = e k

/-- What the functions below read besides the blocks. -/
structure Scene (G : Type) where
  /-- model points of the boards -/
  bpts : List (List (Vec3 ℝ))
  /-- board observations and their `valid_` -/
  obs : List (Ransac.Estimated (ℝ × ℝ) Unit)
  /-- `Camera::board_observations_` -/
  camBoards : Nat → List Nat
  /-- `distortion_model_` of the cameras -/
  model : Nat → Int
  objs : OMap Nat (Object G (Vec3 ℝ))
  oo : List (ObjObs (ℝ × ℝ))
  t : GroupTables G

/-- The members of a cost function: pixel and point. -/
def mkObs (q : ℝ × ℝ) (p : Vec3 ℝ) : Obs := ⟨q.1, q.2, p 0, p 1, p 2⟩

variable {G : Type}

/-! ### Camera::refineIntrinsicCalibration -/

/-- Camera.cpp:281-290: the term of one point of a board observation. -/
noncomputable def intrinsicTerm (rot : RotatePoint) (sc : Scene G) (c i : Nat) (bo : BoardObs (ℝ × ℝ))
    (bp : List (Vec3 ℝ)) (acc : List Term) (k : Nat) : Outcome (List Term) := do
  let id ← Outcome.idx bo.ids k
  let p ← Outcome.idx bp id
  let q ← Outcome.idx bo.pts k
  pure (acc ++ [fun e => boardIntrinsics rot (mkObs q p) (sc.model c) (e (.boardObs i)) (e (.intr c))])

/-- Camera.cpp:272-294: one board observation of the camera. -/
noncomputable def intrinsicTerms (rot : RotatePoint) (sc : Scene G) (c : Nat) (acc : List Term) (i : Nat) :
    Outcome (List Term) := do
  let bo ← Outcome.idx sc.obs i
  if bo.valid then
    let bp ← Outcome.idx sc.bpts bo.obs.board
    Outcome.foldlM (intrinsicTerm rot sc c i bo.obs bp) acc (List.range bo.obs.ids.length)
  else pure acc

/-- Camera.cpp:268-305 `refineIntrinsicCalibration` of camera `c`. -/
noncomputable def refineIntrinsic (rot : RotatePoint) (solve : Solver) (sc : Scene G) (e : Env) (c : Nat) :
    Outcome Env := do
  let pb ← Outcome.foldlM (intrinsicTerms rot sc c) [] (sc.camBoards c)
  pure (solve pb e)

/-! ### Object3D::refineObject -/

/-- Object3D.cpp:196-209: the term of one point. -/
noncomputable def objectTerm (rot : RotatePoint) (sc : Scene G) (e0 : Env) (o : Object G (Vec3 ℝ)) (i : Nat)
    (bo : BoardObs (ℝ × ℝ)) (bp : List (Vec3 ℝ)) (acc : List Term) (k : Nat) : Outcome (List Term) := do
  let id ← Outcome.idx bo.ids k
  let p ← Outcome.idx bp id
  let q ← Outcome.idx bo.pts k
  pure (acc ++ [fun e => objectRef rot (mkObs q p) (consts (e0 (.intr bo.cam)))
    (if o.refBoard = bo.board then false else true) (sc.model bo.cam)
    (e (.objObs i)) (e (.boardPose o.id bo.board))])

/-- Object3D.cpp:168-214: one board observation of an object observation. -/
noncomputable def objectBoardTerms (rot : RotatePoint) (sc : Scene G) (e0 : Env) (o : Object G (Vec3 ℝ))
    (i : Nat) (acc : List Term) (j : Nat) : Outcome (List Term) := do
  let bo ← Outcome.idx sc.obs j
  if bo.valid then
    let bp ← Outcome.idx sc.bpts bo.obs.board
    Outcome.foldlM (objectTerm rot sc e0 o i bo.obs bp) acc (List.range bo.obs.ids.length)
  else pure acc

/-- Object3D.cpp:165-216: one object observation. -/
noncomputable def objectTerms (rot : RotatePoint) (sc : Scene G) (e0 : Env) (o : Object G (Vec3 ℝ))
    (acc : List Term) (i : Nat) : Outcome (List Term) := do
  let oo ← Outcome.idx sc.oo i
  Outcome.foldlM (objectBoardTerms rot sc e0 o i) acc oo.boards

/-- The observations of an object (`Object3D::object_observations_`, filled together with the table). -/
def obsOfObject (sc : Scene G) (id : Nat) : List Nat :=
  (List.range sc.oo.length).filter fun i => (sc.oo[i]?).any fun x => x.obj == id

/-- Object3D.cpp:160-223 `refineObject`, the optimisation (the update of the points is
`Objects.updateObjectPts`). -/
noncomputable def refineObject (rot : RotatePoint) (solve : Solver) (sc : Scene G) (e : Env)
    (o : Object G (Vec3 ℝ)) : Outcome Env := do
  let pb ← Outcome.foldlM (objectTerms rot sc e o) [] (obsOfObject sc o.id)
  pure (solve pb e)

/-- McCalib.cpp:1014-1017 `refineAllObject3D`. -/
noncomputable def refineAllObjects (rot : RotatePoint) (solve : Solver) (sc : Scene G) (e : Env) : Outcome Env :=
  Outcome.foldlM (fun e (x : Nat × Object G (Vec3 ℝ)) => refineObject rot solve sc e x.2) e sc.objs

/-! ### CameraGroup -/

/-- CameraGroup.cpp:196-210, 371-385, 489-503: the object observations of a group with their frames: those of
each observation of the group in each of its frames. -/
def groupViews (t : GroupTables G) (g : CamGroup G) : List (Nat × Nat) :=
  (OMap.keys g.frames).flatMap fun f =>
    ((OMap.get? t.frameGroups f).getD []).flatMap fun gi =>
      if g.id = gi then ((OMap.get? t.groupObs (gi, f)).getD []).map fun i => (f, i) else []

/-- CameraGroup.cpp:233-257: the term of one point in `refineCameraGroup`. -/
noncomputable def groupTerm (rot : RotatePoint) (sc : Scene G) (e0 : Env) (g : CamGroup G) (f : Nat)
    (o : Object G (Vec3 ℝ)) (x : ObjObs (ℝ × ℝ)) (acc : List Term) (k : Nat) : Outcome (List Term) := do
  let id ← Outcome.idx x.ids k
  let p ← Outcome.idx o.pts id
  let q ← Outcome.idx x.pts k
  pure (acc ++ [fun e => groupRef rot (mkObs q p) (consts (e0 (.intr x.cam)))
    (if g.refCam = x.cam then false else true) (sc.model x.cam)
    (e (.camPose g.id x.cam)) (e (.objPose g.id f x.obj))])

/-- CameraGroup.cpp:210-261: one object observation. -/
noncomputable def groupTerms (rot : RotatePoint) (sc : Scene G) (e0 : Env) (g : CamGroup G)
    (acc : List Term) (v : Nat × Nat) : Outcome (List Term) := do
  let x ← Outcome.idx sc.oo v.2
  let o ← Outcome.deref (OMap.get? sc.objs x.obj)
  Outcome.foldlM (groupTerm rot sc e0 g v.1 o x) acc (List.range x.ids.length)

/-- CameraGroup.cpp:191-279 `refineCameraGroup`. -/
noncomputable def refineCameraGroup (rot : RotatePoint) (solve : Solver) (sc : Scene G) (e : Env)
    (g : CamGroup G) : Outcome Env := do
  let pb ← Outcome.foldlM (groupTerms rot sc e g) [] (groupViews sc.t g)
  pure (solve pb e)

/-- CameraGroup.cpp:411-452: the term of one point in `refineCameraGroupAndObjects`. -/
noncomputable def groupObjectTerm (rot : RotatePoint) (sc : Scene G) (e0 : Env) (g : CamGroup G) (f : Nat)
    (o : Object G (Vec3 ℝ)) (x : ObjObs (ℝ × ℝ)) (acc : List Term) (k : Nat) : Outcome (List Term) := do
  let id ← Outcome.idx x.ids k
  let q ← Outcome.idx x.pts k
  let b ← Outcome.idx o.o2b id
  let bp ← Outcome.idx sc.bpts b.1
  let p ← Outcome.idx bp b.2
  pure (acc ++ [fun e => groupObjectRef rot (mkObs q p) (consts (e0 (.intr x.cam)))
    (if g.refCam = x.cam then false else true) (if o.refBoard = b.1 then false else true) (sc.model x.cam)
    (e (.camPose g.id x.cam)) (e (.objPose g.id f x.obj)) (e (.boardPose x.obj b.1))])

/-- CameraGroup.cpp:385-457: one object observation. -/
noncomputable def groupObjectTerms (rot : RotatePoint) (sc : Scene G) (e0 : Env) (g : CamGroup G)
    (acc : List Term) (v : Nat × Nat) : Outcome (List Term) := do
  let x ← Outcome.idx sc.oo v.2
  let o ← Outcome.deref (OMap.get? sc.objs x.obj)
  Outcome.foldlM (groupObjectTerm rot sc e0 g v.1 o x) acc (List.range x.ids.length)

/-- CameraGroup.cpp:366-474 `refineCameraGroupAndObjects`. -/
noncomputable def refineGroupAndObjects (rot : RotatePoint) (solve : Solver) (sc : Scene G) (e : Env)
    (g : CamGroup G) : Outcome Env := do
  let pb ← Outcome.foldlM (groupObjectTerms rot sc e g) [] (groupViews sc.t g)
  pure (solve pb e)

/-- CameraGroup.cpp:520-561: the term of one point in `refineCameraGroupAndObjectsAndIntrinsics`. -/
noncomputable def groupIntrinsicTerm (rot : RotatePoint) (sc : Scene G) (g : CamGroup G) (f : Nat)
    (o : Object G (Vec3 ℝ)) (x : ObjObs (ℝ × ℝ)) (acc : List Term) (k : Nat) : Outcome (List Term) := do
  let id ← Outcome.idx x.ids k
  let q ← Outcome.idx x.pts k
  let b ← Outcome.idx o.o2b id
  let bp ← Outcome.idx sc.bpts b.1
  let p ← Outcome.idx bp b.2
  pure (acc ++ [fun e => groupObjectIntrinsics rot (mkObs q p)
    (if g.refCam = x.cam then false else true) (if o.refBoard = b.1 then false else true) (sc.model x.cam)
    (e (.camPose g.id x.cam)) (e (.objPose g.id f x.obj)) (e (.boardPose x.obj b.1)) (e (.intr x.cam))])

/-- CameraGroup.cpp:503-566: one object observation. -/
noncomputable def groupIntrinsicTerms (rot : RotatePoint) (sc : Scene G) (g : CamGroup G)
    (acc : List Term) (v : Nat × Nat) : Outcome (List Term) := do
  let x ← Outcome.idx sc.oo v.2
  let o ← Outcome.deref (OMap.get? sc.objs x.obj)
  Outcome.foldlM (groupIntrinsicTerm rot sc g v.1 o x) acc (List.range x.ids.length)

/-- CameraGroup.cpp:483-583 `refineCameraGroupAndObjectsAndIntrinsics`. -/
noncomputable def refineGroupObjectsIntrinsics (rot : RotatePoint) (solve : Solver) (sc : Scene G) (e : Env)
    (g : CamGroup G) : Outcome Env := do
  let pb ← Outcome.foldlM (groupIntrinsicTerms rot sc g) [] (groupViews sc.t g)
  pure (solve pb e)

/-- CameraGroupObs.cpp `updateObjObsPose` writes `Object3DObs::group_pose_`, which is not a block of any
problem; hence it does not appear here.  McCalib.cpp:1876-1878: the groups one after the other. -/
noncomputable def refineAllGroups (rot : RotatePoint) (solve : Solver) (sc : Scene G) (e : Env) : Outcome Env :=
  Outcome.foldlM (fun e (x : Nat × CamGroup G) => refineGroupAndObjects rot solve sc e x.2) e sc.t.groups

/-- McCalib.cpp:2349-2350. -/
noncomputable def refineAllGroupsIntrinsics (rot : RotatePoint) (solve : Solver) (sc : Scene G) (e : Env) :
    Outcome Env :=
  Outcome.foldlM (fun e (x : Nat × CamGroup G) => refineGroupObjectsIntrinsics rot solve sc e x.2) e sc.t.groups

end Verif.Refine

namespace Verif.Refine
open Residual Rigid Objects Groups

variable {G : Type}

/-! ### The workflow, as far as it concerns the blocks -/

/-- Everything between the refinements: the tables at each stage and the poses written into blocks by the
linear methods (PnP, averages, hand-eye, merges).  No function of the program but `setCameraMat` and
`setDistortionVector` writes `intrinsics_`, and these are called from `initializeCalibrationAllCam`
only (McCalib.cpp:662-695, Camera.cpp:237). -/
structure World (G : Type) where
  /-- tables at a stage -/
  scene : Nat → Env → Scene G
  /-- pose blocks at a stage -/
  poses : Nat → Env → Env

/-- New poses, same intrinsics. -/
def World.write (w : World G) (stage : Nat) (e : Env) : Env
  | .intr c => e (.intr c)
  | k => w.poses stage e k

/-- McCalib.cpp:713-716 `refineIntrinsicAndPoseAllCam` for `nCam` cameras. -/
noncomputable def refineAllIntrinsics (rot : RotatePoint) (solve : Solver) (nCam : Nat) (sc : Scene G) (e : Env) :
    Outcome Env :=
  Outcome.foldlM (refineIntrinsic rot solve sc) e (List.range nCam)

/-- McCalib.cpp:662-695 `initializeCalibrationAllCam`: the camera matrix and distortion vector of each
camera, read from a file or computed by OpenCV, are stored by `setIntrinsics`. -/
noncomputable def initStep (model : Nat → Int) (start : Nat → Mat3 ℝ × List ℝ) (e : Env) (c : Nat) : Outcome Env := do
  let I ← Camera.setIntrinsics (model c) (e (.intr c)) (start c).1 (start c).2
  pure (fun k => if k = .intr c then I else e k)

/-- McCalib.cpp:692-693 (677-687): all cameras. -/
noncomputable def initCameras (model : Nat → Int) (start : Nat → Mat3 ℝ × List ℝ) (nCam : Nat) (e : Env) : Outcome Env :=
  Outcome.foldlM (initStep model start) e (List.range nCam)

/-- McCalib.cpp:2085-2092 `initIntrinsic` after `initializeCalibrationAllCam`. -/
noncomputable def initIntrinsic (rot : RotatePoint) (solve : Solver) (fix : Int) (nCam : Nat) (w : World G) (e : Env) :
    Outcome Env :=
  let e := w.write 0 e
  if fix = 0 then refineAllIntrinsics rot solve nCam (w.scene 0 e) e else .ok e

/-- McCalib.cpp:2098-2108 `calibrate3DObjects`. -/
noncomputable def calibrateObjects (rot : RotatePoint) (solve : Solver) (w : World G) (e : Env) : Outcome Env :=
  let e := w.write 1 e
  refineAllObjects rot solve (w.scene 1 e) e

/-- McCalib.cpp:2114-2122, 2128-2143 and calibrate.cpp:36-60: poses are written, then
`refineAllCameraGroupAndObjects` is called. -/
noncomputable def refineStage (rot : RotatePoint) (solve : Solver) (w : World G) (e : Env) (stage : Nat) : Outcome Env :=
  let e := w.write stage e
  refineAllGroups rot solve (w.scene stage e) e

/-- calibrate.cpp:17-60: everything from `initIntrinsic` to the final `refineAllCameraGroupAndObjects`: the
refinements of groups are those of `calibrateCameraGroup` (2), the two calls of `merge3DObjects` (3, 4) and the
final one (5). -/
noncomputable def calibrateBefore (rot : RotatePoint) (solve : Solver) (fix : Int) (nCam : Nat) (w : World G)
    (e : Env) : Outcome Env := do
  let e ← initIntrinsic rot solve fix nCam w e
  let e ← calibrateObjects rot solve w e
  Outcome.foldlM (refineStage rot solve w) e [2, 3, 4, 5]

/-- calibrate.cpp:17-64: the whole workflow. -/
noncomputable def calibrate (rot : RotatePoint) (solve : Solver) (fix : Int) (nCam : Nat) (w : World G) (e : Env) :
    Outcome Env := do
  let e ← calibrateBefore rot solve fix nCam w e
  if fix = 0 then refineAllGroupsIntrinsics rot solve (w.scene 5 e) e else .ok e

end Verif.Refine
