import Verif.Model.Ransac
import Verif.Model.Output

/-!
Model of the reprojection errors computed (and logged) during the workflow: `BoardObs::computeReprojectionError`
(BoardObs.cpp:165-203), `Object3DObs::computeReprojectionError` (Object3DObs.cpp:255-291), `computeReproErrAllBoard`
(McCalib.cpp:722-726), `computeReproErrAllObject` (999-1008), `reproErrorCameraGroup` (CameraGroup.cpp:285-358) and
the end of `initIntrinsic` (McCalib.cpp:2085-2092).

Rounding to `float` is not modelled.
-/
namespace Verif.ReproErr
open Verif Verif.Ransac Verif.Objects Verif.Groups

variable {P2 Pose Pt K : Type}

/-- The projection functions of OpenCV with the parameters of each camera, and the distance of two pixels. -/
structure Projection (P2 Pose Pt K : Type) where
  /-- `distortion_model_` -/
  model : Nat → Int
  /-- `cv::projectPoints` -/
  brown : Nat → Pose → List Pt → Outcome (List P2)
  /-- `cv::fisheye::projectPoints` -/
  kannala : Nat → Pose → List Pt → Outcome (List P2)
  /-- `sqrt(pow(dx, 2) + pow(dy, 2))` -/
  dist : P2 → P2 → K

/-- geometrytools.cpp:755-771 `projectPointsWithDistortion` for camera `c`. -/
def project (pr : Projection P2 Pose Pt K) (c : Nat) (pose : Pose) (ps : List Pt) : Outcome (List P2) :=
  if pr.model c = 0 then pr.brown c pose ps
  else if pr.model c = 1 then pr.kannala c pose ps
  else .ok []

/-- BoardObs.cpp:184-188, Object3DObs.cpp:274-280, CameraGroup.cpp:333-338: one point; number of distances and sum. -/
def errorStep [Add K] (pr : Projection P2 Pose Pt K) (seen repro : List P2) (acc : Nat × K) (j : Nat) :
    Outcome (Nat × K) := do
  let p ← Outcome.idx seen j
  let q ← Outcome.idx repro j
  pure (acc.1 + 1, acc.2 + pr.dist p q)

/-- The loop over the projected points. -/
def errorSum [Add K] [Zero K] (pr : Projection P2 Pose Pt K) (seen repro : List P2) : Outcome (Nat × K) :=
  Outcome.foldlM (errorStep pr seen repro) (0, 0) (List.range repro.length)

/-- BoardObs.cpp:165-188, Object3DObs.cpp:255-280: the points of the ids are projected and compared. -/
def obsError [Add K] [Zero K] (pr : Projection P2 Pose Pt K) (model3d : List Pt) (c : Nat) (pose : Pose)
    (ids : List Nat) (seen : List P2) : Outcome (Nat × K) := do
  let scene ← scenePoints model3d ids
  let repro ← project pr c pose scene
  errorSum pr seen repro

/-- BoardObs.cpp:200-201, Object3DObs.cpp:288-289: the value returned. -/
def result [Div K] [NatCast K] [Zero K] (acc : Nat × K) : K :=
  if 0 < acc.1 then acc.2 / (acc.1 : K) else 0

/-- A warning of BoardObs.cpp:190-196. -/
structure Warning (K : Type) where
  frame : Nat
  board : Nat
  mean : K
  points : Nat
  deriving DecidableEq

/-- McCalib.cpp:723-725 with BoardObs.cpp:190-196: one board observation; the error returned is ignored, a mean
above 10 is logged (0 / 0 is not above 10). -/
def boardErrorStep [Field K] [LinearOrder K] (pr : Projection P2 Pose Pt K) (bpts : List (List Pt)) (acc : List (Warning K))
    (e : Estimated P2 Pose) : Outcome (List (Warning K)) := do
  let m ← Outcome.idx bpts e.obs.board
  let r ← obsError pr m e.obs.cam e.pose e.obs.ids e.obs.pts
  pure (if 0 < r.1 ∧ 10 < r.2 / (r.1 : K) then acc ++ [⟨e.obs.frame, e.obs.board, r.2 / (r.1 : K), r.1⟩] else acc)

/-- McCalib.cpp:722-726 `computeReproErrAllBoard`: the warnings logged. -/
def computeReproErrAllBoard [Field K] [LinearOrder K] (pr : Projection P2 Pose Pt K) (bpts : List (List Pt))
    (est : List (Estimated P2 Pose)) : Outcome (List (Warning K)) :=
  Outcome.foldlM (boardErrorStep pr bpts) [] est

/-- McCalib.cpp:2088-2090: the refinement of the intrinsics and poses (any function; `none`: intrinsics fixed). -/
def refineStep (refine : Option (List (Estimated P2 Pose) → Outcome (List (Estimated P2 Pose) × Projection P2 Pose Pt K)))
    (est : List (Estimated P2 Pose)) (pr : Projection P2 Pose Pt K) :
    Outcome (List (Estimated P2 Pose) × Projection P2 Pose Pt K) :=
  match refine with
  | some f => f est
  | none => .ok (est, pr)

/-- McCalib.cpp:2085-2092 `initIntrinsic` after the initialisation of the cameras: pose estimation, refinement,
check. -/
def initIntrinsic [Field K] [LinearOrder K] (search : Search Pt P2 Pose) (garbage : Pose) (bpts : List (List Pt))
    (obs : List (BoardObs P2))
    (refine : Option (List (Estimated P2 Pose) → Outcome (List (Estimated P2 Pose) × Projection P2 Pose Pt K)))
    (pr : Projection P2 Pose Pt K) : Outcome (List (Estimated P2 Pose) × List (Warning K)) := do
  let est ← estimateAllBoards search garbage bpts obs
  let x ← refineStep refine est pr
  let w ← computeReproErrAllBoard x.2 bpts x.1
  pure (x.1, w)

/-- McCalib.cpp:1002-1003: one object observation. -/
def objectErrorStep [Field K] {G : Type} (pr : Projection P2 Pose Pt K) (objs : OMap Nat (Object G Pt)) (acc : List K)
    (e : ObjObs P2 × Pose) : Outcome (List K) := do
  let o ← Outcome.deref (OMap.get? objs e.1.obj)
  let r ← obsError pr o.pts e.1.cam e.2 e.1.ids e.1.pts
  pure (acc ++ [result r])

/-- McCalib.cpp:999-1008 `computeReproErrAllObject`: the mean logged (none: 0 / 0). -/
def computeReproErrAllObject [Field K] {G : Type} (pr : Projection P2 Pose Pt K) (objs : OMap Nat (Object G Pt))
    (oos : List (ObjObs P2 × Pose)) : Outcome (Option K) := do
  let errs ← Outcome.foldlM (objectErrorStep pr objs) [] oos
  pure (if errs.length = 0 then none else some (errs.sum / (errs.length : K)))

/-- A line of CameraGroup.cpp:340-344 (`mean` none: 0 / 0). -/
structure GroupLine where
  cam : Nat
  obj : Nat
  mean : Option ℝ
  points : Nat

/-- CameraGroup.cpp:332-339: one point. -/
noncomputable def logPoint (seen repro : List (ℝ × ℝ)) (acc : ℝ) (j : Nat) : Outcome ℝ := do
  let p ← Outcome.idx seen j
  let q ← Outcome.idx repro j
  pure (acc + Output.distance p q)

/-- CameraGroup.cpp:303-345: one object observation `i` of the observation of group `g` in frame `f`. -/
noncomputable def logObs {V G Pt : Type} [Group G] [SMul G Pt] (sc : Output.Scene V G Pt) (g : CamGroup G) (f : Nat)
    (acc : List GroupLine) (i : Nat) : Outcome (List GroupLine) := do
  let oo ← Outcome.idx sc.oo i
  let obj ← Outcome.deref (OMap.get? sc.objs oo.obj)
  let pts ← Outcome.foldlM (Output.pointStep obj) [] oo.ids
  let pose := (((OMap.get? sc.op (g.id, f)).bind fun m => OMap.get? m oo.obj).map sc.ofVec).getD 1
  let repro ← Output.project sc oo.cam ((OMap.get? g.poses oo.cam).getD 1) (pts.map (pose • ·))
  let sum ← Outcome.foldlM (logPoint oo.pts repro) 0 (List.range repro.length)
  pure (acc ++ [⟨oo.cam, oo.obj, if repro.length = 0 then none else some (sum / (repro.length : ℝ)), repro.length⟩])

/-- CameraGroup.cpp:288-301: one frame of the group. -/
noncomputable def logFrame {V G Pt : Type} [Group G] [SMul G Pt] (sc : Output.Scene V G Pt) (g : CamGroup G)
    (acc : List GroupLine) (f : Nat) : Outcome (List GroupLine) :=
  Outcome.foldlM (logObs sc g f) acc (Output.reported sc g f)

/-- CameraGroup.cpp:285-358 `reproErrorCameraGroup`: the lines logged. -/
noncomputable def reproErrorCameraGroup {V G Pt : Type} [Group G] [SMul G Pt] (sc : Output.Scene V G Pt) (g : CamGroup G) :
    Outcome (List GroupLine) :=
  Outcome.foldlM (logFrame sc g) [] (OMap.keys g.frames)

end Verif.ReproErr
