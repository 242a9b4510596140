import Verif.Model.Pipeline
import Verif.Model.Camera
import Mathlib.Analysis.SpecialFunctions.Pow.Real

/-!
Model of what the calibration writes: `saveCamerasParams` (McCalib.cpp:374-405), `save3DObj` (413-449),
`save3DObjPose` (455-483), `saveReprojectionErrorToFile` (2251-2341), `computeAvgReprojectionError`
(2168-2245), and of the reader of camera parameters in `initializeCalibrationAllCam` (662-687).

A `cv::FileStorage` is the list of the entries written so far; its text encoding is not modelled, keys
`camera_<i>` etc. are represented by the number `i`.  `cv::FileStorage::operator<<` on a storage that is
not open does nothing (OpenCV, persistence.hpp: `if (!fs.isOpened()) return fs;`).  The number read for a
key that occurs twice is that of the first entry (`cv::FileNode::operator[]`).
-/
namespace Verif.Output
open Structure Objects Groups GroupPose NonOverlap Rigid

variable {K V G Pt P : Type}

/-- A `cv::FileStorage` opened for writing. -/
structure Storage (α : Type) where
  isOpen : Bool := true
  out : List α := []
  deriving DecidableEq, Repr

namespace Storage
variable {α : Type}

/-- `fs << key << value`. -/
def put (fs : Storage α) (x : α) : Storage α :=
  if fs.isOpen then { fs with out := fs.out ++ [x] } else fs

/-- `fs.release()`. -/
def release (fs : Storage α) : Storage α := { fs with isOpen := false }

end Storage

/-! ### Camera parameters -/

/-- The members of `Camera` that are saved; the image size is `none` until an image was read. -/
structure CamData (K : Type) where
  /-- `distortion_model_` -/
  model : Int
  /-- `intrinsics_` -/
  intr : Camera.Intr K
  /-- `im_cols_`, `im_rows_` -/
  size : Option (Nat × Nat)

/-- The map written for a camera (McCalib.cpp:392-400). -/
structure CamNode (K G : Type) where
  matrix : Mat3 K
  distortion : List K
  model : Int
  group : Nat
  width : Nat
  height : Nat
  pose : G

/-- The entries of the camera parameter file. -/
inductive CamEntry (K G : Type) where
  | nbCamera (n : Nat)
  | camera (id : Nat) (node : CamNode K G)

/-- McCalib.cpp:385-401: one camera of a group.  The pose of a camera missing in the group's table is the
identity (six zeros).  The image size of a camera without images is indeterminate; it is read only if the
storage is open. -/
def saveCamera [Zero K] [One K] [Group G] (cams : List (CamData K)) (gi : Nat) (g : CamGroup G)
    (fs : Storage (CamEntry K G)) (e : Nat × Unit) : Outcome (Storage (CamEntry K G)) :=
  match cams[e.1]? with
  | none => .ok fs
  | some cam =>
    if fs.isOpen then
      match cam.size with
      | none => .ub
      | some sz =>
        let r := Camera.getIntrinsics cam.model cam.intr
        .ok (fs.put (.camera e.1
          { matrix := r.1, distortion := r.2, model := cam.model, group := gi, width := sz.1, height := sz.2
            pose := ((OMap.get? g.poses e.1).getD 1)⁻¹ }))
    else .ok fs

/-- McCalib.cpp:381-404: one group; the storage is released at the end of the body. -/
def saveGroup [Zero K] [One K] [Group G] (cams : List (CamData K)) (fs : Storage (CamEntry K G))
    (e : Nat × CamGroup G) : Outcome (Storage (CamEntry K G)) := do
  let fs ← Outcome.foldlM (saveCamera cams e.1 e.2) (fs.put (.nbCamera cams.length)) e.2.cameras
  pure fs.release

/-- McCalib.cpp:374-405 `saveCamerasParams`. -/
def saveCamerasParams [Zero K] [One K] [Group G] (cams : List (CamData K)) (gs : OMap Nat (CamGroup G)) :
    Outcome (List (CamEntry K G)) := do
  let fs ← Outcome.foldlM (saveGroup cams) {} gs
  pure fs.out

/-- `fs["camera_" + std::to_string(c)]`. -/
def lookup (file : List (CamEntry K G)) (c : Nat) : Option (CamNode K G) :=
  file.findSome? fun
    | .camera i n => if i = c then some n else none
    | .nbCamera _ => none

/-- McCalib.cpp:677-687: camera `c` is given the parameters of the file; for a missing node the matrix is
empty and reading its entries is undefined. -/
def loadCamera (file : List (CamEntry K G)) (c : Nat) (cam : CamData K) : Outcome (CamData K) :=
  match lookup file c with
  | none => .ub
  | some n => do
    let I ← Camera.setIntrinsics cam.model cam.intr n.matrix n.distortion
    pure { cam with intr := I }

/-- Body of the loop over cameras. -/
def loadStep (file : List (CamEntry K G)) (acc : List (CamData K)) (e : CamData K × Nat) :
    Outcome (List (CamData K)) := do
  let c ← loadCamera file e.2 e.1
  pure (acc ++ [c])

/-- McCalib.cpp:662-687, with an existing parameter file. -/
def loadCamerasParams (file : List (CamEntry K G)) (cams : List (CamData K)) : Outcome (List (CamData K)) :=
  Outcome.foldlM (loadStep file) [] cams.zipIdx

/-! ### Objects -/

/-- A column of the matrix of `save3DObj`: point, board, number of the corner. -/
structure Column (Pt : Type) where
  pt : Pt
  board : Nat
  corner : Nat
  deriving DecidableEq, Repr

/-- McCalib.cpp:425-439: one corner.  `m` is the matrix (`none`: not yet written), `n` is
`obj_pts_count`; the number of an unknown corner is 0 (map `operator[]`); both accesses are unchecked. -/
def saveCorner (o : Object G Pt) (b : Nat) (st : List (Option (Column Pt)) × Nat) (k : Nat) :
    Outcome (List (Option (Column Pt)) × Nat) := do
  let p ← Outcome.idx o.pts ((OMap.get? o.b2o (b, k)).getD 0)
  let _ ← Outcome.idx st.1 st.2
  pure (st.1.set st.2 (some ⟨p, b, k⟩), st.2 + 1)

/-- McCalib.cpp:421-442: one board of the object; `bpts` are the corners of the boards. -/
def saveBoard (bpts : List (List Pt)) (o : Object G Pt) (st : List (Option (Column Pt)) × Nat)
    (e : Nat × Unit) : Outcome (List (Option (Column Pt)) × Nat) :=
  match bpts[e.1]? with
  | none => .ok st
  | some ps => Outcome.foldlM (saveCorner o e.1) st (List.range ps.length)

/-- McCalib.cpp:416-446: one object. -/
def saveObject (bpts : List (List Pt)) (o : Object G Pt) : Outcome (List (Option (Column Pt))) := do
  let r ← Outcome.foldlM (saveBoard bpts o) (List.replicate o.nbPts none, 0) o.boards
  pure r.1

/-- Body of the loop over objects. -/
def saveObjectStep (bpts : List (List Pt)) (fs : Storage (Nat × List (Option (Column Pt))))
    (e : Nat × Object G Pt) : Outcome (Storage (Nat × List (Option (Column Pt)))) := do
  let m ← saveObject bpts e.2
  pure (fs.put (e.2.id, m))

/-- McCalib.cpp:413-449 `save3DObj`. -/
def save3DObj (bpts : List (List Pt)) (objs : OMap Nat (Object G Pt)) :
    Outcome (List (Nat × List (Option (Column Pt)))) := do
  let fs ← Outcome.foldlM (saveObjectStep bpts) {} objs
  pure fs.out

/-- McCalib.cpp:463-479: columns for the observations of one object: the pose of each observation in its
camera (`pose i` for the `i`-th stored observation). -/
def objectPoseColumns (oo : List (ObjObs P)) (pose : Nat → V) (i : Nat) : List V :=
  ((List.range oo.length).filter fun j => (oo[j]?).any fun o => o.obj == i).map pose

/-- McCalib.cpp:455-483 `save3DObjPose`.  An object's own list of observations holds the stored
observations of that object (McCalib.cpp:970-972). -/
def save3DObjPose (objs : OMap Nat (Object G Pt)) (oo : List (ObjObs P)) (pose : Nat → V) :
    List (Nat × List V) :=
  objs.map fun e => (e.2.id, objectPoseColumns oo pose e.2.id)

/-! ### Reprojection errors -/

/-- What the report is computed from. -/
structure Scene (V G Pt : Type) where
  objs : OMap Nat (Object G Pt)
  oo : List (ObjObs (ℝ × ℝ))
  t : GroupTables G
  /-- `object_pose_` of each group observation -/
  op : OMap (Nat × Nat) (OMap Nat V)
  /-- `RVecT2Proj` -/
  ofVec : V → G
  /-- `distortion_model_` of the cameras -/
  model : Nat → Int
  /-- `cv::projectPoints` with the intrinsics of a camera; OpenCV throws for an empty list. -/
  projBrown : Nat → G → List Pt → Outcome (List (ℝ × ℝ))
  /-- `cv::fisheye::projectPoints` -/
  projKannala : Nat → G → List Pt → Outcome (List (ℝ × ℝ))

/-- geometrytools.cpp:755-771 `projectPointsWithDistortion` for camera `c`. -/
def project (sc : Scene V G Pt) (c : Nat) (pose : G) (ps : List Pt) : Outcome (List (ℝ × ℝ)) :=
  if sc.model c = 0 then sc.projBrown c pose ps
  else if sc.model c = 1 then sc.projKannala c pose ps
  else .ok []

/-- McCalib.cpp:2155-2157: one distance. -/
noncomputable def distance (p q : ℝ × ℝ) : ℝ := Real.sqrt ((p.1 - q.1) ^ 2 + (p.2 - q.2) ^ 2)

/-- McCalib.cpp:2154-2158: body of the loop. -/
noncomputable def distanceStep (seen repro : List (ℝ × ℝ)) (acc : List ℝ) (i : Nat) : Outcome (List ℝ) := do
  let p ← Outcome.idx seen i
  let q ← Outcome.idx repro i
  pure (acc ++ [distance p q])

/-- McCalib.cpp:2150-2160 `computeDistanceBetweenPoints`. -/
noncomputable def computeDistanceBetweenPoints (seen repro : List (ℝ × ℝ)) : Outcome (List ℝ) :=
  Outcome.foldlM (distanceStep seen repro) [] (List.range repro.length)

/-- McCalib.cpp:2210-2211, 2304-2305: body of the loop. -/
def pointStep (o : Object G Pt) (acc : List Pt) (k : Nat) : Outcome (List Pt) := do
  let p ← Outcome.idx o.pts k
  pure (acc ++ [p])

/-- McCalib.cpp:2200-2234, 2294-2329: the distances of one object observation `i` in the observation of
group `g` in frame `f`.  Missing poses are the identity (six zeros). -/
noncomputable def obsErrors [Group G] [SMul G Pt] (sc : Scene V G Pt) (g : CamGroup G) (f i : Nat) :
    Outcome (Nat × List ℝ) := do
  let oo ← Outcome.idx sc.oo i
  let obj ← Outcome.deref (OMap.get? sc.objs oo.obj)
  let pts ← Outcome.foldlM (pointStep obj) [] oo.ids
  let pose := (((OMap.get? sc.op (g.id, f)).bind fun m => OMap.get? m oo.obj).map sc.ofVec).getD 1
  let repro ← project sc oo.cam ((OMap.get? g.poses oo.cam).getD 1) (pts.map (pose • ·))
  let errs ← computeDistanceBetweenPoints oo.pts repro
  pure (oo.cam, errs)

/-- The object observations that are reported for group `g` in frame `f` (McCalib.cpp:2183-2193,
2275-2287): those of the group observations stored in the frame that belong to the group. -/
def reported (sc : Scene V G Pt) (g : CamGroup G) (f : Nat) : List Nat :=
  (((OMap.get? sc.t.frameGroups f).getD []).filter (· = g.id)).flatMap fun i =>
    (OMap.get? sc.t.groupObs (i, f)).getD []

/-- One frame of the report: frame number, the entries `camera_<c>` in the order written, and
`camera_list`. -/
structure FrameNode where
  frame : Nat
  cams : List (Nat × List ℝ)
  cameraList : List Nat

/-- One group of the report. -/
structure GroupNode where
  group : Nat
  frames : List FrameNode
  frameList : List Nat

/-- McCalib.cpp:2287-2331: one object observation. -/
noncomputable def reportObs [Group G] [SMul G Pt] (sc : Scene V G Pt) (g : CamGroup G) (f : Nat)
    (n : FrameNode) (i : Nat) : Outcome FrameNode := do
  let r ← obsErrors sc g f i
  pure { n with cams := n.cams ++ [r], cameraList := n.cameraList ++ [r.1] }

/-- McCalib.cpp:2266-2335: one frame.  The list of frames is declared outside of the loop over groups. -/
noncomputable def reportFrame [Group G] [SMul G Pt] (sc : Scene V G Pt) (g : CamGroup G)
    (st : List FrameNode × List Nat) (e : Nat × Unit) : Outcome (List FrameNode × List Nat) := do
  let n ← Outcome.foldlM (reportObs sc g e.1) ⟨e.1, [], []⟩ (reported sc g e.1)
  pure (st.1 ++ [n], st.2 ++ [e.1])

/-- McCalib.cpp:2259-2338: one group; the state is what was written and `frame_list`. -/
noncomputable def reportGroup [Group G] [SMul G Pt] (sc : Scene V G Pt)
    (st : List GroupNode × List Nat) (e : Nat × CamGroup G) : Outcome (List GroupNode × List Nat) := do
  let r ← Outcome.foldlM (reportFrame sc e.2) ([], st.2) e.2.frames
  pure (st.1 ++ [⟨e.2.id, r.1, r.2⟩], r.2)

/-- McCalib.cpp:2251-2341 `saveReprojectionErrorToFile`: number of groups and the groups. -/
noncomputable def saveReprojectionError [Group G] [SMul G Pt] (sc : Scene V G Pt) :
    Outcome (Nat × List GroupNode) := do
  let r ← Outcome.foldlM (reportGroup sc) ([], []) sc.t.groups
  pure (sc.t.groups.length, r.1)

/-- `cv::mean` of a list; 0 for an empty one. -/
noncomputable def mean (l : List ℝ) : ℝ := if l.length = 0 then 0 else l.sum / l.length

/-- McCalib.cpp:2196-2236: one object observation; sum and number so far. -/
noncomputable def avgObs [Group G] [SMul G Pt] (sc : Scene V G Pt) (g : CamGroup G) (f : Nat)
    (st : ℝ × Nat) (i : Nat) : Outcome (ℝ × Nat) := do
  let r ← obsErrors sc g f i
  pure (st.1 + mean r.2, st.2 + 1)

/-- McCalib.cpp:2178-2240: one frame. -/
noncomputable def avgFrame [Group G] [SMul G Pt] (sc : Scene V G Pt) (g : CamGroup G)
    (st : ℝ × Nat) (e : Nat × Unit) : Outcome (ℝ × Nat) :=
  Outcome.foldlM (avgObs sc g e.1) st (reported sc g e.1)

/-- McCalib.cpp:2173-2242: one group. -/
noncomputable def avgGroup [Group G] [SMul G Pt] (sc : Scene V G Pt) (st : ℝ × Nat)
    (e : Nat × CamGroup G) : Outcome (ℝ × Nat) :=
  Outcome.foldlM (avgFrame sc e.2) st e.2.frames

/-- McCalib.cpp:2168-2245 `computeAvgReprojectionError`: `none` is the not-a-number of `0 / 0`. -/
noncomputable def computeAvgReprojectionError [Group G] [SMul G Pt] (sc : Scene V G Pt) :
    Outcome (Option ℝ) := do
  let r ← Outcome.foldlM (avgGroup sc) (0, 0) sc.t.groups
  pure (if r.2 = 0 then none else some (r.1 / r.2))

end Verif.Output
