import Verif.Model.Objects

/-!
Model of the camera group stage: `computeCamerasPairPose`, `initInterCamerasGraph`,
`initCameraGroup`, `initCameraGroupObs`, `initAllCameraGroupObs` (McCalib.cpp:1024-1202),
`mergeAllCameraGroupObs` (1616-1629), the merge of camera groups (1505-1610).

Object observations are referred to by their key in `object_observations_` (insertion order).  A frame's
`object_observations_` is filled together with the global table (McCalib.cpp:965-972), so it lists the
positions of the observations of that frame.
-/
namespace Verif.Groups
open Structure Objects

variable {G Pt P Path : Type}

/-! ### Camera pairs -/

/-- An object observation as used here: camera, object and pose of the object in the camera. -/
structure SeenObject (G : Type) where
  cam : Nat
  obj : Nat
  pose : G

/-- McCalib.cpp:1034-1057: entry for an ordered pair of object observations of a frame. -/
def cameraPair [Group G] (x y : SeenObject G) : Option ((Nat × Nat) × G) :=
  if x.cam ≠ y.cam then
    if x.obj = y.obj then some ((x.cam, y.cam), y.pose * x.pose⁻¹) else none
  else none

/-- The keys of the object observations of frame `f` (`Frame::object_observations_`). -/
def frameObjs (oo : List (ObjObs P)) (f : Nat) : List Nat :=
  (List.range oo.length).filter fun i => (oo[i]?).any fun o => o.frame == f

/-- McCalib.cpp:1027-1033: the object observations of each frame with more than one board
observation; `pose i` is the pose of the `i`-th object observation. -/
def cameraViews (s : Store P Path) (oo : List (ObjObs P)) (pose : Nat → G) :
    List (List (SeenObject G)) :=
  s.frames.map fun e =>
    if e.2.boards.length > 1 then
      (frameObjs oo e.1).filterMap fun i => (oo[i]?).map fun o => ⟨o.cam, o.obj, pose i⟩
    else []

/-- McCalib.cpp:1024-1064 `computeCamerasPairPose`. -/
def cameraPairs [Group G] (s : Store P Path) (oo : List (ObjObs P)) (pose : Nat → G) : PairTable G :=
  pairTable cameraPair (cameraViews s oo pose)

/-- McCalib.cpp:1073-1077: cameras with a board observation, in ascending index. -/
def cameraVertices (s : Store P Path) : List Nat :=
  (List.range s.cams.length).filter fun c => (s.cams[c]?).any fun r => decide (r.boards.length > 0)

/-- McCalib.cpp:1070-1085 `initInterCamerasGraph`. -/
def cameraGraph (s : Store P Path) (t : PairTable G) : Graph Nat :=
  Graph.run (graphCalls (cameraVertices s) (tableEdges t))

/-! ### Camera groups -/

/-- CameraGroup.hpp: `CameraGroup`. -/
structure CamGroup (G : Type) where
  /-- `cam_group_idx_` -/
  id : Nat
  /-- `id_ref_cam_` -/
  refCam : Nat
  /-- keys of `cameras_` -/
  cameras : OMap Nat Unit := []
  /-- `cam_idx` -/
  camIdx : List Nat := []
  /-- `relative_camera_pose_` -/
  poses : OMap Nat G := []
  /-- `object_observations_` -/
  objObs : List Nat := []
  /-- keys of `frames_` -/
  frames : OMap Nat Unit := []
  deriving DecidableEq, Repr

/-- CameraGroup.cpp:30-33 `insertCamera` and 102-108 `setCameraPoseMat`. -/
def insertCamera (g : CamGroup G) (c : Nat) (pose : G) : CamGroup G :=
  { g with cameras := OMap.set g.cameras c (), camIdx := g.camIdx ++ [c],
           poses := OMap.set g.poses c pose }

/-- McCalib.cpp:1112-1137: one camera of a new group; `cams_[c]` of an unknown camera is a null
pointer. -/
def placeCamera [Group G] (nCam : Nat) (T : OMap (Nat × Nat) G) (g : Graph Nat)
    (choose : Nat → Nat → Graph.DState → Nat) (r : Nat) (st : CamGroup G) (c : Nat) :
    Outcome (CamGroup G) := do
  let _ ← Outcome.deref (if c < nCam then some c else none)
  let pose ← placement id T g (choose r c) r c
  pure (insertCamera st c pose)

/-- McCalib.cpp:1099-1140: one connected component. -/
def initGroup [Group G] (nCam : Nat) (T : OMap (Nat × Nat) G) (g : Graph Nat)
    (choose : Nat → Nat → Graph.DState → Nat) (i : Nat) (c : List Nat) : Outcome (CamGroup G) := do
  let r ← minElement c
  Outcome.foldlM (placeCamera nCam T g choose r) { id := i, refCam := r } c

/-- Body of the loop over components. -/
def initGroupStep [Group G] (nCam : Nat) (T : OMap (Nat × Nat) G) (g : Graph Nat)
    (choose : Nat → Nat → Graph.DState → Nat) (m : OMap Nat (CamGroup G)) (e : List Nat × Nat) :
    Outcome (OMap Nat (CamGroup G)) := do
  let o ← initGroup nCam T g choose e.2 e.1
  pure (OMap.set m e.2 o)

/-- McCalib.cpp:1091-1142 `initCameraGroup` (from an empty `cam_group_`). -/
def initCameraGroup [Group G] (nCam : Nat) (T : OMap (Nat × Nat) G) (g : Graph Nat)
    (choose : Nat → Nat → Graph.DState → Nat) : Outcome (OMap Nat (CamGroup G)) :=
  Outcome.foldlM (initGroupStep nCam T g choose) [] g.connectedComponents.zipIdx

/-- McCalib.cpp:2116-2121: `computeCamerasPairPose`, `initInterTransform`, `initInterCamerasGraph`,
`initCameraGroup`. -/
def buildGroups [Group G] (s : Store P Path) (oo : List (ObjObs P)) (pose : Nat → G)
    (avg : List G → G) (choose : Nat → Nat → Graph.DState → Nat) :
    Outcome (OMap Nat (CamGroup G)) :=
  let t := cameraPairs s oo pose
  initCameraGroup s.cams.length (interTransform avg t) (cameraGraph s t) choose

/-! ### Camera group observations -/

/-- The tables filled by `initCameraGroupObs`. -/
structure GroupTables (G : Type) where
  /-- `cam_group_` -/
  groups : OMap Nat (CamGroup G)
  /-- `cams_group_obs_`: object observations of each (group, frame) -/
  groupObs : OMap (Nat × Nat) (List Nat) := []
  /-- `Frame::cam_group_idx_`, the groups of `cam_group_observations_` -/
  frameGroups : OMap Nat (List Nat) := []
  deriving DecidableEq, Repr

/-- McCalib.cpp:1163-1178: the object observations of frame `f` made by cameras of the list. -/
def groupSees (oo : List (ObjObs P)) (cams : List Nat) (f : Nat) : List Nat :=
  (frameObjs oo f).filter fun i => (oo[i]?).any fun o => decide (o.cam ∈ cams)

/-- McCalib.cpp:1154-1191: one frame. -/
def groupFrameStep (oo : List (ObjObs P)) (cams : List Nat) (gi : Nat)
    (st : CamGroup G × OMap (Nat × Nat) (List Nat) × OMap Nat (List Nat)) (f : Nat) :
    CamGroup G × OMap (Nat × Nat) (List Nat) × OMap Nat (List Nat) :=
  let seen := groupSees oo cams f
  let g := { st.1 with objObs := st.1.objObs ++ seen }
  if seen.length > 0 then
    ({ g with frames := OMap.set g.frames f () }, OMap.set st.2.1 (gi, f) seen,
      OMap.modify st.2.2 f [] (· ++ [gi]))
  else (g, st.2)

/-- McCalib.cpp:1149-1193 `initCameraGroupObs`; `frames` are the keys of `frames_`. -/
def initCameraGroupObs (oo : List (ObjObs P)) (frames : List Nat) (t : GroupTables G) (gi : Nat) :
    Outcome (GroupTables G) := do
  let g ← Outcome.deref (OMap.get? t.groups gi)
  let st := frames.foldl (groupFrameStep oo g.camIdx gi) (g, t.groupObs, t.frameGroups)
  pure { groups := OMap.set t.groups gi st.1, groupObs := st.2.1, frameGroups := st.2.2 }

/-- McCalib.cpp:1198-1202 `initAllCameraGroupObs`. -/
def initAllCameraGroupObs (oo : List (ObjObs P)) (frames : List Nat) (t : GroupTables G) :
    Outcome (GroupTables G) :=
  Outcome.foldlM (fun t (e : Nat × CamGroup G) => initCameraGroupObs oo frames t e.2.id) t t.groups

/-- McCalib.cpp:1616-1629 `mergeAllCameraGroupObs`. -/
def mergeAllCameraGroupObs (oo : List (ObjObs P)) (frames : List Nat) (t : GroupTables G) :
    Outcome (GroupTables G) :=
  initAllCameraGroupObs oo frames { t with groupObs := [], frameGroups := [] }

/-! ### Merging camera groups -/

/-- McCalib.cpp:1508-1512: groups with an object observation. -/
def groupVertices (gs : OMap Nat (CamGroup G)) : List Nat :=
  (gs.filter fun e => decide (e.2.objObs.length > 0)).map fun e => e.2.id

/-- McCalib.cpp:1515-1522: edges of the recorded pairs; `cnt` is `no_overlap__camgroup_pair_common_cnt_`
(0 if absent; `1 / 0` is then infinite, see `Model/NonOverlap`). -/
def groupEdges (pairs : OMap (Nat × Nat) G) (cnt : Nat × Nat → Nat) : List (Nat × Nat × Rat) :=
  pairs.map fun e => (e.1.1, e.1.2, 1 / (cnt e.1 : Rat))

/-- McCalib.cpp:1505-1523 `initInterCamGroupGraph`. -/
def groupGraph (gs : OMap Nat (CamGroup G)) (pairs : OMap (Nat × Nat) G) (cnt : Nat × Nat → Nat) :
    Graph Nat :=
  Graph.run (graphCalls (groupVertices gs) (groupEdges pairs cnt))

/-- McCalib.cpp:1549-1577: pose of the group in the reference group. -/
def mergeGroupPlace [Group G] (T : OMap (Nat × Nat) G) (g : Graph Nat)
    (choose : Nat → Nat → Graph.DState → Nat) (r : Nat) (m : OMap Nat G) (j : Nat) :
    Outcome (OMap Nat G) := do
  let t ← placement id T g (choose r j) r j
  pure (OMap.set m j t)

/-- McCalib.cpp:1594-1604: one camera of a merged group. -/
def mergeCam [Group G] (old : CamGroup G) (inFinal : G) (st : CamGroup G) (e : Nat × Unit) : CamGroup G :=
  insertCamera st e.1 ((OMap.get? old.poses e.1).getD 1 * inFinal)

/-- McCalib.cpp:1584-1606: one old group. -/
def mergeGroupInto [Group G] (c : List Nat) (toRef : OMap Nat G) (st : CamGroup G)
    (e : Nat × CamGroup G) : Outcome (CamGroup G) :=
  if e.2.id ∈ c then
    match OMap.get? toRef e.2.id with
    | some t => .ok (e.2.cameras.foldl (mergeCam e.2 t) st)
    | none => .throw
  else .ok st

/-- McCalib.cpp:1535-1607: one connected component; `cam_group_[id]` of an unknown group is a null
pointer. -/
def mergeGroup [Group G] (gs : OMap Nat (CamGroup G)) (T : OMap (Nat × Nat) G) (g : Graph Nat)
    (choose : Nat → Nat → Graph.DState → Nat) (i : Nat) (c : List Nat) : Outcome (CamGroup G) := do
  let r ← minElement c
  let rg ← Outcome.deref (OMap.get? gs r)
  let toRef ← Outcome.foldlM (mergeGroupPlace T g choose r) [] c
  Outcome.foldlM (mergeGroupInto c toRef) { id := i, refCam := rg.refCam } gs

/-- Body of the loop over components. -/
def mergeGroupStep [Group G] (gs : OMap Nat (CamGroup G)) (T : OMap (Nat × Nat) G) (g : Graph Nat)
    (choose : Nat → Nat → Graph.DState → Nat) (m : OMap Nat (CamGroup G)) (e : List Nat × Nat) :
    Outcome (OMap Nat (CamGroup G)) := do
  let o ← mergeGroup gs T g choose e.2 e.1
  pure (OMap.set m e.2 o)

/-- McCalib.cpp:1529-1610 `mergeCameraGroup`. -/
def mergeCameraGroup [Group G] (gs : OMap Nat (CamGroup G)) (T : OMap (Nat × Nat) G) (g : Graph Nat)
    (choose : Nat → Nat → Graph.DState → Nat) : Outcome (OMap Nat (CamGroup G)) :=
  Outcome.foldlM (mergeGroupStep gs T g choose) [] g.connectedComponents.zipIdx

end Verif.Groups
