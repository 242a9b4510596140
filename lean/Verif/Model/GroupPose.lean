import Verif.Model.Groups

/-!
Poses of objects in camera groups: `CameraGroup::computeObjPoseInCameraGroup` (CameraGroup.cpp:153-183),
`CameraGroupObs::computeObjectsPose` (CameraGroupObs.cpp:42-108), `computeAllObjPoseInCameraGroup`
(McCalib.cpp:1635-1641), `computeObjectsPairPose` (1650-1684), `initInterObjectsGraph` (1690-1707).

`V` is the type of stored poses (six numbers), `G` the group of poses (4x4 matrices).
-/
namespace Verif.GroupPose
open Structure Objects Groups

variable {V G Pt P : Type}

/-- An object observation inside a group observation. -/
structure Entry (V : Type) where
  cam : Nat
  obj : Nat
  /-- `group_pose_` -/
  inGroup : V
  deriving DecidableEq, Repr

/-! ### One group observation -/

/-- `std::unique` (CameraGroupObs.cpp:45-48): drops an element equal to its neighbour; the list is not
sorted before. -/
def unique : List Nat → List Nat
  | [] => []
  | [a] => [a]
  | a :: b :: l => if a = b then unique (b :: l) else a :: unique (b :: l)

/-- CameraGroupObs.cpp:55-59: inner loop body. -/
def collectStep (idx : List Nat) (o : Nat) (m : OMap Nat (List Nat)) (j : Nat) : OMap Nat (List Nat) :=
  if idx[j]? = some o then OMap.modify m o [] (· ++ [j]) else m

/-- CameraGroupObs.cpp:54-60: inner loop. -/
def collect (idx : List Nat) (m : OMap Nat (List Nat)) (o : Nat) : OMap Nat (List Nat) :=
  (List.range idx.length).foldl (collectStep idx o) m

/-- CameraGroupObs.cpp:50-60 `obj_obs_group`. -/
def obsGroups (idx : List Nat) : OMap Nat (List Nat) := (unique idx).foldl (collect idx) []

/-- CameraGroupObs.cpp:68-76: an observation of the reference camera overwrites the pose. -/
def refStep (refCam : Nat) (es : List (Entry V)) (acc : Option V) (j : Nat) : Option V :=
  match es[j]? with
  | some e => if e.cam = refCam then some e.inGroup else acc
  | none => acc

/-- CameraGroupObs.cpp:64-97: pose of one object; `avg` is the average of poses (`Model/Average`). -/
def objectPose (avg : List V → V) (refCam : Nat) (es : List (Entry V)) (js : List Nat) : V :=
  match js.foldl (refStep refCam es) none with
  | some v => v
  | none => avg (js.filterMap fun j => (es[j]?).map (·.inGroup))

/-- CameraGroupObs.cpp:102-106: the pose is given to the observations of the object. -/
def updateEntries (es : List (Entry V)) (v : V) (js : List Nat) : List (Entry V) :=
  js.foldl (fun es j => es.modify j fun e => { e with inGroup := v }) es

/-- CameraGroupObs.cpp:63-107: one object. -/
def objectStep (avg : List V → V) (refCam : Nat) (st : OMap Nat V × List (Entry V))
    (e : Nat × List Nat) : OMap Nat V × List (Entry V) :=
  let v := objectPose avg refCam st.2 e.2
  (OMap.set st.1 e.1 v, updateEntries st.2 v e.2)

/-- CameraGroupObs.cpp:42-108 `computeObjectsPose`: `m` is `object_pose_`. -/
def computeObjectsPose (avg : List V → V) (refCam : Nat) (m : OMap Nat V) (es : List (Entry V)) :
    OMap Nat V × List (Entry V) :=
  (obsGroups (es.map (·.obj))).foldl (objectStep avg refCam) (m, es)

/-! ### All groups -/

/-- CameraGroup.cpp:171-176: pose of an object observation in the group; `ofVec` is `RVecT2Proj`,
`toVec` is `Proj2RT`; the pose of an unknown camera is six zeros, the identity. -/
def poseInGroup [Group G] (toVec : G → V) (g : CamGroup G) (cam : Nat) (pose : G) : V :=
  toVec (((OMap.get? g.poses cam).getD 1)⁻¹ * pose)

/-- The entries of a group observation after `computeObjPoseInCameraGroup`; `is` are the keys of its
object observations, `pose i` the pose of the `i`-th object observation in its camera. -/
def entries [Group G] (toVec : G → V) (g : CamGroup G) (oo : List (ObjObs P)) (pose : Nat → G)
    (is : List Nat) : List (Entry V) :=
  is.filterMap fun i => (oo[i]?).map fun o => ⟨o.cam, o.obj, poseInGroup toVec g o.cam (pose i)⟩

/-- McCalib.cpp:1635-1641 `computeAllObjPoseInCameraGroup`: `object_pose_` of each group observation
(from fresh group observations); observations of an expired group keep no pose. -/
def objectPoses [Group G] (toVec : G → V) (avg : List V → V) (t : GroupTables G)
    (oo : List (ObjObs P)) (pose : Nat → G) : OMap (Nat × Nat) (OMap Nat V) :=
  t.groupObs.map fun e => (e.1, match OMap.get? t.groups e.1.1 with
    | some g => (computeObjectsPose avg g.refCam [] (entries toVec g oo pose e.2)).1
    | none => [])

/-- McCalib.cpp:1653-1660: what is compared of each group observation with more than one object
observation: object and its pose `getObjectPoseMat`; a missing pose is the identity. -/
def objectViews [Group G] (ofVec : V → G) (op : OMap (Nat × Nat) (OMap Nat V)) (t : GroupTables G)
    (oo : List (ObjObs P)) : List (List (Nat × G)) :=
  t.groupObs.map fun e =>
    let os := e.2.filterMap fun i => (oo[i]?).map (·.obj)
    if os.length > 1 then
      os.map fun o => (o, (((OMap.get? op e.1).bind fun m => OMap.get? m o).map ofVec).getD 1)
    else []

/-- McCalib.cpp:1661-1677: entry for an ordered pair. -/
def objectPair [Group G] (x y : Nat × G) : Option ((Nat × Nat) × G) :=
  if x.1 ≠ y.1 then some ((x.1, y.1), y.2⁻¹ * x.2) else none

/-- McCalib.cpp:1650-1684 `computeObjectsPairPose`. -/
def objectPairs [Group G] (ofVec : V → G) (op : OMap (Nat × Nat) (OMap Nat V)) (t : GroupTables G)
    (oo : List (ObjObs P)) : PairTable G :=
  pairTable objectPair (objectViews ofVec op t oo)

/-- McCalib.cpp:1694-1698: objects with an observation. -/
def objectVertices (objs : OMap Nat (Object G Pt)) (oo : List (ObjObs P)) : List Nat :=
  (objs.filter fun e => oo.any fun o => o.obj == e.2.id).map fun e => e.2.id

/-- McCalib.cpp:1690-1707 `initInterObjectsGraph`. -/
def objectGraph (objs : OMap Nat (Object G Pt)) (oo : List (ObjObs P)) (t : PairTable G) : Graph Nat :=
  Graph.run (graphCalls (objectVertices objs oo) (tableEdges t))

/-- McCalib.cpp:2128-2134: the part of `merge3DObjects` that merges the objects. -/
def merge3DObjects [Group G] [SMul G Pt] (toVec : G → V) (ofVec : V → G) (avg : List V → V)
    (avgG : List G → G) (choose : Nat → Nat → Graph.DState → Nat) (bpts : List (List Pt))
    (objs : OMap Nat (Object G Pt)) (t : GroupTables G) (oo : List (ObjObs P)) (pose : Nat → G) :
    Outcome (OMap Nat (Object G Pt)) :=
  let pairs := objectPairs ofVec (objectPoses toVec avg t oo pose) t oo
  mergeObjects bpts objs (interTransform avgG pairs) (objectGraph objs oo pairs) choose

end Verif.GroupPose
