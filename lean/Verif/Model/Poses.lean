import Verif.Core.Outcome
import Verif.Core.OMap
import Verif.Model.Rigid

/-!
Model of the pose accessors of `Object3D`, `CameraGroup`, `CameraGroupObs`, `BoardObs` and `Object3DObs`:
six doubles (rotation vector, translation), either in a `std::map` keyed by an id or as a plain field.
Doubles are elements of a field; `cv::Rodrigues` is a parameter; ids are natural numbers.  The arguments
of the setters are CV_64F with three entries (`at<double>(i)` is unchecked).
-/
namespace Verif.Poses
open Verif Verif.Rigid

variable {K : Type} [Field K]

/-- Six doubles from a rotation vector and a translation: the braces of Object3D.cpp:119-121,
CameraGroup.cpp:118-120, CameraGroupObs.cpp:171-173, BoardObs.cpp:110-111, Object3DObs.cpp:130-131, 156-157. -/
def six (r t : Vec3 K) : Average.Vec6 K :=
  { r1 := r 0, r2 := r 1, r3 := r 2, t1 := t 0, t2 := t 1, t3 := t 2 }

/-- The rotation vector and the translation of six doubles: Object3D.cpp:68-77, CameraGroup.cpp:68-77,
CameraGroupObs.cpp:119-128, BoardObs.cpp:41-50, Object3DObs.cpp:61-70 and 167-176. -/
def split (v : Average.Vec6 K) : Vec3 K × Vec3 K := (![v.r1, v.r2, v.r3], ![v.t1, v.t2, v.t3])

/-! ### Poses kept in a `std::map` -/

/-- Object3D.hpp:48 `relative_board_pose_`, CameraGroup.hpp:40-41 `relative_camera_pose_`,
CameraGroupObs.hpp:29-30 `object_pose_`. -/
abbrev Table (K : Type) := OMap Nat (Average.Vec6 K)

/-- `relative_board_pose_[board_id]` read (Object3D.cpp:70-75; CameraGroup.cpp:70-75;
CameraGroupObs.cpp:121-126): an absent key is inserted, with six zeros (value-initialised array). -/
def index (t : Table K) (id : Nat) : Table K × Average.Vec6 K :=
  match OMap.get? t id with
  | some v => (t, v)
  | none => (OMap.set t id (six 0 0), six 0 0)

/-- Object3D.cpp:66-78 `getBoardPoseVec`, CameraGroup.cpp:66-78 `getCameraPoseVec`,
CameraGroupObs.cpp:117-129 `getObjectPoseVec`. -/
def getVec (t : Table K) (id : Nat) : Table K × (Vec3 K × Vec3 K) :=
  ((index t id).1, split (index t id).2)

/-- Object3D.cpp:87-93 `getBoardPoseMat`, CameraGroup.cpp:87-93 `getCameraPoseMat`,
CameraGroupObs.cpp:138-144 `getObjectPoseMat`. -/
def getMat (ro : Rodrigues K) (t : Table K) (id : Nat) : Table K × Mat4 K :=
  ((getVec t id).1, RVecT2Proj ro (getVec t id).2.1 (getVec t id).2.2)

/-- Object3D.cpp:131-136 `getBoardRotVec`, CameraGroup.cpp:129-134 `getCameraRotVec`,
CameraGroupObs.cpp:183-188 `getObjectRotVec`. -/
def getRot (t : Table K) (id : Nat) : Table K × Vec3 K := ((getVec t id).1, (getVec t id).2.1)

/-- Object3D.cpp:145-150 `getBoardTransVec`, CameraGroup.cpp:142-147 `getCameraTransVec`,
CameraGroupObs.cpp:197-202 `getObjectTransVec`. -/
def getTrans (t : Table K) (id : Nat) : Table K × Vec3 K := ((getVec t id).1, (getVec t id).2.2)

/-- Object3D.cpp:117-122 `setBoardPoseVec`, CameraGroup.cpp:116-121 `setCameraPoseVec`,
CameraGroupObs.cpp:168-174 `setObjectPoseVec`. -/
def setVec (t : Table K) (id : Nat) (r T : Vec3 K) : Table K := OMap.set t id (six r T)

/-- Object3D.cpp:101-107 `setBoardPoseMat`, CameraGroup.cpp:101-107 `setCameraPoseMat`,
CameraGroupObs.cpp:152-159 `setObjectPoseMat`. -/
def setMat (ro : Rodrigues K) (t : Table K) (id : Nat) (M : Mat4 K) : Table K :=
  OMap.set t id (six (Proj2RT ro M).1 (Proj2RT ro M).2)

/-- The calls a client can make on one of these objects. -/
inductive Call (K : Type) where
  | setVec (id : Nat) (r T : Vec3 K)
  | setMat (id : Nat) (M : Mat4 K)
  | getVec (id : Nat)
  | getMat (id : Nat)
  | getRot (id : Nat)
  | getTrans (id : Nat)

/-- What a call returns. -/
inductive Answer (K : Type) where
  | none
  | vecs (r T : Vec3 K)
  | mat (M : Mat4 K)
  | vec (v : Vec3 K)

/-- One call. -/
def call (ro : Rodrigues K) (t : Table K) : Call K → Table K × Answer K
  | .setVec id r T => (setVec t id r T, .none)
  | .setMat id M => (setMat ro t id M, .none)
  | .getVec id => ((getVec t id).1, .vecs (getVec t id).2.1 (getVec t id).2.2)
  | .getMat id => ((getMat ro t id).1, .mat (getMat ro t id).2)
  | .getRot id => ((getRot t id).1, .vec (getRot t id).2)
  | .getTrans id => ((getTrans t id).1, .vec (getTrans t id).2)

/-- A sequence of calls, with the answers in order. -/
def calls (ro : Rodrigues K) (t : Table K) : List (Call K) → Table K × List (Answer K)
  | [] => (t, [])
  | c :: cs =>
    let r := call ro t c
    let rs := calls ro r.1 cs
    (rs.1, r.2 :: rs.2)

/-! ### Poses kept in a field -/

/-- BoardObs.hpp:33 `pose_`, Object3DObs.hpp:40 `pose_` and 43 `group_pose_`: no initialiser, so the
value before the first write is indeterminate (`none`). -/
abbrev Field1 (K : Type) := Option (Average.Vec6 K)

/-- BoardObs.cpp:40-51 `getPoseVec`, Object3DObs.cpp:60-71 `getPoseVec` and 166-177 `getPoseInGroupVec`:
reading an indeterminate double is undefined behaviour. -/
def readVec (f : Field1 K) : Outcome (Vec3 K × Vec3 K) :=
  match f with
  | some v => .ok (split v)
  | none => .ub

/-- BoardObs.cpp:58-64 `getPoseMat`, Object3DObs.cpp:78-84 and 184-190 `getPoseInGroupMat`. -/
def readMat (ro : Rodrigues K) (f : Field1 K) : Outcome (Mat4 K) :=
  (readVec f).bind fun p => .ok (RVecT2Proj ro p.1 p.2)

/-- BoardObs.cpp:71-76 `getRotVec`, Object3DObs.cpp:91-96 and 197-202. -/
def readRot (f : Field1 K) : Outcome (Vec3 K) := (readVec f).bind fun p => .ok p.1

/-- BoardObs.cpp:83-88 `getTransVec`, Object3DObs.cpp:103-108 and 209-214. -/
def readTrans (f : Field1 K) : Outcome (Vec3 K) := (readVec f).bind fun p => .ok p.2

/-- BoardObs.cpp:109-112 `setPoseVec`, Object3DObs.cpp:129-132 and 154-158 `setPoseInGroupVec`. -/
def writeVec (_ : Field1 K) (r T : Vec3 K) : Field1 K := some (six r T)

/-- BoardObs.cpp:95-100 `setPoseMat`, Object3DObs.cpp:115-120 and 140-145 `setPoseInGroupMat`. -/
def writeMat (ro : Rodrigues K) (_ : Field1 K) (M : Mat4 K) : Field1 K :=
  some (six (Proj2RT ro M).1 (Proj2RT ro M).2)

/-- Object3DObs.hpp:40-43: the two poses of an observation of an object, in the camera and in the group. -/
structure TwoPoses (K : Type) where
  pose : Field1 K
  group : Field1 K

/-- The writes on an observation of an object (Object3DObs.cpp:115-158). -/
inductive Write (K : Type) where
  | poseMat (M : Mat4 K)
  | poseVec (r T : Vec3 K)
  | groupMat (M : Mat4 K)
  | groupVec (r T : Vec3 K)

/-- One write (Object3DObs.cpp:115-158). -/
def write (ro : Rodrigues K) (o : TwoPoses K) : Write K → TwoPoses K
  | .poseMat M => { o with pose := writeMat ro o.pose M }
  | .poseVec r T => { o with pose := writeVec o.pose r T }
  | .groupMat M => { o with group := writeMat ro o.group M }
  | .groupVec r T => { o with group := writeVec o.group r T }

/-- CameraGroupObs.cpp:208-217 `updateObjObsPose`: each living observation receives the pose of its
object in the group.  An entry of the list is an observation: `none` when it is expired (`lock()`), else
the id of its object and its poses. -/
def updateStep (s : Table K × List (Option (Nat × TwoPoses K))) (o : Option (Nat × TwoPoses K)) :
    Table K × List (Option (Nat × TwoPoses K)) :=
  match o with
  | none => (s.1, s.2 ++ [none])
  | some (id, p) =>
    let t1 := (getTrans s.1 id).1
    let T := (getTrans s.1 id).2
    let r := (getRot t1 id)
    (r.1, s.2 ++ [some (id, { p with group := writeVec p.group r.2 T })])

/-- CameraGroupObs.cpp:208-217. -/
def updateObjObsPose (t : Table K) (obs : List (Option (Nat × TwoPoses K))) :
    Table K × List (Option (Nat × TwoPoses K)) :=
  obs.foldl updateStep (t, [])

/-! ### Poses as floats -/

/-- geometrytools.cpp:71-81 `ProjToVec`; `toFloat` is the conversion `(float)`. -/
def projToVec {F : Type} (ro : Rodrigues K) (toFloat : K → F) (M : Mat4 K) : Vector F 6 :=
  let r := ro.toVec (projRot M)
  let t := projTrans M
  #v[toFloat (r 0), toFloat (r 1), toFloat (r 2), toFloat (t 0), toFloat (t 1), toFloat (t 2)]

/-- geometrytools.cpp:51-69 `vectorProj`: the vector has any length, accesses are unchecked; `toDouble`
is the conversion `(double)`. -/
def vectorProj {F : Type} (ro : Rodrigues K) (toDouble : F → K) (v : List F) : Outcome (Mat4 K) :=
  match v[0]?, v[1]?, v[2]?, v[3]?, v[4]?, v[5]? with
  | some a, some b, some c, some d, some e, some f =>
    .ok (RVecT2Proj ro ![toDouble a, toDouble b, toDouble c] ![toDouble d, toDouble e, toDouble f])
  | _, _, _, _, _, _ => .ub

end Verif.Poses
