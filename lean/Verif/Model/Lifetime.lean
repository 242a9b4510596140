import Verif.Core.Outcome
import Verif.Core.OMap

/-!
Lifetimes.  `Calibration` owns the 3D objects, the object observations, the camera groups and the camera group
observations through `shared_ptr` (McCalib.hpp:93-107); everything else refers to them by `weak_ptr`.  They are
destroyed and created again during the workflow (McCalib.cpp:1608, 1622, 1812, 1851).  Here a created thing has an
address never used before, the tables hold addresses, and a `lock()` looks the address up among what is owned now.
A `lock()` of something destroyed is `ub` here, although some places in the code test for it and skip.

Cameras, boards, frames, board observations and camera observations are never destroyed before the end (their tables
are never cleared and no entry is overwritten, C06), so references to them are not modelled.  What the numerical parts
find out (which objects and groups there are, what is seen where) is given by `Choices` and may be anything.  A `lock()`
under a condition is modelled as if the condition held.
-/
namespace Verif.Lifetime

/-- `Object3D`: its address, `object_observations_` (Object3D.hpp:51), `frames_` is not modelled. -/
structure Obj where
  addr : Nat
  obs : List Nat := []
  deriving DecidableEq, Repr

/-- `Object3DObs`: its address, `object_3d_id_`, `object_3d_` (Object3DObs.hpp:59), `camera_id_`. -/
structure Obs where
  addr : Nat
  num : Nat
  obj : Nat
  cam : Nat
  deriving DecidableEq, Repr

/-- `CameraGroup`: its address, `object_observations_` (CameraGroup.hpp:31), keys of `frames_`. -/
structure Grp where
  addr : Nat
  obs : List Nat := []
  frames : List Nat := []
  deriving DecidableEq, Repr

/-- `CameraGroupObs`: its address, `cam_group_` (CameraGroupObs.hpp:34), `object_observations_` (27). -/
structure GObs where
  addr : Nat
  grp : Nat
  obs : List Nat := []
  deriving DecidableEq, Repr

/-- The tables of `Calibration` (McCalib.hpp:93-107) as far as they own or refer to what is destroyed. -/
structure Mem where
  /-- the next unused address -/
  next : Nat := 0
  /-- `object_3d_` -/
  objs : OMap Nat Obj := []
  /-- `object_observations_` -/
  oo : List Obs := []
  /-- `cam_group_` -/
  grps : OMap Nat Grp := []
  /-- `cams_group_obs_` -/
  gobs : OMap (Nat × Nat) GObs := []
  /-- `CameraObs::object_observations_`, by camera and frame -/
  imgObs : OMap (Nat × Nat) (List Nat) := []
  /-- `Camera::object_observations_` -/
  camObs : OMap Nat (List Nat) := []
  /-- `Frame::object_observations_` -/
  frObs : OMap Nat (List Nat) := []
  /-- `Frame::cam_group_observations_` -/
  frGrp : OMap Nat (List Nat) := []
  deriving DecidableEq, Repr

/-- Keys of `cams_obs_` and of `frames_`. -/
structure Scene where
  imgs : List (Nat × Nat)
  frames : List Nat

/-- `object_3d_.lock()`. -/
def lockObj (m : Mem) (a : Nat) : Outcome Obj :=
  Outcome.deref ((m.objs.find? fun e => e.2.addr == a).map (·.2))

/-- `lock()` of an `Object3DObs`. -/
def lockObs (m : Mem) (a : Nat) : Outcome Obs := Outcome.deref (m.oo.find? fun e => e.addr == a)

/-- `cam_group_.lock()`. -/
def lockGrp (m : Mem) (a : Nat) : Outcome Grp :=
  Outcome.deref ((m.grps.find? fun e => e.2.addr == a).map (·.2))

/-- `lock()` of a `CameraGroupObs`. -/
def lockGObs (m : Mem) (a : Nat) : Outcome GObs :=
  Outcome.deref ((m.gobs.find? fun e => e.2.addr == a).map (·.2))

/-- A loop that only reads. -/
def each {A : Type} (f : A → Outcome Unit) (l : List A) : Outcome Unit := Outcome.foldlM (fun _ a => f a) () l

/-! ### Functions that only read -/

/-- An object observation and its object (Object3DObs.cpp:46, 227, 260; CameraGroup.cpp:169-222). -/
def readObs (m : Mem) (a : Nat) : Outcome Unit := do
  let o ← lockObs m a
  let _ ← lockObj m o.obj
  pure ()

/-- A camera group observation, its group, its object observations and their objects. -/
def readGObs (m : Mem) (g : GObs) : Outcome Unit := do
  let _ ← lockGrp m g.grp
  each (readObs m) g.obs

/-- The same through a reference. -/
def readGObsRef (m : Mem) (a : Nat) : Outcome Unit := do
  let g ← lockGObs m a
  readGObs m g

/-- The camera group observations of a frame (McCalib.cpp:1285-1310, 1404-1438, 1921-1930, 2033-2040;
CameraGroup.cpp:155-169). -/
def readFrame (m : Mem) (f : Nat) : Outcome Unit := each (readGObsRef m) ((OMap.get? m.frGrp f).getD [])

/-- The frames of a group. -/
def readGroup (m : Mem) (e : Nat × Grp) : Outcome Unit := each (readFrame m) e.2.frames

/-- All groups: `computeObjPoseInCameraGroup` (CameraGroup.cpp:153-183), `reproErrorCameraGroup` (285-358),
`refineCameraGroup` (190-278), `refineCameraGroupAndObjects` (366-474), `refineCameraGroupAndObjectsAndIntrinsics`
(484-600), `findPairObjectForNonOverlap` and `initNonOverlapPair` (McCalib.cpp:1229-1479),
`computeAvgReprojectionError` (2168-2250), `saveReprojectionErrorToFile` (2255-2341). -/
def readGroups (m : Mem) : Outcome Unit := each (readGroup m) m.grps

/-- The object observations of a frame: `computeCamerasPairPose` (McCalib.cpp:1024-1060). -/
def readFrameObs (m : Mem) (f : Nat) : Outcome Unit := each (readObs m) ((OMap.get? m.frObs f).getD [])

/-- McCalib.cpp:1024-1060 `computeCamerasPairPose`. -/
def computeCamerasPairPose (sc : Scene) (m : Mem) : Outcome Unit := each (readFrameObs m) sc.frames

/-- `estimatePoseAllObjects` (McCalib.cpp:990-994), `computeReproErrAllObject` (999-1008). -/
def readAllObs (m : Mem) : Outcome Unit := each (fun o => do let _ ← lockObj m o.obj; pure ()) m.oo

/-- The observations of an object (Object3D.cpp:166, McCalib.cpp:466). -/
def readObj (m : Mem) (e : Nat × Obj) : Outcome Unit := each (readObs m) e.2.obs

/-- `refineAllObject3D` (McCalib.cpp:1011-1015), `save3DObjPose` (455-483). -/
def readObjs (m : Mem) : Outcome Unit := each (readObj m) m.objs

/-- `cams_group_obs_` directly: `computeObjectsPose` (CameraGroupObs.cpp:42-108), `updateObjObsPose` (208-218),
`computeObjectsPairPose` (McCalib.cpp:1650-1690). -/
def readAllGObs (m : Mem) : Outcome Unit := each (fun e => readGObs m e.2) m.gobs

/-- McCalib.cpp:1635-1641 `computeAllObjPoseInCameraGroup`. -/
def computeAllObjPose (m : Mem) : Outcome Unit := do
  readGroups m
  readAllGObs m

/-- McCalib.cpp:1876-1887 `refineAllCameraGroupAndObjects`, and 2348-2360 with intrinsics. -/
def refineGroups (m : Mem) : Outcome Unit := do
  readGroups m
  readAllGObs m

/-- McCalib.cpp:1893-1990 `saveReprojectionImages`, 2005-2070 `saveDetectionImages`. -/
def saveImages (sc : Scene) (m : Mem) : Outcome Unit := each (readFrame m) sc.frames

/-! ### Functions that create and destroy -/

/-- One new object, listed under `i`. -/
def newObj (m : Mem) (i : Nat) : Mem :=
  { m with next := m.next + 1, objs := OMap.set m.objs i { addr := m.next } }

/-- McCalib.cpp:832-925 `init3DObjects`: `n` objects, listed under `0 .. n-1`. -/
def init3DObjects (n : Nat) (m : Mem) : Mem := (List.range n).foldl newObj m

/-- McCalib.cpp:943-973: one image; the observation is created in any case, and kept if something of the object is
seen. -/
def obsImage (sees : Nat → Nat × Nat → Bool) (i : Nat) (m : Mem) (im : Nat × Nat) : Outcome Mem := do
  let x ← Outcome.deref (OMap.get? m.objs i)
  let a := m.next
  if sees i im then
    pure { m with
      next := a + 1
      objs := OMap.set m.objs i { x with obs := x.obs ++ [a] }
      oo := m.oo ++ [{ addr := a, num := i, obj := x.addr, cam := im.1 }]
      imgObs := OMap.modify m.imgObs im [] (· ++ [a])
      frObs := OMap.modify m.frObs im.2 [] (· ++ [a])
      camObs := OMap.modify m.camObs im.1 [] (· ++ [a]) }
  else pure { m with next := a + 1 }

/-- McCalib.cpp:936-975 `init3DObjectObs`. -/
def init3DObjectObs (sc : Scene) (sees : Nat → Nat × Nat → Bool) (m : Mem) (i : Nat) : Outcome Mem :=
  Outcome.foldlM (obsImage sees i) m sc.imgs

/-- McCalib.cpp:981-984 `initAll3DObjectObs`. -/
def initAll3DObjectObs (sc : Scene) (sees : Nat → Nat × Nat → Bool) (m : Mem) : Outcome Mem :=
  Outcome.foldlM (init3DObjectObs sc sees) m (OMap.keys m.objs)

/-- One new group, listed under `i`. -/
def newGrp (m : Mem) (i : Nat) : Mem :=
  { m with next := m.next + 1, grps := OMap.set m.grps i { addr := m.next } }

/-- McCalib.cpp:1091-1142 `initCameraGroup`: `n` groups. -/
def initCameraGroup (n : Nat) (m : Mem) : Mem := (List.range n).foldl newGrp m

/-- McCalib.cpp:1163-1178: the object observations of the frame made by cameras of the group. -/
def groupSees (member : Nat → Nat → Bool) (gi : Nat) (m : Mem) : List Nat → Outcome (List Nat)
  | [] => pure []
  | a :: as => do
    let o ← lockObs m a
    let r ← groupSees member gi m as
    pure (if member gi o.cam then a :: r else r)

/-- McCalib.cpp:1154-1191: one frame; the observation is created in any case, and kept if not empty. -/
def groupFrame (member : Nat → Nat → Bool) (gi : Nat) (m : Mem) (f : Nat) : Outcome Mem := do
  let x ← Outcome.deref (OMap.get? m.grps gi)
  let seen ← groupSees member gi m ((OMap.get? m.frObs f).getD [])
  let a := m.next
  if seen.length > 0 then
    pure { m with
      next := a + 1
      grps := OMap.set m.grps gi { x with obs := x.obs ++ seen, frames := x.frames ++ [f] }
      gobs := OMap.set m.gobs (gi, f) { addr := a, grp := x.addr, obs := seen }
      frGrp := OMap.modify m.frGrp f [] (· ++ [a]) }
  else pure { m with next := a + 1 }

/-- McCalib.cpp:1149-1193 `initCameraGroupObs`. -/
def initCameraGroupObs (sc : Scene) (member : Nat → Nat → Bool) (m : Mem) (gi : Nat) : Outcome Mem :=
  Outcome.foldlM (groupFrame member gi) m sc.frames

/-- McCalib.cpp:1198-1202 `initAllCameraGroupObs`; a group is listed under its own number. -/
def initAllCameraGroupObs (sc : Scene) (member : Nat → Nat → Bool) (m : Mem) : Outcome Mem :=
  Outcome.foldlM (initCameraGroupObs sc member) m (OMap.keys m.grps)

/-- McCalib.cpp:1712-1814 `mergeObjects`: `n` new objects replace all old ones. -/
def mergeObjects (n : Nat) (m : Mem) : Mem := init3DObjects n { m with objs := [] }

/-- `object_observations_.clear()` of an object (McCalib.cpp:1846). -/
def Obj.bare (x : Obj) : Obj := { x with obs := [] }

/-- `object_observations_.clear()` of a group (McCalib.cpp:1828). -/
def Grp.bare (x : Grp) : Grp := { x with obs := [] }

/-- `object_observations_.clear()` of a group observation (McCalib.cpp:1832). -/
def GObs.bare (x : GObs) : GObs := { x with obs := [] }

/-- McCalib.cpp:1822-1851: all references to object observations are dropped, then the observations. -/
def clearObs (m : Mem) : Mem :=
  { m with
    camObs := m.camObs.map fun e => (e.1, [])
    grps := m.grps.map fun e => (e.1, e.2.bare)
    gobs := m.gobs.map fun e => (e.1, e.2.bare)
    imgObs := m.imgObs.map fun e => (e.1, [])
    frObs := m.frObs.map fun e => (e.1, [])
    objs := m.objs.map fun e => (e.1, e.2.bare)
    oo := [] }

/-- McCalib.cpp:1820-1860 `mergeAllObjectObs`: every object's observations are made once per object. -/
def mergeAllObjectObs (sc : Scene) (sees : Nat → Nat × Nat → Bool) (m : Mem) : Outcome Mem :=
  let m := clearObs m
  Outcome.foldlM (fun m _ => initAll3DObjectObs sc sees m) m m.objs

/-- McCalib.cpp:1529-1610 `mergeCameraGroup`, where it succeeds (see C53): `n` new groups replace all old ones. -/
def mergeCameraGroup (n : Nat) (m : Mem) : Mem := initCameraGroup n { m with grps := [] }

/-- McCalib.cpp:1618-1622: all references to group observations are dropped, then the observations. -/
def clearGObs (m : Mem) : Mem := { m with frGrp := m.frGrp.map fun e => (e.1, []), gobs := [] }

/-- McCalib.cpp:1616-1629 `mergeAllCameraGroupObs`. -/
def mergeAllCameraGroupObs (sc : Scene) (member : Nat → Nat → Bool) (m : Mem) : Outcome Mem :=
  initAllCameraGroupObs sc member (clearGObs m)

/-! ### The workflow -/

/-- What the numerical parts find at a stage. -/
structure Choices where
  /-- number of objects -/
  nObj : Nat
  /-- whether an object is seen in an image -/
  sees : Nat → Nat × Nat → Bool
  /-- number of groups -/
  nGrp : Nat
  /-- whether a camera is in a group -/
  member : Nat → Nat → Bool

/-- McCalib.cpp:2098-2108 `calibrate3DObjects`. -/
def calibrate3DObjects (sc : Scene) (c : Choices) (m : Mem) : Outcome Mem := do
  let m ← initAll3DObjectObs sc c.sees (init3DObjects c.nObj m)
  readAllObs m
  readAllObs m
  readObjs m
  readAllObs m
  pure m

/-- McCalib.cpp:2114-2122 `calibrateCameraGroup`. -/
def calibrateCameraGroup (sc : Scene) (c : Choices) (m : Mem) : Outcome Mem := do
  computeCamerasPairPose sc m
  let m ← initAllCameraGroupObs sc c.member (initCameraGroup c.nGrp m)
  computeAllObjPose m
  refineGroups m
  pure m

/-- McCalib.cpp:2128-2143 `merge3DObjects`. -/
def merge3DObjects (sc : Scene) (c : Choices) (m : Mem) : Outcome Mem := do
  readAllObs m
  computeAllObjPose m
  readAllGObs m
  readGroups m
  let m ← mergeAllObjectObs sc c.sees (mergeObjects c.nObj m)
  let m ← mergeAllCameraGroupObs sc c.member m
  readAllObs m
  computeAllObjPose m
  refineGroups m
  readGroups m
  pure m

/-- calibrate.cpp:42-44, 48-50: the camera groups are merged. -/
def mergeGroups (sc : Scene) (c : Choices) (m : Mem) : Outcome Mem :=
  mergeAllCameraGroupObs sc c.member (mergeCameraGroup c.nGrp m)

/-- calibrate.cpp:20-84. -/
def workflow (sc : Scene) (c : Nat → Choices) : Outcome Mem := do
  let m ← calibrate3DObjects sc (c 0) {}
  let m ← calibrateCameraGroup sc (c 1) m
  let m ← merge3DObjects sc (c 2) m
  readGroups m
  readGroups m
  let m ← mergeGroups sc (c 3) m
  let m ← merge3DObjects sc (c 4) m
  let m ← mergeGroups sc (c 5) m
  readAllObs m
  computeAllObjPose m
  refineGroups m
  refineGroups m
  readGroups m
  saveImages sc m
  saveImages sc m
  readObjs m
  readGroups m
  readGroups m
  pure m

end Verif.Lifetime
