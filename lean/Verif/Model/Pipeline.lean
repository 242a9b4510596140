import Verif.Model.NonOverlap

/-!
The workflow of calibrate.cpp:9-85 from the stored board observations to the last camera group merge, as
far as it decides which boards, objects, cameras, groups and observations exist.  All numerical
estimates (poses, refinements, averages, hand-eye results, tie-breaks) are given by `Numerics`, per
stage, and may be anything; the only restriction on refinements is the one built into the cost functions:
the reference board of an object and the reference camera of a group keep their pose (see
`Model/Residual`).  `estimatePoseAllObjects` itself is not modelled here (see `Model/Ransac`).
-/
namespace Verif.Pipeline
open Structure Objects Groups GroupPose NonOverlap

variable {V G Pt P Path : Type}

/-- Results of the numerical parts. -/
structure Numerics (V G : Type) where
  /-- `estimatePoseAllBoards`: pose of each board observation -/
  boardPose : Nat → G
  /-- `estimatePoseAllObjects` at a stage: pose of each object observation -/
  objPose : Nat → Nat → G
  /-- refined board pose: stage, object, board -/
  board : Nat → Nat → Nat → G
  /-- refined camera pose: stage, group, camera -/
  cam : Nat → Nat → Nat → G
  /-- refined pose of an object in a group observation: stage, group, frame, object -/
  inGroup : Nat → Nat → Nat → Nat → V
  /-- average of poses -/
  avg : List G → G
  /-- average of poses in a group observation -/
  avgV : List V → V
  toVec : G → V
  ofVec : V → G
  /-- hand-eye calibration -/
  he : List (G × G) → Outcome G
  /-- tie-breaks of the shortest path search, per stage -/
  choose : Nat → Nat → Nat → Graph.DState → Nat

/-- The tables the workflow works on. -/
structure State (G Pt P : Type) where
  objs : OMap Nat (Object G Pt)
  oo : List (ObjObs P)
  t : GroupTables G
  deriving DecidableEq, Repr

/-- Object3D.cpp:160-243, 249-268: new poses for all boards but the reference board, then the points
are recomputed. -/
def refineObject [Group G] [SMul G Pt] (bpts : List (List Pt)) (f : Nat → G) (o : Object G Pt) :
    Outcome (Object G Pt) :=
  updateObjectPts bpts
    { o with poses := o.poses.map fun e => (e.1, if e.1 = o.refBoard then e.2 else f e.1) }

/-- Body of the loop over objects. -/
def refineObjectStep [Group G] [SMul G Pt] (bpts : List (List Pt)) (f : Nat → Nat → G)
    (m : OMap Nat (Object G Pt)) (e : Nat × Object G Pt) : Outcome (OMap Nat (Object G Pt)) := do
  let o ← refineObject bpts (f e.1) e.2
  pure (OMap.set m e.1 o)

/-- McCalib.cpp:1011-1015 (`refineAllObject3D`), 1880-1882: all objects. -/
def refineObjects [Group G] [SMul G Pt] (bpts : List (List Pt)) (f : Nat → Nat → G)
    (objs : OMap Nat (Object G Pt)) : Outcome (OMap Nat (Object G Pt)) :=
  Outcome.foldlM (refineObjectStep bpts f) [] objs

/-- CameraGroup.cpp:366-474: new poses for all cameras but the reference camera. -/
def refineGroup (f : Nat → G) (g : CamGroup G) : CamGroup G :=
  { g with poses := g.poses.map fun p => (p.1, if p.1 = g.refCam then p.2 else f p.1) }

/-- McCalib.cpp:1876-1878: all groups. -/
def refineGroups (f : Nat → Nat → G) (gs : OMap Nat (CamGroup G)) : OMap Nat (CamGroup G) :=
  gs.map fun e => (e.1, refineGroup (f e.1) e.2)

/-- McCalib.cpp:1876-1887 `refineAllCameraGroupAndObjects`. -/
def refineAll [Group G] [SMul G Pt] (n : Numerics V G) (k : Nat) (bpts : List (List Pt))
    (st : State G Pt P) : Outcome (State G Pt P) := do
  let objs ← refineObjects bpts (n.board k) st.objs
  pure { objs := objs, oo := st.oo, t := { st.t with groups := refineGroups (n.cam k) st.t.groups } }

/-- McCalib.cpp:2100-2110 `calibrate3DObjects`; `obs` are the board observations after outlier
removal. -/
def calibrateObjects [Group G] [SMul G Pt] (n : Numerics V G) (bpts : List (List Pt))
    (s : Store P Path) (obs : List (BoardObs P)) :
    Outcome (OMap Nat (Object G Pt) × List (ObjObs P)) := do
  let objs ← buildObjects s n.boardPose n.avg bpts (n.choose 0)
  let oo ← initAllObjectObs { s with obs := obs } objs []
  let objs ← refineObjects bpts (n.board 0) objs
  pure (objs, oo)

/-- McCalib.cpp:2116-2121: `calibrateCameraGroup` without its refinement. -/
def placeGroups [Group G] (n : Numerics V G) (s : Store P Path) (objs : OMap Nat (Object G Pt))
    (oo : List (ObjObs P)) : Outcome (State G Pt P) := do
  let gs ← buildGroups s oo (n.objPose 1) n.avg (n.choose 1)
  let t ← mergeAllCameraGroupObs oo (OMap.keys s.frames) { groups := gs }
  pure { objs := objs, oo := oo, t := t }

/-- McCalib.cpp:2116-2124 `calibrateCameraGroup`. -/
def calibrateGroups [Group G] [SMul G Pt] (n : Numerics V G) (bpts : List (List Pt))
    (s : Store P Path) (objs : OMap Nat (Object G Pt)) (oo : List (ObjObs P)) :
    Outcome (State G Pt P) := do
  let st ← placeGroups n s objs oo
  refineAll n 1 bpts st

/-- McCalib.cpp:1828-1831: the groups forget their object observations. -/
def forget (gs : OMap Nat (CamGroup G)) : OMap Nat (CamGroup G) :=
  gs.map fun e => (e.1, { e.2 with objObs := [] })

/-- McCalib.cpp:2127-2142: `merge3DObjects` without its refinement, as stage `k`. -/
def joinObjects [Group G] [SMul G Pt] (n : Numerics V G) (k : Nat) (bpts : List (List Pt))
    (s : Store P Path) (obs : List (BoardObs P)) (st : State G Pt P) : Outcome (State G Pt P) := do
  let objs ← merge3DObjects n.toVec n.ofVec n.avgV n.avg (n.choose k) bpts st.objs st.t st.oo (n.objPose k)
  let oo ← mergeAllObjectObs { s with obs := obs } objs
  let t ← mergeAllCameraGroupObs oo (OMap.keys s.frames) { st.t with groups := forget st.t.groups }
  pure { objs := objs, oo := oo, t := t }

/-- McCalib.cpp:2127-2143 `merge3DObjects`, as stage `k`. -/
def mergeStage [Group G] [SMul G Pt] (n : Numerics V G) (k : Nat) (bpts : List (List Pt))
    (s : Store P Path) (obs : List (BoardObs P)) (st : State G Pt P) : Outcome (State G Pt P) := do
  let st ← joinObjects n k bpts s obs st
  refineAll n k bpts st

/-- calibrate.cpp:20-32: everything before the search for non-overlapping groups. -/
def overlapping [Group G] [SMul G Pt] (n : Numerics V G) (bpts : List (List Pt))
    (s : Store P Path) (obs : List (BoardObs P)) : Outcome (State G Pt P) := do
  let r ← calibrateObjects n bpts s obs
  let st ← calibrateGroups n bpts s r.1 r.2
  mergeStage n 2 bpts s obs st

/-- CameraGroup.cpp:366-474: the refinement also changes the poses of the objects in the group observations. -/
def refinePoses (f : Nat → Nat → Nat → V) (op : OMap (Nat × Nat) (OMap Nat V)) : OMap (Nat × Nat) (OMap Nat V) :=
  op.map fun e => (e.1, e.2.map fun p => (p.1, f e.1.1 e.1.2 p.1))

/-- calibrate.cpp:36-37: `findPairObjectForNonOverlap`, `findPoseNoOverlapAllCamGroup`; the object poses in
the groups are those computed and refined at the end of `merge3DObjects` (McCalib.cpp:2139-2141). -/
def nonOverlapping [Group G] (n : Numerics V G) (st : State G Pt P) : Outcome (PairPoses G) :=
  findPoses n.ofVec (refinePoses (n.inGroup 2) (objectPoses n.toVec n.avgV st.t st.oo (n.objPose 3))) st.t st.oo
    (findPairs st.objs st.t st.oo) n.he []

/-- calibrate.cpp:42-44: the first merge of camera groups. -/
def mergeGroups1 [Group G] (n : Numerics V G) (s : Store P Path) (pp : PairPoses G)
    (st : State G Pt P) : Outcome (State G Pt P) := do
  let gs ← mergeWith st.t.groups pp (n.choose 3)
  let t ← mergeAllCameraGroupObs st.oo (OMap.keys s.frames) { st.t with groups := gs }
  pure { st with t := t }

/-- calibrate.cpp:46: `merge3DObjects` again. -/
def afterMerge [Group G] [SMul G Pt] (n : Numerics V G) (bpts : List (List Pt))
    (s : Store P Path) (obs : List (BoardObs P)) (pp : PairPoses G) (st : State G Pt P) :
    Outcome (State G Pt P) := do
  let st ← mergeGroups1 n s pp st
  mergeStage n 4 bpts s obs st

/-- calibrate.cpp:48-50: the second merge of camera groups, with the pairs found before the first. -/
def mergeGroups2 [Group G] (n : Numerics V G) (s : Store P Path) (pp : PairPoses G)
    (st : State G Pt P) : Outcome (State G Pt P) := do
  let gs ← mergeWith st.t.groups pp (n.choose 5)
  let t ← mergeAllCameraGroupObs st.oo (OMap.keys s.frames) { st.t with groups := gs }
  pure { st with t := t }

/-- calibrate.cpp:20-57: the whole sequence, from the board observations to the final refinement. -/
def workflow [Group G] [SMul G Pt] (n : Numerics V G) (bpts : List (List Pt))
    (s : Store P Path) (obs : List (BoardObs P)) : Outcome (State G Pt P) := do
  let st ← overlapping n bpts s obs
  let pp ← nonOverlapping n st
  let st ← afterMerge n bpts s obs pp st
  let st ← mergeGroups2 n s pp st
  refineAll n 5 bpts st

end Verif.Pipeline
