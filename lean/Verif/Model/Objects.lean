import Verif.Model.Store
import Verif.Model.Structure
import Mathlib.Algebra.Group.Action.Defs

/-!
Model of the 3D object stage: `computeBoardsPairPose`, `initInterBoardsGraph`, `init3DObjects`,
`init3DObjectObs` (McCalib.cpp:735-975), `mergeObjects` (1713-1814), `Object3D::updateObjectPts`
(Object3D.cpp:249-268).

`Pt` is the type of 3D points, on which the pose group acts; `transform3DPts` with the stored pose is
`pts.map (pose • ·)` (see `Model/Rigid`).  Weak pointers to boards, board observations and frames
never expire (their owners are never removed), so look-ups through them always succeed.
-/
namespace Verif.Objects
open Structure

variable {G Pt P Path : Type}

/-! ### Board pairs -/

/-- A board observation inside a camera observation: board and pose with respect to the camera. -/
structure SeenBoard (G : Type) where
  board : Nat
  pose : G

/-- McCalib.cpp:743-763: entry for an ordered pair of board observations. -/
def boardPair [Group G] (x y : SeenBoard G) : Option ((Nat × Nat) × G) :=
  if x.board ≠ y.board then some ((x.board, y.board), y.pose⁻¹ * x.pose) else none

/-- McCalib.cpp:737-741: the board observations of each camera observation with more than one board.
`pose i` is the pose of the `i`-th board observation. -/
def boardViews (s : Store P Path) (pose : Nat → G) : List (List (SeenBoard G)) :=
  s.camObs.map fun e =>
    if e.2.boardsIdx.length > 1 then
      e.2.boards.filterMap fun i => (s.obs[i]?).map fun o => ⟨o.board, pose i⟩
    else []

/-- McCalib.cpp:735-768 `computeBoardsPairPose`. -/
def boardPairs [Group G] (s : Store P Path) (pose : Nat → G) : PairTable G :=
  pairTable boardPair (boardViews s pose)

/-- McCalib.cpp:833-838: boards with an observation, in ascending index. -/
def boardVertices (s : Store P Path) : List Nat :=
  (List.range s.boards.length).filter fun b => (s.boards[b]?).any fun r => decide (r.boards.length > 0)

/-- McCalib.cpp:828-845 `initInterBoardsGraph`. -/
def boardGraph (s : Store P Path) (t : PairTable G) : Graph Nat :=
  Graph.run (graphCalls (boardVertices s) (tableEdges t))

/-! ### Objects -/

/-- Object3D.hpp: `Object3D` (colour and observations left out). -/
structure Object (G Pt : Type) where
  /-- `obj_id_` -/
  id : Nat
  /-- `ref_board_id_` -/
  refBoard : Nat
  /-- `nb_boards_` -/
  nbBoards : Nat
  /-- keys of `boards_` -/
  boards : OMap Nat Unit := []
  /-- `nb_pts_` -/
  nbPts : Nat := 0
  /-- `relative_board_pose_` -/
  poses : OMap Nat G := []
  /-- `pts_board_2_obj_` -/
  b2o : OMap (Nat × Nat) Nat := []
  /-- `pts_obj_2_board_` -/
  o2b : List (Nat × Nat) := []
  /-- `pts_3d_` -/
  pts : List Pt := []
  deriving DecidableEq, Repr

/-- McCalib.cpp:913-920, 1795-1802: body of the loop over the transformed points of a board; the
counter is `pts_count`. -/
def insertPt (b : Nat) (st : Object G Pt × Nat) (e : Pt × Nat) : Object G Pt × Nat :=
  ({ st.1 with b2o := OMap.set st.1.b2o (b, e.2) st.2, o2b := st.1.o2b ++ [(b, e.2)],
               pts := st.1.pts ++ [e.1] }, st.2 + 1)

/-- McCalib.cpp:887,907-920 and 1786-1802: `insertBoardInObject` (Object3D.cpp:44-47; a board's
`nb_pts_` is its number of points, Board.cpp:58-82), `setBoardPoseMat`, then its transformed points. -/
def insertBoard [SMul G Pt] (b : Nat) (pose : G) (bpts : List Pt) (st : Object G Pt × Nat) :
    Object G Pt × Nat :=
  (bpts.map (pose • ·)).zipIdx.foldl (insertPt b)
    ({ st.1 with boards := OMap.set st.1.boards b (), nbPts := st.1.nbPts + bpts.length,
                 poses := OMap.set st.1.poses b pose }, st.2)

/-- McCalib.cpp:884-921: one board of a new object. -/
def placeBoard [Group G] [SMul G Pt] (bpts : List (List Pt)) (T : OMap (Nat × Nat) G) (g : Graph Nat)
    (choose : Nat → Nat → Graph.DState → Nat) (r : Nat) (st : Object G Pt × Nat) (b : Nat) :
    Outcome (Object G Pt × Nat) := do
  let pts ← Outcome.idx bpts b
  let pose ← placement (fun x => x⁻¹) T g (choose r b) r b
  pure (insertBoard b pose pts st)

/-- McCalib.cpp:862-924: one connected component.  `bpts[b]` are the model points of board `b`; a
missing board is a null pointer. -/
def initObject [Group G] [SMul G Pt] (bpts : List (List Pt)) (T : OMap (Nat × Nat) G) (g : Graph Nat)
    (choose : Nat → Nat → Graph.DState → Nat) (i : Nat) (c : List Nat) : Outcome (Object G Pt) := do
  let r ← minElement c
  let _ ← Outcome.idx bpts r
  let st ← Outcome.foldlM (placeBoard bpts T g choose r)
    ({ id := i, refBoard := r, nbBoards := c.length }, 0) c
  pure st.1

/-- Body of the loop over components. -/
def initObjectStep [Group G] [SMul G Pt] (bpts : List (List Pt)) (T : OMap (Nat × Nat) G)
    (g : Graph Nat) (choose : Nat → Nat → Graph.DState → Nat) (m : OMap Nat (Object G Pt))
    (e : List Nat × Nat) : Outcome (OMap Nat (Object G Pt)) := do
  let o ← initObject bpts T g choose e.2 e.1
  pure (OMap.set m e.2 o)

/-- McCalib.cpp:854-926 `init3DObjects` (from an empty `object_3d_`). -/
def init3DObjects [Group G] [SMul G Pt] (bpts : List (List Pt)) (T : OMap (Nat × Nat) G)
    (g : Graph Nat) (choose : Nat → Nat → Graph.DState → Nat) : Outcome (OMap Nat (Object G Pt)) :=
  Outcome.foldlM (initObjectStep bpts T g choose) [] g.connectedComponents.zipIdx

/-- McCalib.cpp:2101-2104: `computeBoardsPairPose`, `initInterTransform`, `initInterBoardsGraph`,
`init3DObjects`. -/
def buildObjects [Group G] [SMul G Pt] (s : Store P Path) (pose : Nat → G) (avg : List G → G)
    (bpts : List (List Pt)) (choose : Nat → Nat → Graph.DState → Nat) :
    Outcome (OMap Nat (Object G Pt)) :=
  let t := boardPairs s pose
  init3DObjects bpts (interTransform avg t) (boardGraph s t) choose

/-! ### Point update after a refinement -/

/-- Object3D.cpp:262-265: one point.  `pts_board_2_obj_[..]` of an absent pair is 0; `pts_3d_[..]` is
not checked. -/
def updatePt (b : Nat) (o : Object G Pt) (e : Pt × Nat) : Outcome (Object G Pt) :=
  let j := (OMap.get? o.b2o (b, e.2)).getD 0
  if j < o.pts.length then .ok { o with pts := o.pts.set j e.1 } else .ub

/-- Object3D.cpp:251-266: one board. `relative_board_pose_[..]` of an absent board is the zero vector,
i.e. the identity. -/
def updateBoard [Group G] [SMul G Pt] (bpts : List (List Pt)) (o : Object G Pt) (e : Nat × Unit) :
    Outcome (Object G Pt) := do
  let pts ← Outcome.idx bpts e.1
  let g := (OMap.get? o.poses e.1).getD 1
  Outcome.foldlM (updatePt e.1) o (pts.map (g • ·)).zipIdx

/-- Object3D.cpp:249-268 `updateObjectPts` (and the end of `refineObject`, 227-242). -/
def updateObjectPts [Group G] [SMul G Pt] (bpts : List (List Pt)) (o : Object G Pt) :
    Outcome (Object G Pt) :=
  Outcome.foldlM (updateBoard bpts) o o.boards

/-! ### Merging objects -/

/-- McCalib.cpp:1731-1758: boards counted and pose of the object in the reference object. -/
def mergePlace [Group G] (objs : OMap Nat (Object G Pt)) (T : OMap (Nat × Nat) G) (g : Graph Nat)
    (choose : Nat → Nat → Graph.DState → Nat) (r : Nat) (st : OMap Nat G × Nat) (j : Nat) :
    Outcome (OMap Nat G × Nat) := do
  let o ← Outcome.deref (OMap.get? objs j)
  let t ← placement (fun x => x⁻¹) T g (choose r j) r j
  pure (OMap.set st.1 j t, st.2 + o.boards.length)

/-- McCalib.cpp:1777-1804: one board of a merged object. -/
def mergeBoard [Group G] [SMul G Pt] (bpts : List (List Pt)) (o : Object G Pt) (inMerged : G)
    (st : Object G Pt × Nat) (e : Nat × Unit) : Outcome (Object G Pt × Nat) := do
  let pts ← Outcome.idx bpts e.1
  pure (insertBoard e.1 (inMerged * (OMap.get? o.poses e.1).getD 1) pts st)

/-- McCalib.cpp:1766-1806: one old object. -/
def mergeInto [Group G] [SMul G Pt] (bpts : List (List Pt)) (c : List Nat) (toRef : OMap Nat G)
    (st : Object G Pt × Nat) (e : Nat × Object G Pt) : Outcome (Object G Pt × Nat) :=
  if e.2.id ∈ c then
    match OMap.get? toRef e.2.id with
    | some t => Outcome.foldlM (mergeBoard bpts e.2 t) st e.2.boards
    | none => .throw
  else .ok st

/-- McCalib.cpp:1719-1809: one connected component. -/
def mergeObject [Group G] [SMul G Pt] (bpts : List (List Pt)) (objs : OMap Nat (Object G Pt))
    (T : OMap (Nat × Nat) G) (g : Graph Nat) (choose : Nat → Nat → Graph.DState → Nat) (i : Nat)
    (c : List Nat) : Outcome (Object G Pt) := do
  let r ← minElement c
  let ro ← Outcome.deref (OMap.get? objs r)
  let toRef ← Outcome.foldlM (mergePlace objs T g choose r) ([], 0) c
  let _ ← Outcome.idx bpts ro.refBoard
  let st ← Outcome.foldlM (mergeInto bpts c toRef.1)
    ({ id := i, refBoard := ro.refBoard, nbBoards := toRef.2 }, 0) objs
  pure st.1

/-- Body of the loop over components. -/
def mergeObjectStep [Group G] [SMul G Pt] (bpts : List (List Pt)) (objs : OMap Nat (Object G Pt))
    (T : OMap (Nat × Nat) G) (g : Graph Nat) (choose : Nat → Nat → Graph.DState → Nat)
    (m : OMap Nat (Object G Pt)) (e : List Nat × Nat) : Outcome (OMap Nat (Object G Pt)) := do
  let o ← mergeObject bpts objs T g choose e.2 e.1
  pure (OMap.set m e.2 o)

/-- McCalib.cpp:1713-1814 `mergeObjects`. -/
def mergeObjects [Group G] [SMul G Pt] (bpts : List (List Pt)) (objs : OMap Nat (Object G Pt))
    (T : OMap (Nat × Nat) G) (g : Graph Nat) (choose : Nat → Nat → Graph.DState → Nat) :
    Outcome (OMap Nat (Object G Pt)) :=
  Outcome.foldlM (mergeObjectStep bpts objs T g choose) [] g.connectedComponents.zipIdx

/-! ### Object observations -/

/-- Object3DObs.hpp: `Object3DObs` as filled by `insertNewBoardObs`; `camera_id_` and `frame_id_` are
set by it, so they are always set in a stored observation. -/
structure ObjObs (P : Type) where
  obj : Nat
  cam : Nat
  frame : Nat
  /-- `board_id_` -/
  boardIds : List Nat := []
  /-- `board_observations_` -/
  boards : List Nat := []
  pts : List P := []
  ids : List Nat := []
  deriving DecidableEq, Repr

/-- Object3DObs.cpp:31-52 `insertNewBoardObs`: `charuco_id_[i]` is not checked; the object number of an
unknown corner is 0 (and the absent key is created, which changes nothing else). -/
def insertBoardObs (o : Object G Pt) (oo : ObjObs P) (i : Nat) (bo : BoardObs P) : Outcome (ObjObs P) :=
  if bo.ids.length < bo.pts.length then .ub
  else .ok { oo with
    boardIds := oo.boardIds ++ [bo.board], boards := oo.boards ++ [i],
    cam := bo.cam, frame := bo.frame,
    pts := oo.pts ++ bo.pts
    ids := oo.ids ++ (bo.ids.take bo.pts.length).map fun k => (OMap.get? o.b2o (bo.board, k)).getD 0 }

/-- McCalib.cpp:951-964: one board observation of the camera observation. -/
def gatherStep (s : Store P Path) (o : Object G Pt) (oo : ObjObs P) (i : Nat) : Outcome (ObjObs P) := do
  let bo ← Outcome.idx s.obs i
  if (OMap.get? o.boards bo.board).isSome then insertBoardObs o oo i bo else pure oo

/-- McCalib.cpp:939-973: the object observation of one camera observation, kept if it has a point. -/
def objObsOf (s : Store P Path) (o : Object G Pt) (e : (Nat × Nat) × CamObsRec) :
    Outcome (Option (ObjObs P)) := do
  let oo ← Outcome.foldlM (gatherStep s o) { obj := o.id, cam := e.1.1, frame := e.1.2 } e.2.boards
  pure (if oo.ids.length > 0 then some oo else none)

/-- McCalib.cpp:936-975 `init3DObjectObs`: the new observations in order (the caller appends them to
`object_observations_` and to the index of the camera, frame, camera observation and object). -/
def objObsStep (s : Store P Path) (o : Object G Pt) (acc : List (ObjObs P))
    (e : (Nat × Nat) × CamObsRec) : Outcome (List (ObjObs P)) := do
  let r ← objObsOf s o e
  pure (acc ++ r.toList)

/-- McCalib.cpp:936-975, all camera observations. -/
def init3DObjectObs (s : Store P Path) (o : Object G Pt) (acc : List (ObjObs P)) :
    Outcome (List (ObjObs P)) :=
  Outcome.foldlM (objObsStep s o) acc s.camObs

/-- McCalib.cpp:981-984 `initAll3DObjectObs`. -/
def initAllObjectObs (s : Store P Path) (objs : OMap Nat (Object G Pt)) (acc : List (ObjObs P)) :
    Outcome (List (ObjObs P)) :=
  Outcome.foldlM (fun acc e => init3DObjectObs s e.2 acc) acc objs

/-- McCalib.cpp:1820-1860 `mergeAllObjectObs`: all observations are dropped, then
`initAll3DObjectObs`'s loop is run once per object. -/
def mergeAllObjectObs (s : Store P Path) (objs : OMap Nat (Object G Pt)) : Outcome (List (ObjObs P)) :=
  Outcome.foldlM (fun acc _ => initAllObjectObs s objs acc) [] objs

end Verif.Objects
