import Verif.Model.GroupPose

/-!
Non-overlapping camera groups: `findPairObjectForNonOverlap` (McCalib.cpp:1229-1334),
`initNonOverlapPair` (1341-1479), `findPoseNoOverlapAllCamGroup` (1484-1499).

A frame's observation by group `g` is found by searching `g` in `cam_group_idx_` and taking the entry of
`cam_group_observations_` at the same place (1274-1294, 1388-1405); both lists are extended together
(Frame.cpp:50-58), so this is the entry of `cams_group_obs_` for (`g`, frame), or none.
-/
namespace Verif.NonOverlap
open Objects Groups GroupPose

variable {V G Pt P : Type}

/-- McCalib.cpp:1238-1266, 1360-1380: the frames in common; `std::set_intersection` of two maps ordered
by frame number. -/
def commonFrames (g1 g2 : CamGroup G) : List Nat :=
  (OMap.keys g1.frames).filter fun f => decide (f ∈ OMap.keys g2.frames)

/-- McCalib.cpp:1242-1250: inner loop. -/
def zeroRow (objs : OMap Nat (Object G Pt)) (m : OMap (Nat × Nat) Nat) (a : Nat × Object G Pt) :
    OMap (Nat × Nat) Nat :=
  objs.foldl (fun m b => if a.2.id ≠ b.2.id then OMap.set m (a.2.id, b.2.id) 0 else m) m

/-- McCalib.cpp:1240-1250: all pairs of different objects start with count 0. -/
def zeroCounts (objs : OMap Nat (Object G Pt)) : OMap (Nat × Nat) Nat := objs.foldl (zeroRow objs) []

/-- The objects of the observations of a group observation, in order (`object_idx_`). -/
def objIdx (oo : List (ObjObs P)) (is : List Nat) : List Nat :=
  is.filterMap fun i => (oo[i]?).map (·.obj)

/-- McCalib.cpp:1303-1310: one observation of the second group. -/
def countObs (a : Nat) (m : OMap (Nat × Nat) Nat) (b : Nat) : OMap (Nat × Nat) Nat :=
  OMap.modify m (a, b) 0 (· + 1)

/-- McCalib.cpp:1299-1312: the double loop over the observations of the two groups in a frame; pairs
with the same object are counted too. -/
def countFrame (as bs : List Nat) (m : OMap (Nat × Nat) Nat) : OMap (Nat × Nat) Nat :=
  as.foldl (fun m a => bs.foldl (countObs a) m) m

/-- McCalib.cpp:1271-1315: one common frame. -/
def countStep (t : GroupTables G) (oo : List (ObjObs P)) (i j : Nat) (m : OMap (Nat × Nat) Nat)
    (f : Nat) : OMap (Nat × Nat) Nat :=
  match OMap.get? t.groupObs (i, f), OMap.get? t.groupObs (j, f) with
  | some as, some bs => countFrame (objIdx oo as) (objIdx oo bs) m
  | _, _ => m

/-- McCalib.cpp:1318-1325: one entry of the search for the maximum. -/
def maxStep (st : (Nat × Nat) × Nat) (e : (Nat × Nat) × Nat) : (Nat × Nat) × Nat :=
  if e.2 > st.2 then (e.1, e.2) else st

/-- McCalib.cpp:1317-1325: pair of the maximal count, `(0, 0)` if every count is 0. -/
def argMax (m : OMap (Nat × Nat) Nat) : Nat × Nat := (m.foldl maxStep ((0, 0), 0)).1

/-- McCalib.cpp:1236-1331: the pair of objects for groups `i`, `j`. -/
def objectPairFor (objs : OMap Nat (Object G Pt)) (t : GroupTables G) (oo : List (ObjObs P))
    (i j : Nat) (g1 g2 : CamGroup G) : Nat × Nat :=
  argMax ((commonFrames g1 g2).foldl (countStep t oo i j) (zeroCounts objs))

/-- Inner loop of `findPairObjectForNonOverlap`. -/
def pairRow (objs : OMap Nat (Object G Pt)) (t : GroupTables G) (oo : List (ObjObs P))
    (m : OMap (Nat × Nat) (Nat × Nat)) (a : Nat × CamGroup G) : OMap (Nat × Nat) (Nat × Nat) :=
  t.groups.foldl (fun m b => if a.1 ≠ b.1 then
    OMap.set m (a.1, b.1) (objectPairFor objs t oo a.1 b.1 a.2 b.2) else m) m

/-- McCalib.cpp:1229-1334 `findPairObjectForNonOverlap`. -/
def findPairs (objs : OMap Nat (Object G Pt)) (t : GroupTables G) (oo : List (ObjObs P)) :
    OMap (Nat × Nat) (Nat × Nat) :=
  t.groups.foldl (pairRow objs t oo) []

/-- McCalib.cpp:1407-1447: the poses of the two objects in a common frame, if both are seen; `op` is
`object_pose_` of the group observations, a missing pose is the identity. -/
def framePoses [Group G] (ofVec : V → G) (op : OMap (Nat × Nat) (OMap Nat V)) (t : GroupTables G)
    (oo : List (ObjObs P)) (i j : Nat) (ab : Nat × Nat) (f : Nat) : Option (G × G) :=
  match OMap.get? t.groupObs (i, f), OMap.get? t.groupObs (j, f) with
  | some as, some bs =>
    if ab.1 ∈ objIdx oo as ∧ ab.2 ∈ objIdx oo bs then
      some ((((OMap.get? op (i, f)).bind fun m => OMap.get? m ab.1).map ofVec).getD 1,
        (((OMap.get? op (j, f)).bind fun m => OMap.get? m ab.2).map ofVec).getD 1)
    else none
  | _, _ => none

/-- The tables `no_overlap_camgroup_pair_pose_` and `no_overlap__camgroup_pair_common_cnt_`. -/
structure PairPoses (G : Type) where
  pose : OMap (Nat × Nat) G := []
  cnt : OMap (Nat × Nat) Nat := []
  deriving DecidableEq, Repr

/-- McCalib.cpp:1341-1479 `initNonOverlapPair`; `he` is the hand-eye calibration (`Model/HandEye`), its
result is inverted. -/
def initPair [Group G] (ofVec : V → G) (op : OMap (Nat × Nat) (OMap Nat V)) (t : GroupTables G)
    (oo : List (ObjObs P)) (pairs : OMap (Nat × Nat) (Nat × Nat)) (he : List (G × G) → Outcome G)
    (st : PairPoses G) (a b : Nat × CamGroup G) : Outcome (PairPoses G) :=
  let ab := (OMap.get? pairs (a.1, b.1)).getD (0, 0)
  let ps := (commonFrames a.2 b.2).filterMap (framePoses ofVec op t oo a.1 b.1 ab)
  if ps.length ≤ 3 then .ok st
  else do
    let x ← he ps
    pure { pose := OMap.set st.pose (a.1, b.1) x⁻¹, cnt := OMap.set st.cnt (a.1, b.1) ps.length }

/-- Inner loop of `findPoseNoOverlapAllCamGroup`. -/
def initPairRow [Group G] (ofVec : V → G) (op : OMap (Nat × Nat) (OMap Nat V)) (t : GroupTables G)
    (oo : List (ObjObs P)) (pairs : OMap (Nat × Nat) (Nat × Nat)) (he : List (G × G) → Outcome G)
    (st : PairPoses G) (a : Nat × CamGroup G) : Outcome (PairPoses G) :=
  Outcome.foldlM (fun st b => if a.1 ≠ b.1 then initPair ofVec op t oo pairs he st a b else .ok st)
    st t.groups

/-- McCalib.cpp:1484-1499 `findPoseNoOverlapAllCamGroup`: the poses are cleared (twice), the counts
are not. -/
def findPoses [Group G] (ofVec : V → G) (op : OMap (Nat × Nat) (OMap Nat V)) (t : GroupTables G)
    (oo : List (ObjObs P)) (pairs : OMap (Nat × Nat) (Nat × Nat)) (he : List (G × G) → Outcome G)
    (cnt0 : OMap (Nat × Nat) Nat) : Outcome (PairPoses G) :=
  Outcome.foldlM (initPairRow ofVec op t oo pairs he) { pose := [], cnt := cnt0 } t.groups

/-- calibrate.cpp: `initInterCamGroupGraph` followed by `mergeCameraGroup`, with the recorded pairs. -/
def mergeWith [Group G] (gs : OMap Nat (CamGroup G)) (pp : PairPoses G)
    (choose : Nat → Nat → Graph.DState → Nat) : Outcome (OMap Nat (CamGroup G)) :=
  mergeCameraGroup gs pp.pose (groupGraph gs pp.pose fun k => (OMap.get? pp.cnt k).getD 0) choose

end Verif.NonOverlap
