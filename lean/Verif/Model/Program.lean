import Verif.Model.Finish
import Verif.Model.ReproErr

/-!
The workflow of calibrate.cpp:20-61 with `estimatePoseAllObjects` (McCalib.cpp:990-993) in its places: the poses of the
object observations, which `Model/Pipeline` takes from outside, are here the results of the robust pose estimation
(`Model/Ransac`), so that the run fails where the estimation fails.  The refinements and averages are still given.
-/
namespace Verif.Program
open Structure Objects Groups NonOverlap Pipeline Ransac

variable {V G Pt P Path : Type}

/-- The pose estimations of a run. -/
structure Estimator (Pt P G : Type) where
  /-- the searches of the n-th call of `estimatePoseAllObjects` -/
  search : Nat → Search Pt P G
  /-- what fresh matrices contain -/
  garbage : G
  /-- `refineAllObject3D` (McCalib.cpp:1011-1015) also changes the poses of the object observations -/
  refined : List G → List G

/-- The pose of an object observation. -/
def poseAt [One G] (ps : List G) (i : Nat) : G := (ps[i]?).getD 1

/-- The numerical parts with these poses of the object observations. -/
def withPoses (n : Numerics V G) (p : Nat → Nat → G) : Numerics V G := { n with objPose := p }

/-- McCalib.cpp:2098-2108 `calibrate3DObjects`: objects, their observations and the poses of these. -/
def calibrateObjects [Group G] [SMul G Pt] (e : Estimator Pt P G) (n : Numerics V G) (bpts : List (List Pt))
    (s : Store P Path) (obs : List (BoardObs P)) :
    Outcome (OMap Nat (Object G Pt) × List (ObjObs P) × (Nat → G)) := do
  let objs ← buildObjects s n.boardPose n.avg bpts (n.choose 0)
  let oo ← initAllObjectObs { s with obs := obs } objs []
  let ps ← estimateAllObjects (e.search 0) e.garbage objs oo
  let objs ← refineObjects bpts (n.board 0) objs
  pure (objs, oo, poseAt (e.refined ps))

/-- McCalib.cpp:2128-2143 `merge3DObjects` as stage `k`, of which the first estimation is number `j`; also returns the
poses of the object observations. -/
def mergeStage [Group G] [SMul G Pt] (e : Estimator Pt P G) (n : Numerics V G) (k j : Nat) (bpts : List (List Pt))
    (s : Store P Path) (obs : List (BoardObs P)) (st : State G Pt P) : Outcome (State G Pt P × (Nat → G)) := do
  let ps ← estimateAllObjects (e.search j) e.garbage st.objs st.oo
  let st1 ← joinObjects (withPoses n fun _ => poseAt ps) k bpts s obs st
  let qs ← estimateAllObjects (e.search (j + 1)) e.garbage st1.objs st1.oo
  let st2 ← refineAll n k bpts st1
  pure (st2, poseAt qs)

/-- calibrate.cpp:20-32. -/
def overlapping [Group G] [SMul G Pt] (e : Estimator Pt P G) (n : Numerics V G) (bpts : List (List Pt))
    (s : Store P Path) (obs : List (BoardObs P)) : Outcome (State G Pt P × (Nat → G)) := do
  let r ← calibrateObjects e n bpts s obs
  let st ← calibrateGroups (withPoses n fun _ => r.2.2) bpts s r.1 r.2.1
  mergeStage e n 2 1 bpts s obs st

/-- calibrate.cpp:51-61, beginning with `estimatePoseAllObjects`. -/
def finalStage [Group G] [SMul G Pt] (e : Estimator Pt P G) (n : Numerics V G) (fix : Int) (bpts : List (List Pt))
    (st : State G Pt P) : Outcome (State G Pt P × OMap (Nat × Nat) (OMap Nat V)) := do
  let ps ← estimateAllObjects (e.search 5) e.garbage st.objs st.oo
  Finish.finalStage (withPoses n fun _ => poseAt ps) fix bpts st

/-- calibrate.cpp:34-61: from the search for non-overlapping groups to the last refinement. -/
def merging [Group G] [SMul G Pt] (e : Estimator Pt P G) (n : Numerics V G) (fix : Int) (bpts : List (List Pt))
    (s : Store P Path) (obs : List (BoardObs P)) (st : State G Pt P) (pose : Nat → G) :
    Outcome (State G Pt P × OMap (Nat × Nat) (OMap Nat V)) := do
  let pp ← nonOverlapping (withPoses n fun _ => pose) st
  let st ← mergeGroups1 n s pp st
  let q ← mergeStage e n 4 3 bpts s obs st
  let st ← mergeGroups2 n s pp q.1
  finalStage e n fix bpts st

/-- calibrate.cpp:20-61. -/
def run [Group G] [SMul G Pt] (e : Estimator Pt P G) (n : Numerics V G) (fix : Int) (bpts : List (List Pt))
    (s : Store P Path) (obs : List (BoardObs P)) :
    Outcome (State G Pt P × OMap (Nat × Nat) (OMap Nat V)) := do
  let r ← overlapping e n bpts s obs
  merging e n fix bpts s obs r.1 r.2

/-- calibrate.cpp:15-61: from the stored detections; `refine` is `refineIntrinsicAndPoseAllCam` if the intrinsics are
not fixed (`Model/ReproErr`). -/
def calibrate [Group G] [SMul G Pt] {K : Type} [Field K] [LinearOrder K] (search : Search Pt P G)
    (refine : Option (List (Estimated P G) → Outcome (List (Estimated P G) × ReproErr.Projection P G Pt K)))
    (pr : ReproErr.Projection P G Pt K) (e : Estimator Pt P G) (n : Numerics V G) (fix : Int) (bpts : List (List Pt))
    (s : Store P Path) : Outcome (State G Pt P × OMap (Nat × Nat) (OMap Nat V)) := do
  let x ← ReproErr.initIntrinsic search e.garbage bpts s.obs refine pr
  run e { n with boardPose := poseAt (x.1.map (·.pose)) } fix bpts s (x.1.map (·.obs))

end Verif.Program
