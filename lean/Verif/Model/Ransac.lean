import Verif.Model.Objects
import Mathlib.Analysis.SpecialFunctions.Log.Basic

/-!
Model of the robust pose estimation: `ransacP3P` (geometrytools.cpp:233-326), `ransacP3PDistortion`
(709-751), `BoardObs::estimatePose` (BoardObs.cpp:121-163) and `Object3DObs::estimatePose`
(Object3DObs.cpp:222-247).

`cv::solvePnP`, the projection of points and the sequence of shuffles are parameters.  Distances are
elements of an arbitrary linear order `E` (no NaN).
-/
namespace Verif.Ransac
open Verif

variable {P3 P2 Pose E : Type}

/-- Library functions and parameters of one call. -/
structure Lib (P3 P2 Pose E : Type) where
  /-- `solvePnP` with `CV_P3P`: the previous contents of `Rot`, `Trans` and the four samples -/
  p3p : Pose → List (P3 × P2) → Pose
  /-- `solvePnP` with `CV_ITERATIVE` starting from a pose -/
  refine : Pose → List (P3 × P2) → Pose
  /-- distance of an image point to the projection of a scene point -/
  err : Pose → P3 → P2 → E
  thresh : E
  /-- lines 300-309: the number of trials asked for after an improvement, from the number of inliers and
  of points -/
  trials : Nat → Nat → Int
  /-- the n-th `std::shuffle` -/
  shuffle : Nat → List Nat → List Nat

/-- Loop variables of geometrytools.cpp:240-250. -/
structure St (Pose : Type) where
  N : Int
  trial : Nat
  count : Nat
  vec : List Nat
  cur : Pose
  best : Pose
  inl : List Nat
  bestNb : Nat

/-- geometrytools.cpp:264-269: one point of the sample. -/
def sampleAt (scene : List P3) (image : List P2) (i : Nat) : Outcome (P3 × P2) := do
  let a ← Outcome.idx scene i
  let b ← Outcome.idx image i
  pure (a, b)

/-- geometrytools.cpp:260-269: the four shuffled indexes, then the scene and image points. -/
def sample (scene : List P3) (image : List P2) (vec : List Nat) : Outcome (List (P3 × P2)) := do
  let i0 ← Outcome.idx vec 0
  let i1 ← Outcome.idx vec 1
  let i2 ← Outcome.idx vec 2
  let i3 ← Outcome.idx vec 3
  let s0 ← sampleAt scene image i0
  let s1 ← sampleAt scene image i1
  let s2 ← sampleAt scene image i2
  let s3 ← sampleAt scene image i3
  pure [s0, s1, s2, s3]

/-- geometrytools.cpp:283-288: test of one point. -/
def testPoint [LinearOrder E] (lib : Lib P3 P2 Pose E) (image : List P2) (p : Pose) (l : List Nat)
    (e : P3 × Nat) : Outcome (List Nat) := do
  let b ← Outcome.idx image e.2
  pure (if lib.err p e.1 b < lib.thresh then l ++ [e.2] else l)

/-- geometrytools.cpp:275-289: the inliers of a model. -/
def countInliers [LinearOrder E] (lib : Lib P3 P2 Pose E) (scene : List P3) (image : List P2) (p : Pose) :
    Outcome (List Nat) :=
  Outcome.foldlM (testPoint lib image p) [] scene.zipIdx

/-- geometrytools.cpp:292-310: keep the best model. -/
def keepBest (lib : Lib P3 P2 Pose E) (total : Nat) (st : St Pose) (l : List Nat) : St Pose :=
  if st.bestNb < l.length then
    { st with inl := l, bestNb := l.length, best := st.cur, N := lib.trials l.length total, trial := 0 }
  else st

/-- geometrytools.cpp:256-311: one iteration. -/
def step [LinearOrder E] (lib : Lib P3 P2 Pose E) (scene : List P3) (image : List P2) (st : St Pose) :
    Outcome (St Pose) := do
  let vec := lib.shuffle st.count st.vec
  let s ← sample scene image vec
  let cur := lib.p3p st.cur s
  let l ← countInliers lib scene image cur
  let st := keepBest lib scene.length { st with vec := vec, cur := cur, trial := st.trial + 1 } l
  pure { st with count := st.count + 1 }

/-- geometrytools.cpp:255: `while (N > trialcount && countit < it)`; the first argument is
`it - countit`. -/
def loop [LinearOrder E] (lib : Lib P3 P2 Pose E) (scene : List P3) (image : List P2) :
    Nat → St Pose → Outcome (St Pose)
  | 0, st => .ok st
  | n + 1, st => if (st.trial : Int) < st.N then step lib scene image st >>= loop lib scene image n else .ok st

/-- geometrytools.cpp:318-321: one inlier correspondence. -/
def gatherPoint (scene : List P3) (image : List P2) (l : List (P3 × P2)) (i : Nat) : Outcome (List (P3 × P2)) := do
  let s ← sampleAt scene image i
  pure (l ++ [s])

/-- geometrytools.cpp:314-324: refinement on the inliers. -/
def finish (lib : Lib P3 P2 Pose E) (scene : List P3) (image : List P2) (doRefine : Bool) (st : St Pose) :
    Outcome (List Nat × Pose) :=
  if doRefine = true ∧ 4 ≤ st.bestNb then do
    let pts ← Outcome.foldlM (gatherPoint scene image) [] st.inl
    pure (st.inl, lib.refine st.best pts)
  else .ok (st.inl, st.best)

/-- geometrytools.cpp:233-326 `ransacP3P`.  `init` is what the caller's `BestR`, `BestT` contain, `cur` what
the fresh matrices `Rot`, `Trans` (lines 247-248, uninitialised) contain; returns the inlier indexes and
the pose. -/
def ransacP3P [LinearOrder E] (lib : Lib P3 P2 Pose E) (scene : List P3) (image : List P2) (it : Nat)
    (doRefine : Bool) (init cur : Pose) : Outcome (List Nat × Pose) :=
  loop lib scene image it
    { N := it, trial := 0, count := 0, vec := List.range image.length, cur := cur, best := init, inl := [],
      bestNb := 0 } >>= finish lib scene image doRefine

/-- geometrytools.cpp:709-751 `ransacP3PDistortion`: `lib0` works with the distorted pixels, `lib1` with the
pixels undistorted by `undist`; other distortion models leave the pose alone and report no inlier. -/
def ransacP3PDistortion [LinearOrder E] (lib0 lib1 : Lib P3 P2 Pose E) (undist : P2 → P2) (model : Int)
    (scene : List P3) (image : List P2) (it : Nat) (init cur : Pose) : Outcome (List Nat × Pose) :=
  if model = 0 then ransacP3P lib0 scene image it true init cur
  else if model = 1 then ransacP3P lib1 scene (image.map undist) it true init cur
  else .ok ([], init)

/-! ### Number of trials -/

/-- `int(round(x))`, halves away from zero. -/
noncomputable def roundHalfAway (x : ℝ) : ℤ := if 0 ≤ x then ⌊x + 1 / 2⌋ else -⌊-x + 1 / 2⌋

/-- geometrytools.cpp:301-306: probability of an outlier in a sample, kept away from 0 and 1. -/
noncomputable def noOutliers (best total : Nat) : ℝ :=
  let q := 1 - ((best : ℝ) / total) ^ 3
  let q := if q = 0 then 0.00001 else q
  if q > 1 - 0.00001 then 1 - 0.00001 else q

/-- geometrytools.cpp:300-308: `N = int(round(log(1 - p) / log(pNoOutliers)))`. -/
noncomputable def trials (p : ℝ) (best total : Nat) : ℤ :=
  roundHalfAway (Real.log (1 - p) / Real.log (noOutliers best total))

/-! ### Use of the estimate -/

/-- The fields of `BoardObs` changed by `estimatePose`. -/
structure View (P2 Pose : Type) where
  pts : List P2
  ids : List Nat
  valid : Bool
  pose : Pose

/-- BoardObs.cpp:126, Object3DObs.cpp:227: one scene point. -/
def scenePoint (model3d : List P3) (l : List P3) (i : Nat) : Outcome (List P3) := do
  let p ← Outcome.idx model3d i
  pure (l ++ [p])

/-- BoardObs.cpp:124-129, Object3DObs.cpp:225-229: `pts_3d_[id]` for each id, unchecked. -/
def scenePoints (model3d : List P3) (ids : List Nat) : Outcome (List P3) :=
  Outcome.foldlM (scenePoint model3d) [] ids

/-- BoardObs.cpp:153-160: one kept point. -/
def keepPoint (v : View P2 Pose) (acc : List P2 × List Nat) (i : Nat) : Outcome (List P2 × List Nat) := do
  let p ← Outcome.idx v.pts i
  let c ← Outcome.idx v.ids i
  pure (acc.1 ++ [p], acc.2 ++ [c])

/-- BoardObs.cpp:121-163 `BoardObs::estimatePose` (camera and board alive); `ransac` is the call of
`ransacP3PDistortion`. -/
def estimateBoard (ransac : List P3 → List P2 → Outcome (List Nat × Pose)) (model3d : List P3)
    (v : View P2 Pose) : Outcome (View P2 Pose) := do
  let scene ← scenePoints model3d v.ids
  let r ← ransac scene v.pts
  let acc ← Outcome.foldlM (keepPoint v) ([], []) r.1
  pure { pts := acc.1, ids := acc.2, valid := if r.1.length < 4 then false else v.valid, pose := r.2 }

/-- Object3DObs.cpp:222-247 `Object3DObs::estimatePose`: no outlier is removed. -/
def estimateObject (ransac : List P3 → List P2 → Outcome (List Nat × Pose)) (model3d : List P3)
    (v : View P2 Pose) : Outcome (View P2 Pose) := do
  let scene ← scenePoints model3d v.ids
  let r ← ransac scene v.pts
  pure { v with pose := r.2 }

/-- A call of `ransacP3PDistortion` by an observation: number of the call, camera, points. -/
abbrev Search (P3 P2 Pose : Type) := Nat → Nat → List P3 → List P2 → Outcome (List Nat × Pose)

/-- A board observation with its `valid_` flag and pose. -/
structure Estimated (P2 Pose : Type) where
  obs : BoardObs P2
  valid : Bool
  pose : Pose

/-- McCalib.cpp:704-705: one board observation (`pose` starts unset: `garbage`; `valid_` starts true,
BoardObs.hpp). -/
def boardStep (search : Search P3 P2 Pose) (garbage : Pose) (bpts : List (List P3))
    (acc : List (Estimated P2 Pose)) (bo : BoardObs P2) : Outcome (List (Estimated P2 Pose)) := do
  let model3d ← Outcome.idx bpts bo.board
  let v ← estimateBoard (search acc.length bo.cam) model3d ⟨bo.pts, bo.ids, true, garbage⟩
  pure (acc ++ [⟨{ bo with pts := v.pts, ids := v.ids }, v.valid, v.pose⟩])

/-- McCalib.cpp:703-706 `estimatePoseAllBoards`. -/
def estimateAllBoards (search : Search P3 P2 Pose) (garbage : Pose) (bpts : List (List P3))
    (obs : List (BoardObs P2)) : Outcome (List (Estimated P2 Pose)) :=
  Outcome.foldlM (boardStep search garbage bpts) [] obs

/-- McCalib.cpp:991-992: one object observation. -/
def objectStep {G : Type} (search : Search P3 P2 Pose) (garbage : Pose) (objs : OMap Nat (Objects.Object G P3))
    (acc : List Pose) (oo : Objects.ObjObs P2) : Outcome (List Pose) := do
  let o ← Outcome.deref (OMap.get? objs oo.obj)
  let v ← estimateObject (search acc.length oo.cam) o.pts ⟨oo.pts, oo.ids, true, garbage⟩
  pure (acc ++ [v.pose])

/-- McCalib.cpp:990-993 `estimatePoseAllObjects`: the new poses of the object observations. -/
def estimateAllObjects {G : Type} (search : Search P3 P2 Pose) (garbage : Pose)
    (objs : OMap Nat (Objects.Object G P3)) (oos : List (Objects.ObjObs P2)) : Outcome (List Pose) :=
  Outcome.foldlM (objectStep search garbage objs) [] oos

end Verif.Ransac
