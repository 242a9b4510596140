import Verif.Model.Quaternion
import Mathlib.Analysis.SpecialFunctions.Trigonometric.Inverse

/-!
Model of the hand-eye calibration of two camera groups (geometrytools.cpp:357-686), over the real numbers.

Library functions are parameters: `cv::Rodrigues`, the singular vector of `cv::SVD`, `cv::kmeans`,
`cv::calibrateHandEye` (Tsai and Horaud; they may throw), the shuffles and the random picks.
-/
namespace Verif.HandEye
open Verif Verif.Rigid Verif.Quaternion

/-- One motion given to `cv::calibrateHandEye`. -/
structure Motion where
  r1 : Mat3 ℝ
  t1 : Vec3 ℝ
  r2 : Mat3 ℝ
  t2 : Vec3 ℝ

/-- Library functions. -/
structure Lib where
  ro : Rodrigues ℝ
  svd : Mat4 ℝ → Quat
  /-- `std::numeric_limits<double>::epsilon()` -/
  eps : ℝ
  /-- labels given by `cv::kmeans` to the rows, for a number of clusters -/
  kmeans : List (List ℝ) → Nat → List Nat
  /-- `std::shuffle` in a round -/
  shuffle : Nat → List Nat → List Nat
  /-- random index: round, which of the picks, number of candidates -/
  pick : Nat → Nat → Nat → Nat
  tsai : List Motion → Outcome (Mat3 ℝ × Vec3 ℝ)
  horaud : List Motion → Outcome (Mat3 ℝ × Vec3 ℝ)

/-- geometrytools.cpp:370-386, 519-536: the motion of one pose pair. -/
noncomputable def motion (ro : Rodrigues ℝ) (p1 p2 : Mat4 ℝ) : Motion :=
  let a := Proj2RT ro p1⁻¹
  let b := Proj2RT ro p2
  { r1 := ro.toMat a.1, t1 := a.2, r2 := ro.toMat b.1, t2 := b.2 }

/-- One iteration of the loop at 370-386 or 519-536. -/
noncomputable def motionStep (ro : Rodrigues ℝ) (p1 p2 : List (Mat4 ℝ)) (acc : List Motion) (i : Nat) :
    Outcome (List Motion) := do
  let a ← Outcome.idx p1 i
  let b ← Outcome.idx p2 i
  pure (acc ++ [motion ro a b])

/-- geometrytools.cpp:362-395 `handeyeCalibration`. -/
noncomputable def handeyeCalibration (lib : Lib) (p1 p2 : List (Mat4 ℝ)) : Outcome (Mat4 ℝ) := do
  let ms ← Outcome.foldlM (motionStep lib.ro p1 p2) [] (List.range p1.length)
  let x ← lib.horaud ms
  pure (RT2Proj x.1 x.2)

/-- geometrytools.cpp:404-418 `getTranslationsForClustering`: one row per pose pair. -/
def translations (p1 p2 : List (Mat4 ℝ)) : List (List ℝ) :=
  (p1.zip p2).map fun e =>
    let a := projTrans e.1
    let b := projTrans e.2
    [a 0, a 1, a 2, b 0, b 1, b 2]

/-- geometrytools.cpp:461-463: one cluster. -/
def selectClusterStep (shuffled acc : List Nat) (k : Nat) : Outcome (List Nat) := do
  let c ← Outcome.idx shuffled k
  pure (acc ++ [c])

/-- geometrytools.cpp:448-466 `selectClusters`. -/
def selectClusters (shuffle : List Nat → List Nat) (numClusters nbPick : Nat) : Outcome (List Nat) :=
  Outcome.foldlM (selectClusterStep (shuffle (List.range numClusters))) [] (List.range nbPick)

/-- geometrytools.cpp:482-487: the poses of a cluster. -/
def members (labels : List Nat) (c : Nat) : List Nat :=
  (List.range labels.length).filter fun i => labels[i]? == some c

/-- geometrytools.cpp:481-494: one cluster.  A distribution over an empty range is undefined. -/
def selectPoseStep (labels : List Nat) (pick : Nat → Nat → Nat) (acc : List Nat) (c : Nat) :
    Outcome (List Nat) :=
  let m := members labels c
  if m.length = 0 then .ub
  else do
    let i ← Outcome.idx m (pick acc.length m.length)
    pure (acc ++ [i])

/-- geometrytools.cpp:475-498 `selectPoses`. -/
def selectPoses (labels : List Nat) (pick : Nat → Nat → Nat) (clusters : List Nat) : Outcome (List Nat) :=
  Outcome.foldlM (selectPoseStep labels pick) [] clusters

/-- `std::acos` in degrees; `none` is NaN. -/
noncomputable def acosDegrees (x : ℝ) : Option ℝ :=
  if -1 ≤ x ∧ x ≤ 1 then some (Real.arccos x * 180 / Real.pi) else none

/-- `std::max(a, b)` for a number `a`: `a < b ? b : a`, so `a` if `b` is NaN. -/
noncomputable def maxNaN (a : ℝ) (b : Option ℝ) : ℝ :=
  match b with
  | some b => if a < b then b else a
  | none => a

/-- geometrytools.cpp:588-597: the error of one pair (i, j); both matrices called `_2` are read at `i` like
those called `_1`. -/
noncomputable def pairError (lib : Lib) (p11 p21 p12 p22 X : Mat4 ℝ) : Option ℝ :=
  let PP1 := p12⁻¹ * p11
  let PP2 := p21⁻¹ * p22
  let E := PP2⁻¹ * X * PP1 * X
  let R := lib.ro.toMat (Proj2RT lib.ro E).1
  acosDegrees (0.5 * (R.trace - lib.eps - 1))

/-- geometrytools.cpp:584-600: one iteration of the inner loop. -/
noncomputable def innerStep (lib : Lib) (p1 p2 : List (Mat4 ℝ)) (sel : List Nat) (X : Mat4 ℝ) (i : Nat)
    (p11 p21 : Mat4 ℝ) (m : ℝ) (j : Nat) : Outcome ℝ :=
  if i ≠ j then do
    let s ← Outcome.idx sel i
    let p12 ← Outcome.idx p1 s
    let p22 ← Outcome.idx p2 s
    pure (maxNaN m (pairError lib p11 p21 p12 p22 X))
  else .ok m

/-- geometrytools.cpp:581-601: one iteration of the outer loop. -/
noncomputable def outerStep (lib : Lib) (p1 p2 : List (Mat4 ℝ)) (sel : List Nat) (X : Mat4 ℝ) (m : ℝ) (i : Nat) :
    Outcome ℝ := do
  let s ← Outcome.idx sel i
  let p11 ← Outcome.idx p1 s
  let p21 ← Outcome.idx p2 s
  Outcome.foldlM (innerStep lib p1 p2 sel X i p11 p21) m (List.range sel.length)

/-- geometrytools.cpp:576-603 `checkSetConsistency`. -/
noncomputable def checkSetConsistency (lib : Lib) (p1 p2 : List (Mat4 ℝ)) (sel : List Nat) (X : Mat4 ℝ) :
    Outcome ℝ :=
  Outcome.foldlM (outerStep lib p1 p2 sel X) 0 (List.range sel.length)

/-- geometrytools.cpp:639-652: choice of the poses of a round and their hand-eye solution. -/
noncomputable def roundSolve (lib : Lib) (p1 p2 : List (Mat4 ℝ)) (labels : List Nat) (numClusters : Nat)
    (round : Nat) : Outcome (List Nat × Mat4 ℝ) := do
  let clusters ← selectClusters (lib.shuffle round) numClusters 6
  let sel ← selectPoses labels (lib.pick round) clusters
  let ms ← Outcome.foldlM (motionStep lib.ro p1 p2) [] sel
  let x ← lib.tsai ms
  pure (sel, RT2Proj x.1 x.2)

/-- geometrytools.cpp:638-668: one round; the accumulator holds the rotation vectors and translations of
the successes. -/
noncomputable def roundStep (lib : Lib) (p1 p2 : List (Mat4 ℝ)) (labels : List Nat) (numClusters : Nat)
    (acc : List (Vec3 ℝ × Vec3 ℝ)) (round : Nat) : Outcome (List (Vec3 ℝ × Vec3 ℝ)) := do
  let r ← roundSolve lib p1 p2 labels numClusters round
  let err ← checkSetConsistency lib p1 p2 r.1 r.2
  pure (if err < 15 then acc ++ [Proj2RT lib.ro r.2] else acc)

/-- geometrytools.cpp:672-679: mean of the successes. -/
noncomputable def combine (lib : Lib) (ok : List (Vec3 ℝ × Vec3 ℝ)) : Mat4 ℝ :=
  RVecT2Proj lib.ro (getAverageRotation lib.ro lib.svd true (ok.map (·.1)))
    ![Average.median (ok.map (·.2 0)), Average.median (ok.map (·.2 1)), Average.median (ok.map (·.2 2))]

/-- geometrytools.cpp:671-685: the result. -/
noncomputable def conclude (lib : Lib) (p1 : List (Mat4 ℝ)) (ok : List (Vec3 ℝ × Vec3 ℝ)) : Outcome (Mat4 ℝ) :=
  if 3 < ok.length then .ok (combine lib ok) else handeyeCalibration lib p1 p1

/-- geometrytools.cpp:620-686 `handeyeBootstraptTranslationCalibration`.  `cv::kmeans` throws on no
clusters. -/
noncomputable def bootstrap (lib : Lib) (nbCluster nbIt : Nat) (p1 p2 : List (Mat4 ℝ)) : Outcome (Mat4 ℝ) :=
  let rows := translations p1 p2
  let numClusters := min nbCluster rows.length
  if numClusters = 0 then .throw
  else do
    let ok ← Outcome.foldlM (roundStep lib p1 p2 (lib.kmeans rows numClusters) numClusters) [] (List.range nbIt)
    conclude lib p1 ok

/-- McCalib.cpp:1459-1470: the approach is chosen by `he_approach_`. -/
noncomputable def handEye (lib : Lib) (approach : Int) (p1 p2 : List (Mat4 ℝ)) : Outcome (Mat4 ℝ) :=
  if approach = 0 then bootstrap lib 20 200 p1 p2 else handeyeCalibration lib p1 p2

end Verif.HandEye
