import Verif.Model.Ransac
import Verif.Model.Rigid

/-!
Model of the triangulation functions: `RVecT2ProjInt` (geometrytools.cpp:32-42), `triangulateNViewLinearEigen` (98-124)
and `ransacTriangulation` (151-228).  They are part of the API; the calibration itself does not call them.

Numbers are elements of a field: the roundings to `float` are not modelled.  `SVDecomp`, the projection of a point and the
sequence of shuffles are parameters.
-/
namespace Verif.Triangulate
open Verif Verif.Rigid

variable {K : Type} [Field K]

abbrev Vec4 (K : Type) := Fin 4 → K

/-- geometrytools.cpp:32-42 `RVecT2ProjInt`. -/
def RVecT2ProjInt (ro : Rodrigues K) (r T : Vec3 K) (intr : Mat3 K) : Mat4 K :=
  RT2Proj (intr * ro.toMat r) (intr.mulVec T)

/-- geometrytools.cpp:109-114: the two rows of a view. -/
def rowsOf (M : Mat4 K) (p : K × K) : List (Vec4 K) :=
  [fun j => p.1 * M 2 j - M 0 j, fun j => p.2 * M 2 j - M 1 j]

/-- geometrytools.cpp:104-115, body of the loop. -/
def viewStep (ro : Rodrigues K) (pts : List (K × K)) (trans : List (Vec3 K)) (intr : Mat3 K) (A : List (Vec4 K))
    (e : Vec3 K × Nat) : Outcome (List (Vec4 K)) := do
  let T ← Outcome.idx trans e.2
  let p ← Outcome.idx pts e.2
  pure (A ++ rowsOf (RVecT2ProjInt ro e.1 T intr) p)

/-- geometrytools.cpp:119-123: division by the fourth coordinate; `none`: by zero, the result is not a point. -/
def dehomogenise [DecidableEq K] (v : Vec4 K) : Option (Vec3 K) :=
  if v 3 = 0 then none else some ![v 0 / v 3, v 1 / v 3, v 2 / v 3]

/-- geometrytools.cpp:116-123: `svd` gives row 3 of `VT`, which exists iff the matrix has at least four rows (`VT` has
as many rows as the smaller dimension of the matrix); `cv::Mat::row` and `SVDecomp` throw otherwise. -/
def solve [DecidableEq K] (svd : List (Vec4 K) → Vec4 K) (A : List (Vec4 K)) : Outcome (Option (Vec3 K)) :=
  if A.length < 4 then .throw else .ok (dehomogenise (svd A))

/-- geometrytools.cpp:98-124 `triangulateNViewLinearEigen`. -/
def triangulate [DecidableEq K] (svd : List (Vec4 K) → Vec4 K) (ro : Rodrigues K) (pts : List (K × K))
    (rots trans : List (Vec3 K)) (intr : Mat3 K) : Outcome (Option (Vec3 K)) :=
  Outcome.foldlM (viewStep ro pts trans intr) [] rots.zipIdx >>= solve svd

/-! ### Robust triangulation -/

/-- Parameters of one call of `ransacTriangulation`; `P` is the type of the triangulated point. -/
structure Lib (R T P2 P E : Type) where
  /-- the triangulation of line 186 from the two samples -/
  tri : List P2 → List R → List T → Outcome P
  /-- distance of an image point to the projection of the triangulated point -/
  err : P → R → T → P2 → E
  thresh : E
  /-- lines 212-222, from the number of inliers and of points -/
  trials : Nat → Nat → Int
  shuffle : Nat → List Nat → List Nat

/-- Loop variables of geometrytools.cpp:160-170. -/
structure St (P : Type) where
  N : Int
  trial : Nat
  count : Nat
  vec : List Nat
  best : P
  bestNb : Nat

variable {R T P2 P E : Type}

/-- geometrytools.cpp:177-187: the shuffled indexes (four are read, two used) and the triangulation. -/
def candidate (lib : Lib R T P2 P E) (pts : List P2) (rots : List R) (trans : List T) (vec : List Nat) : Outcome P := do
  let i0 ← Outcome.idx vec 0
  let i1 ← Outcome.idx vec 1
  let _ ← Outcome.idx vec 2
  let _ ← Outcome.idx vec 3
  let p0 ← Outcome.idx pts i0
  let p1 ← Outcome.idx pts i1
  let r0 ← Outcome.idx rots i0
  let r1 ← Outcome.idx rots i1
  let t0 ← Outcome.idx trans i0
  let t1 ← Outcome.idx trans i1
  lib.tri [p0, p1] [r0, r1] [t0, t1]

/-- geometrytools.cpp:192-204: test of one view. -/
def testView [LinearOrder E] (lib : Lib R T P2 P E) (pts : List P2) (trans : List T) (x : P) (n : Nat) (e : R × Nat) :
    Outcome Nat := do
  let t ← Outcome.idx trans e.2
  let p ← Outcome.idx pts e.2
  pure (if lib.err x e.1 t p < lib.thresh then n + 1 else n)

/-- geometrytools.cpp:190-204: the number of inliers. -/
def support [LinearOrder E] (lib : Lib R T P2 P E) (pts : List P2) (rots : List R) (trans : List T) (x : P) : Outcome Nat :=
  Outcome.foldlM (testView lib pts trans x) 0 rots.zipIdx

/-- geometrytools.cpp:208-225: keep the best point. -/
def keepBest (lib : Lib R T P2 P E) (total : Nat) (st : St P) (x : P) (n : Nat) : St P :=
  if st.bestNb < n then { st with bestNb := n, best := x, N := lib.trials n total, trial := 0 } else st

/-- geometrytools.cpp:173-226: one iteration. -/
def step [LinearOrder E] (lib : Lib R T P2 P E) (pts : List P2) (rots : List R) (trans : List T) (st : St P) :
    Outcome (St P) := do
  let vec := lib.shuffle st.count st.vec
  let x ← candidate lib pts rots trans vec
  let n ← support lib pts rots trans x
  let st := keepBest lib pts.length { st with vec := vec, trial := st.trial + 1 } x n
  pure { st with count := st.count + 1 }

/-- geometrytools.cpp:172: `while (N > trialcount && countit < it)`; the first number is `it - countit`. -/
def loop [LinearOrder E] (lib : Lib R T P2 P E) (pts : List P2) (rots : List R) (trans : List T) :
    Nat → St P → Outcome (St P)
  | 0, st => .ok st
  | n + 1, st => if (st.trial : Int) < st.N then step lib pts rots trans st >>= loop lib pts rots trans n else .ok st

/-- geometrytools.cpp:151-228 `ransacTriangulation`: the contents of `best_points3d` afterwards; `init`: before. -/
def ransacTriangulation [LinearOrder E] (lib : Lib R T P2 P E) (pts : List P2) (rots : List R) (trans : List T) (it : Nat)
    (init : P) : Outcome P :=
  loop lib pts rots trans it { N := it, trial := 0, count := 0, vec := List.range pts.length, best := init, bestNb := 0 }
    >>= fun st => .ok st.best

end Verif.Triangulate
