import Mathlib.LinearAlgebra.Matrix.NonsingularInverse
import Mathlib.LinearAlgebra.Matrix.Notation
import Mathlib.LinearAlgebra.Matrix.Determinant.Basic
import Verif.Model.Average

/-!
Model of the pose conversions of geometrytools.cpp: 3x3 rotations, 4x4 projections, six-parameter
vectors, and their action on points.  `cv::Mat` of doubles are matrices over a field; rounding (and
the truncation to `float` of points) is not modelled.  `cv::Mat::inv` is the matrix inverse (zero for a
singular matrix, as in OpenCV and in Mathlib).  `cv::Rodrigues` is a parameter with the contract
`Rodrigues.Sound`; `Props/Rigid.lean` shows that Rodrigues' formula over the reals meets it.
-/
namespace Verif.Rigid

abbrev Vec3 (K : Type) := Fin 3 → K
abbrev Mat3 (K : Type) := Matrix (Fin 3) (Fin 3) K
abbrev Mat4 (K : Type) := Matrix (Fin 4) (Fin 4) K

variable {K : Type} [Field K]

/-- The two directions of `cv::Rodrigues`. -/
structure Rodrigues (K : Type) where
  toMat : Vec3 K → Mat3 K
  toVec : Mat3 K → Vec3 K

/-- A rotation matrix: orthogonal, of determinant one. -/
structure IsRot (R : Mat3 K) : Prop where
  orth : R * R.transpose = 1
  det : R.det = 1

/-- Contract of `cv::Rodrigues`: vectors give rotations, every rotation is the image of its vector. -/
structure Rodrigues.Sound (ro : Rodrigues K) : Prop where
  rot : ∀ r, IsRot (ro.toMat r)
  back : ∀ R, IsRot R → ro.toMat (ro.toVec R) = R

/-- geometrytools.cpp:14-20 `RT2Proj`. -/
def RT2Proj (R : Mat3 K) (T : Vec3 K) : Mat4 K :=
  !![R 0 0, R 0 1, R 0 2, T 0;
     R 1 0, R 1 1, R 1 2, T 1;
     R 2 0, R 2 1, R 2 2, T 2;
     0, 0, 0, 1]

/-- geometrytools.cpp:22-30 `RVecT2Proj`. -/
def RVecT2Proj (ro : Rodrigues K) (r T : Vec3 K) : Mat4 K := RT2Proj (ro.toMat r) T

/-- geometrytools.cpp:47: `Proj(cv::Range(0, 3), cv::Range(0, 3))`. -/
def projRot (M : Mat4 K) : Mat3 K :=
  !![M 0 0, M 0 1, M 0 2; M 1 0, M 1 1, M 1 2; M 2 0, M 2 1, M 2 2]

/-- geometrytools.cpp:48: `Proj(cv::Range(0, 3), cv::Range(3, 4))`. -/
def projTrans (M : Mat4 K) : Vec3 K := ![M 0 3, M 1 3, M 2 3]

/-- geometrytools.cpp:44-49 `Proj2RT` (results returned). -/
def Proj2RT (ro : Rodrigues K) (M : Mat4 K) : Vec3 K × Vec3 K := (ro.toVec (projRot M), projTrans M)

/-- geometrytools.cpp:83-88 and 90-94 `invertRvecT` (both overloads; results returned). -/
noncomputable def invertRvecT (ro : Rodrigues K) (r T : Vec3 K) : Vec3 K × Vec3 K :=
  Proj2RT ro (RVecT2Proj ro r T)⁻¹

/-- geometrytools.cpp:347-351: one point of the loop of `transform3DPts`. -/
def transformPt (R : Mat3 K) (T : Vec3 K) (p : Vec3 K) : Vec3 K :=
  ![T 0 + R 0 0 * p 0 + R 0 1 * p 1 + R 0 2 * p 2,
    T 1 + R 1 0 * p 0 + R 1 1 * p 1 + R 1 2 * p 2,
    T 2 + R 2 0 * p 0 + R 2 1 * p 1 + R 2 2 * p 2]

/-- geometrytools.cpp:328-355 `transform3DPts`. -/
def transform3DPts (ro : Rodrigues K) (pts : List (Vec3 K)) (r T : Vec3 K) : List (Vec3 K) :=
  pts.map (transformPt (ro.toMat r) T)

/-- geometrytools.cpp:52-69 `vectorProj` (six numbers, no rounding), and the getters
of poses stored as six doubles (BoardObs.cpp:59-63, Object3D.cpp:88-92, CameraGroup.cpp:88-92,
CameraGroupObs.cpp:139-143, Object3DObs.cpp:79-83 and 185-189). -/
def ofVec (ro : Rodrigues K) (v : Average.Vec6 K) : Mat4 K :=
  RVecT2Proj ro ![v.r1, v.r2, v.r3] ![v.t1, v.t2, v.t3]

/-- geometrytools.cpp:72-81 `ProjToVec` (without the truncation to float), and the corresponding
setters (BoardObs.cpp:95-106, Object3D.cpp:101-110, CameraGroup.cpp:101-110, CameraGroupObs.cpp:153-162,
Object3DObs.cpp:115-124 and 140-149), which store the six numbers of `Proj2RT`. -/
def toVec (ro : Rodrigues K) (M : Mat4 K) : Average.Vec6 K :=
  let r := (Proj2RT ro M).1
  let t := (Proj2RT ro M).2
  { r1 := r 0, r2 := r 1, r3 := r 2, t1 := t 0, t2 := t 1, t3 := t 2 }

end Verif.Rigid
