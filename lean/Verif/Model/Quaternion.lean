import Verif.Model.Rigid
import Mathlib.Analysis.Real.Sqrt

/-!
Model of the quaternion functions of geometrytools.cpp (773-892), over the real numbers.
Quaternions are stored in the order x y z w.
-/
namespace Verif.Quaternion
open Verif Verif.Rigid

abbrev Quat := Fin 4 → ℝ

/-- geometrytools.cpp:792-794: index of the largest diagonal entry (as tested there). -/
noncomputable def maxDiag (R : Mat3 ℝ) : Fin 3 :=
  if R 0 0 < R 1 1 then (if R 1 1 < R 2 2 then 2 else 1) else (if R 0 0 < R 2 2 then 2 else 0)

/-- geometrytools.cpp:791-805: the branch `trace <= 0`.  The four assigned positions `i`, `3`, `j`, `k` are
all positions of the vector. -/
noncomputable def toQuatMax (R : Mat3 ℝ) : Quat :=
  let i := maxDiag R
  let j := i + 1
  let k := i + 2
  let s := Real.sqrt (R i i - R j j - R k k + 1)
  let s' := 0.5 / s
  fun n =>
    if n = 3 then (R k j - R j k) * s'
    else if n = i.castSucc then s * 0.5
    else if n = j.castSucc then (R j i + R i j) * s'
    else (R k i + R i k) * s'

/-- geometrytools.cpp:773-808 `convertRotationMatrixToQuaternion`. -/
noncomputable def toQuat (R : Mat3 ℝ) : Quat :=
  let trace := R 0 0 + R 1 1 + R 2 2
  if 0 < trace then
    let s := Real.sqrt (trace + 1)
    let s' := 0.5 / s
    ![(R 2 1 - R 1 2) * s', (R 0 2 - R 2 0) * s', (R 1 0 - R 0 1) * s', s * 0.5]
  else toQuatMax R

/-- geometrytools.cpp:810-833 `convertQuaternionToRotationMatrix`. -/
def ofQuat (q : Quat) : Mat3 ℝ :=
  let q0 := q 3
  let q1 := q 0
  let q2 := q 1
  let q3 := q 2
  !![2 * (q0 * q0 + q1 * q1) - 1, 2 * (q1 * q2 - q0 * q3), 2 * (q1 * q3 + q0 * q2);
     2 * (q1 * q2 + q0 * q3), 2 * (q0 * q0 + q2 * q2) - 1, 2 * (q2 * q3 - q0 * q1);
     2 * (q1 * q3 - q0 * q2), 2 * (q2 * q3 + q0 * q1), 2 * (q0 * q0 + q3 * q3) - 1]

/-- geometrytools.cpp:863-866: the antipodal flip. -/
noncomputable def antipodal (q : Quat) : Quat := if q 3 < 0 then -q else q

/-- geometrytools.cpp:867: `q.t() * q`. -/
def outer (q : Quat) : Mat4 ℝ := fun i j => q i * q j

/-- geometrytools.cpp:861-869: the accumulated matrix. -/
noncomputable def averageMatrix (qs : List Quat) : Mat4 ℝ :=
  (qs.length : ℝ)⁻¹ • (qs.foldl (fun A q => A + outer (antipodal q)) 0)

/-- Contract of the first left singular vector of `cv::SVD` (geometrytools.cpp:871-880): a unit vector
belonging to the largest singular value `σ`. -/
def TopSingular (A : Mat4 ℝ) (u : Quat) : Prop :=
  u ⬝ᵥ u = 1 ∧ ∃ (v : Quat) (σ : ℝ), 0 ≤ σ ∧ A.mulVec v = σ • u ∧ A.transpose.mulVec u = σ • v ∧
    ∀ x : Quat, (A.mulVec x) ⬝ᵥ (A.mulVec x) ≤ σ ^ 2 * (x ⬝ᵥ x)

/-- geometrytools.cpp:835-892 `getAverageRotation`, `use_quaternion_averaging == true`; the rotation
vectors `rs` are the triples (r1[i], r2[i], r3[i]); `svd` returns the first column of `svd.u`. -/
noncomputable def quaternionAverage (ro : Rodrigues ℝ) (svd : Mat4 ℝ → Quat) (rs : List (Vec3 ℝ)) : Vec3 ℝ :=
  ro.toVec (ofQuat (svd (averageMatrix (rs.map fun r => toQuat (ro.toMat r)))))

/-- geometrytools.cpp:835-892 `getAverageRotation`, both branches. -/
noncomputable def getAverageRotation (ro : Rodrigues ℝ) (svd : Mat4 ℝ → Quat) (useQuaternions : Bool)
    (rs : List (Vec3 ℝ)) : Vec3 ℝ :=
  if useQuaternions then quaternionAverage ro svd rs
  else ![Average.median (rs.map (· 0)), Average.median (rs.map (· 1)), Average.median (rs.map (· 2))]

end Verif.Quaternion
