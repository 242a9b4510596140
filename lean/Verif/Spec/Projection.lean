import Verif.Model.Camera
import Mathlib.Analysis.SpecialFunctions.Trigonometric.Arctan

/-!
The projection of a 3D point by a calibrated camera, as documented by OpenCV (`cv::projectPoints`,
`cv::fisheye::projectPoints`), in terms of a camera matrix and of a distortion vector.
-/
namespace Verif.Spec.Projection
open Rigid

/-- Radial and tangential distortion of normalised coordinates; coefficients `k1, k2, p1, p2, k3`. -/
noncomputable def brown (k1 k2 p1 p2 k3 x y : ℝ) : ℝ × ℝ :=
  let r2 := x ^ 2 + y ^ 2
  let radial := 1 + k1 * r2 + k2 * r2 ^ 2 + k3 * r2 ^ 3
  (x * radial + 2 * p1 * x * y + p2 * (r2 + 2 * x ^ 2),
   y * radial + p1 * (r2 + 2 * y ^ 2) + 2 * p2 * x * y)

/-- Fisheye distortion of normalised coordinates; coefficients `k1, k2, k3, k4`.  Points on the optical
axis (up to 1e-8) are not moved. -/
noncomputable def kannala (k1 k2 k3 k4 x y : ℝ) : ℝ × ℝ :=
  let r := Real.sqrt (x ^ 2 + y ^ 2)
  let θ := Real.arctan r
  let θd := θ * (1 + k1 * θ ^ 2 + k2 * θ ^ 4 + k3 * θ ^ 6 + k4 * θ ^ 8)
  let s := if 1 / 10 ^ 8 < r then θd / r else 1
  (s * x, s * y)

/-- Pixel of normalised, distorted coordinates. -/
def toPixel (M : Mat3 ℝ) (q : ℝ × ℝ) : ℝ × ℝ := (M 0 0 * q.1 + M 0 2, M 1 1 * q.2 + M 1 2)

/-- The pixel of a point given in the frame of the camera: model 0 is Brown, model 1 is Kannala. -/
noncomputable def pixel (model : Int) (M : Mat3 ℝ) (d : List ℝ) (X : Vec3 ℝ) : Option (ℝ × ℝ) :=
  match model, d with
  | 0, [k1, k2, p1, p2, k3] => some (toPixel M (brown k1 k2 p1 p2 k3 (X 0 / X 2) (X 1 / X 2)))
  | 1, [k1, k2, k3, k4] => some (toPixel M (kannala k1 k2 k3 k4 (X 0 / X 2) (X 1 / X 2)))
  | _, _ => none

/-- Pixel of the projection minus observed pixel. -/
noncomputable def error (model : Int) (M : Mat3 ℝ) (d : List ℝ) (X : Vec3 ℝ) (seen : ℝ × ℝ) :
    Option (ℝ × ℝ) :=
  (pixel model M d X).map fun q => q - seen

end Verif.Spec.Projection
