import Verif.Model.Camera
import Mathlib.Analysis.SpecialFunctions.Trigonometric.Arctan

/-!
Model of the five cost functions of OptimizationCeres.h, over the reals (the automatic differentiation
types and rounding are not modelled).  A parameter block, a pointer `const T *`, is a function of the
index.  `ceres::AngleAxisRotatePoint` is a parameter `rot`.  The result is `none` if the residuals are not
written (a distortion type other than 0 and 1).  Divisions by zero (a point in the focal plane) give
infinities in the code; here `x / 0 = 0`, and the theorems exclude that case where it matters.
-/
namespace Verif.Residual
open Rigid

/-- A pointer to doubles. -/
abbrev Block := Nat → ℝ

/-- `ceres::AngleAxisRotatePoint(axis, pt, result)`: reads the three first entries of `axis`. -/
abbrev RotatePoint := Vec3 ℝ → Vec3 ℝ → Vec3 ℝ

/-- The angle-axis part of a block. -/
def axis (b : Block) : Vec3 ℝ := ![b 0, b 1, b 2]

/-- The constant members shared by the cost functions: observed pixel and 3D point. -/
structure Obs where
  u : ℝ
  v : ℝ
  x : ℝ
  y : ℝ
  z : ℝ

/-- The intrinsics given as constants to three of the cost functions
(`focal_x, focal_y, u0, v0, k1, k2, k3, p1, p2`, in the order of the constructors). -/
structure Consts where
  fx : ℝ
  fy : ℝ
  u0 : ℝ
  v0 : ℝ
  k1 : ℝ
  k2 : ℝ
  k3 : ℝ
  p1 : ℝ
  p2 : ℝ

/-- OptimizationCeres.h:11-117 `ReprojectionError`. -/
noncomputable def boardIntrinsics (rot : RotatePoint) (o : Obs) (dist : Int) (camera intr : Block) :
    Option (ℝ × ℝ) :=
  let point : Vec3 ℝ := ![o.x, o.y, o.z]
  let p : Vec3 ℝ :=
      ![rot (axis camera) point 0 + camera 3,
        rot (axis camera) point 1 + camera 4,
        rot (axis camera) point 2 + camera 5]
  let x := p 0 / p 2
  let y := p 1 / p 2
  if dist = 0 then
    let r2 := x * x + y * y
    let r4 := r2 * r2
    let r6 := r4 * r2
    let rCoeff := 1 + intr 4 * r2 + intr 5 * r4 + intr 8 * r6
    let xd := x * rCoeff + 2 * intr 6 * x * y + intr 7 * (r2 + 2 * x * x)
    let yd := y * rCoeff + intr 6 * (r2 + 2 * (y * y)) + 2 * intr 7 * x * y
    let up := intr 0 * xd + intr 2
    let vp := intr 1 * yd + intr 3
    some (up - o.u, vp - o.v)
  else if dist = 1 then
    let r2 := x * x + y * y
    let r := Real.sqrt r2
    let theta := Real.arctan r
    let theta2 := theta * theta
    let theta3 := theta2 * theta
    let theta4 := theta2 * theta2
    let theta5 := theta4 * theta
    let theta6 := theta3 * theta3
    let theta7 := theta6 * theta
    let theta8 := theta4 * theta4
    let theta9 := theta8 * theta
    let thetaD := theta + intr 4 * theta3 + intr 5 * theta5 + intr 6 * theta7 + intr 7 * theta9
    let invR := if r > 1 / 10 ^ 8 then 1 / r else 1
    let cdist := if r > 1 / 10 ^ 8 then thetaD * invR else 1
    let xd := x * cdist
    let yd := y * cdist
    let up := intr 0 * xd + intr 2
    let vp := intr 1 * yd + intr 3
    some (up - o.u, vp - o.v)
  else none

/-- OptimizationCeres.h:120-251 `ReprojectionError_3DObjRef`. -/
noncomputable def objectRef (rot : RotatePoint) (o : Obs) (c : Consts) (refineBoard : Bool) (dist : Int)
    (camera boardtrans : Block) : Option (ℝ × ℝ) :=
  let point : Vec3 ℝ := ![o.x, o.y, o.z]
  let pboard : Vec3 ℝ :=
    if refineBoard then
      ![rot (axis boardtrans) point 0 + boardtrans 3,
        rot (axis boardtrans) point 1 + boardtrans 4,
        rot (axis boardtrans) point 2 + boardtrans 5]
    else point
  let p : Vec3 ℝ :=
      ![rot (axis camera) pboard 0 + camera 3,
        rot (axis camera) pboard 1 + camera 4,
        rot (axis camera) pboard 2 + camera 5]
  let x := p 0 / p 2
  let y := p 1 / p 2
  if dist = 0 then
    let r2 := x * x + y * y
    let r4 := r2 * r2
    let r6 := r4 * r2
    let rCoeff := 1 + c.k1 * r2 + c.k2 * r4 + c.k3 * r6
    let xd := x * rCoeff + 2 * c.p1 * x * y + c.p2 * (r2 + 2 * x * x)
    let yd := y * rCoeff + c.p1 * (r2 + 2 * (y * y)) + 2 * c.p2 * x * y
    let up := c.fx * xd + c.u0
    let vp := c.fy * yd + c.v0
    some (up - o.u, vp - o.v)
  else if dist = 1 then
    let r2 := x * x + y * y
    let r := Real.sqrt r2
    let theta := Real.arctan r
    let theta2 := theta * theta
    let theta3 := theta2 * theta
    let theta4 := theta2 * theta2
    let theta5 := theta4 * theta
    let theta6 := theta3 * theta3
    let theta7 := theta6 * theta
    let theta8 := theta4 * theta4
    let theta9 := theta8 * theta
    let thetaD := theta + c.k1 * theta3 + c.k2 * theta5 + c.p1 * theta7 + c.p2 * theta9
    let invR := if r > 1 / 10 ^ 8 then 1 / r else 1
    let cdist := if r > 1 / 10 ^ 8 then thetaD * invR else 1
    let xd := x * cdist
    let yd := y * cdist
    let up := c.fx * xd + c.u0
    let vp := c.fy * yd + c.v0
    some (up - o.u, vp - o.v)
  else none

/-- OptimizationCeres.h:255-382 `ReprojectionError_CameraGroupRef`. -/
noncomputable def groupRef (rot : RotatePoint) (o : Obs) (c : Consts) (refineCamera : Bool) (dist : Int)
    (camera objectPose : Block) : Option (ℝ × ℝ) :=
  let point : Vec3 ℝ := ![o.x, o.y, o.z]
  let pobj : Vec3 ℝ :=
      ![rot (axis objectPose) point 0 + objectPose 3,
        rot (axis objectPose) point 1 + objectPose 4,
        rot (axis objectPose) point 2 + objectPose 5]
  let pobj : Vec3 ℝ :=
    if refineCamera then
      ![rot (axis camera) pobj 0 + camera 3,
        rot (axis camera) pobj 1 + camera 4,
        rot (axis camera) pobj 2 + camera 5]
    else pobj
  let x := pobj 0 / pobj 2
  let y := pobj 1 / pobj 2
  if dist = 0 then
    let r2 := x * x + y * y
    let r4 := r2 * r2
    let r6 := r4 * r2
    let rCoeff := 1 + c.k1 * r2 + c.k2 * r4 + c.k3 * r6
    let xd := x * rCoeff + 2 * c.p1 * x * y + c.p2 * (r2 + 2 * x * x)
    let yd := y * rCoeff + c.p1 * (r2 + 2 * (y * y)) + 2 * c.p2 * x * y
    let up := c.fx * xd + c.u0
    let vp := c.fy * yd + c.v0
    some (up - o.u, vp - o.v)
  else if dist = 1 then
    let r2 := x * x + y * y
    let r := Real.sqrt r2
    let theta := Real.arctan r
    let theta2 := theta * theta
    let theta3 := theta2 * theta
    let theta4 := theta2 * theta2
    let theta5 := theta4 * theta
    let theta6 := theta3 * theta3
    let theta7 := theta6 * theta
    let theta8 := theta4 * theta4
    let theta9 := theta8 * theta
    let thetaD := theta + c.k1 * theta3 + c.k2 * theta5 + c.p1 * theta7 + c.p2 * theta9
    let invR := if r > 1 / 10 ^ 8 then 1 / r else 1
    let cdist := if r > 1 / 10 ^ 8 then thetaD * invR else 1
    let xd := x * cdist
    let yd := y * cdist
    let up := c.fx * xd + c.u0
    let vp := c.fy * yd + c.v0
    some (up - o.u, vp - o.v)
  else none

/-- OptimizationCeres.h:385-525 `ReprojectionError_CameraGroupAndObjectRef`. -/
noncomputable def groupObjectRef (rot : RotatePoint) (o : Obs) (c : Consts)
    (refineCamera refineBoard : Bool) (dist : Int) (camera objectPose boardPose : Block) :
    Option (ℝ × ℝ) :=
  let point : Vec3 ℝ := ![o.x, o.y, o.z]
  let point : Vec3 ℝ :=
    if refineBoard then
      ![rot (axis boardPose) point 0 + boardPose 3,
        rot (axis boardPose) point 1 + boardPose 4,
        rot (axis boardPose) point 2 + boardPose 5]
    else point
  let pobj : Vec3 ℝ :=
      ![rot (axis objectPose) point 0 + objectPose 3,
        rot (axis objectPose) point 1 + objectPose 4,
        rot (axis objectPose) point 2 + objectPose 5]
  let pobj : Vec3 ℝ :=
    if refineCamera then
      ![rot (axis camera) pobj 0 + camera 3,
        rot (axis camera) pobj 1 + camera 4,
        rot (axis camera) pobj 2 + camera 5]
    else pobj
  let x := pobj 0 / pobj 2
  let y := pobj 1 / pobj 2
  if dist = 0 then
    let r2 := x * x + y * y
    let r4 := r2 * r2
    let r6 := r4 * r2
    let rCoeff := 1 + c.k1 * r2 + c.k2 * r4 + c.k3 * r6
    let xd := x * rCoeff + 2 * c.p1 * x * y + c.p2 * (r2 + 2 * x * x)
    let yd := y * rCoeff + c.p1 * (r2 + 2 * (y * y)) + 2 * c.p2 * x * y
    let up := c.fx * xd + c.u0
    let vp := c.fy * yd + c.v0
    some (up - o.u, vp - o.v)
  else if dist = 1 then
    let r2 := x * x + y * y
    let r := Real.sqrt r2
    let theta := Real.arctan r
    let theta2 := theta * theta
    let theta3 := theta2 * theta
    let theta4 := theta2 * theta2
    let theta5 := theta4 * theta
    let theta6 := theta3 * theta3
    let theta7 := theta6 * theta
    let theta8 := theta4 * theta4
    let theta9 := theta8 * theta
    let thetaD := theta + c.k1 * theta3 + c.k2 * theta5 + c.p1 * theta7 + c.p2 * theta9
    let invR := if r > 1 / 10 ^ 8 then 1 / r else 1
    let cdist := if r > 1 / 10 ^ 8 then thetaD * invR else 1
    let xd := x * cdist
    let yd := y * cdist
    let up := c.fx * xd + c.u0
    let vp := c.fy * yd + c.v0
    some (up - o.u, vp - o.v)
  else none

/-- OptimizationCeres.h:528-664 `ReprojectionError_CameraGroupAndObjectRefAndIntrinsics`. -/
noncomputable def groupObjectIntrinsics (rot : RotatePoint) (o : Obs)
    (refineCamera refineBoard : Bool) (dist : Int) (camera objectPose boardPose camInt : Block) :
    Option (ℝ × ℝ) :=
  let c : Consts := { fx := camInt 0, fy := camInt 1, u0 := camInt 2, v0 := camInt 3, k1 := camInt 4,
                      k2 := camInt 5, k3 := camInt 8, p1 := camInt 6, p2 := camInt 7 }
  let point : Vec3 ℝ := ![o.x, o.y, o.z]
  let point : Vec3 ℝ :=
    if refineBoard then
      ![rot (axis boardPose) point 0 + boardPose 3,
        rot (axis boardPose) point 1 + boardPose 4,
        rot (axis boardPose) point 2 + boardPose 5]
    else point
  let pobj : Vec3 ℝ :=
      ![rot (axis objectPose) point 0 + objectPose 3,
        rot (axis objectPose) point 1 + objectPose 4,
        rot (axis objectPose) point 2 + objectPose 5]
  let pobj : Vec3 ℝ :=
    if refineCamera then
      ![rot (axis camera) pobj 0 + camera 3,
        rot (axis camera) pobj 1 + camera 4,
        rot (axis camera) pobj 2 + camera 5]
    else pobj
  let x := pobj 0 / pobj 2
  let y := pobj 1 / pobj 2
  if dist = 0 then
    let r2 := x * x + y * y
    let r4 := r2 * r2
    let r6 := r4 * r2
    let rCoeff := 1 + c.k1 * r2 + c.k2 * r4 + c.k3 * r6
    let xd := x * rCoeff + 2 * c.p1 * x * y + c.p2 * (r2 + 2 * x * x)
    let yd := y * rCoeff + c.p1 * (r2 + 2 * (y * y)) + 2 * c.p2 * x * y
    let up := c.fx * xd + c.u0
    let vp := c.fy * yd + c.v0
    some (up - o.u, vp - o.v)
  else if dist = 1 then
    let r2 := x * x + y * y
    let r := Real.sqrt r2
    let theta := Real.arctan r
    let theta2 := theta * theta
    let theta3 := theta2 * theta
    let theta4 := theta2 * theta2
    let theta5 := theta4 * theta
    let theta6 := theta3 * theta3
    let theta7 := theta6 * theta
    let theta8 := theta4 * theta4
    let theta9 := theta8 * theta
    let thetaD := theta + c.k1 * theta3 + c.k2 * theta5 + c.p1 * theta7 + c.p2 * theta9
    let invR := if r > 1 / 10 ^ 8 then 1 / r else 1
    let cdist := if r > 1 / 10 ^ 8 then thetaD * invR else 1
    let xd := x * cdist
    let yd := y * cdist
    let up := c.fx * xd + c.u0
    let vp := c.fy * yd + c.v0
    some (up - o.u, vp - o.v)
  else none

/-- CameraGroup.cpp:224-232, 397-405, Object3D.cpp:180-188, together with the order of the arguments in
the `Create` calls (CameraGroup.cpp:248-249, 439-440, Object3D.cpp:204-205: `fx, fy, u0, v0, r1, r2, r3,
t1, t2`): the constants handed to the cost functions. -/
def consts (I : Camera.Intr ℝ) : Consts :=
  { fx := I 0, fy := I 1, u0 := I 2, v0 := I 3, k1 := I 4, k2 := I 5, k3 := I 8, p1 := I 6, p2 := I 7 }

end Verif.Residual
