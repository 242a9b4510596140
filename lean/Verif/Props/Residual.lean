import Verif.Model.Residual
import Verif.Spec.Projection
import Verif.Lemmas.RigidGroup
import Verif.Lemmas.Rodrigues
import Mathlib.Tactic.FieldSimp

/-!
C36: the five cost functions compute one projection.
-/
namespace Verif.Props.Residual
open Verif Verif.Residual Verif.Spec.Projection Rigid

/-- Contract of `ceres::AngleAxisRotatePoint`: it applies the rotation of `cv::Rodrigues`. -/
def RotatesBy (rot : RotatePoint) (ro : Rodrigues ℝ) : Prop :=
  ∀ r p, rot r p = (ro.toMat r).mulVec p

/-- The six numbers of a pose block. -/
def vec6 (b : Block) : Average.Vec6 ℝ := ⟨b 0, b 1, b 2, b 3, b 4, b 5⟩

/-- The pose of a block. -/
noncomputable def pose (ro : Rodrigues ℝ) (hro : ro.Sound) (b : Block) : Pose ℝ := Pose.ofVec ro hro (vec6 b)

/-- The 3D point and the pixel of an observation. -/
def pt (o : Obs) : Vec3 ℝ := ![o.x, o.y, o.z]
def seen (o : Obs) : ℝ × ℝ := (o.u, o.v)

/-- What is computed from a point in the frame of the camera. -/
noncomputable def errorAt (model : Int) (I : Camera.Intr ℝ) (o : Obs) (X : Vec3 ℝ) : Option (ℝ × ℝ) :=
  error model (Camera.getCameraMat I) (Camera.getDistortionVector model I) X (seen o)

variable {rot : RotatePoint} {ro : Rodrigues ℝ}

private theorem move (hrot : RotatesBy rot ro) (hro : ro.Sound) (b : Block) (p : Vec3 ℝ) :
    (![rot (axis b) p 0 + b 3, rot (axis b) p 1 + b 4, rot (axis b) p 2 + b 5] : Vec3 ℝ) =
      pose ro hro b • p := by
  rw [smul_def, hrot]
  have h : (pose ro hro b).1 = RT2Proj (ro.toMat (axis b)) ![b 3, b 4, b 5] := rfl
  rw [h, Verif.Lemmas.Rigid.projRot_RT2Proj, Verif.Lemmas.Rigid.projTrans_RT2Proj]
  unfold transformPt
  ext i
  fin_cases i <;> simp [Matrix.mulVec, dotProduct, Fin.sum_univ_three] <;> ring

/-- The common tail of the cost functions. -/
private noncomputable def tail (model : Int) (I : Camera.Intr ℝ) (o : Obs) (X : Vec3 ℝ) :
    Option (ℝ × ℝ) :=
  let x := X 0 / X 2
  let y := X 1 / X 2
  if model = 0 then
    let r2 := x * x + y * y
    let r4 := r2 * r2
    let r6 := r4 * r2
    let rCoeff := 1 + I 4 * r2 + I 5 * r4 + I 8 * r6
    let xd := x * rCoeff + 2 * I 6 * x * y + I 7 * (r2 + 2 * x * x)
    let yd := y * rCoeff + I 6 * (r2 + 2 * (y * y)) + 2 * I 7 * x * y
    let up := I 0 * xd + I 2
    let vp := I 1 * yd + I 3
    some (up - o.u, vp - o.v)
  else if model = 1 then
    let r2 := x * x + y * y
    let r := Real.sqrt r2
    let theta := Real.arctan r
    let theta2 := theta * theta
    let theta3 := theta2 * theta
    let theta4 := theta2 * theta2
    let theta5 := theta4 * theta
    let theta6 := theta3 * theta3
    let theta7 := theta6 * theta
    let theta8 := theta4 * theta4
    let theta9 := theta8 * theta
    let thetaD := theta + I 4 * theta3 + I 5 * theta5 + I 6 * theta7 + I 7 * theta9
    let invR := if r > 1 / 10 ^ 8 then 1 / r else 1
    let cdist := if r > 1 / 10 ^ 8 then thetaD * invR else 1
    let xd := x * cdist
    let yd := y * cdist
    let up := I 0 * xd + I 2
    let vp := I 1 * yd + I 3
    some (up - o.u, vp - o.v)
  else none

private theorem tail_eq (model : Int) (I : Camera.Intr ℝ) (o : Obs) (X : Vec3 ℝ) :
    tail model I o X = errorAt model I o X := by
  unfold tail errorAt error pixel seen
  by_cases h0 : model = 0
  · subst h0
    simp only [Camera.getDistortionVector, Camera.getCameraMat, toPixel, brown, if_pos, List.map,
      Option.map_some, Option.some.injEq]
    ext
    · simp; left; ring
    · simp; left; ring
  · by_cases h1 : model = 1
    · subst h1
      simp only [Camera.getDistortionVector, Camera.getCameraMat, toPixel, kannala]
      simp [sq]
      split
      · constructor <;> field_simp
      · simp
    · simp [Camera.getDistortionVector, h0, h1]

/-- C36: the cost of the intrinsic refinement of a camera (board pose and intrinsics are refined). -/
theorem C36_board_intrinsics (hrot : RotatesBy rot ro) (hro : ro.Sound) (o : Obs) (model : Int)
    (camera : Block) (I : Camera.Intr ℝ) :
    boardIntrinsics rot o model camera I = errorAt model I o (pose ro hro camera • pt o) := by
  rw [← move hrot, ← tail_eq]; rfl

/-- C36: the cost of the refinement of an object; the reference board is the frame of the object. -/
theorem C36_object (hrot : RotatesBy rot ro) (hro : ro.Sound) (o : Obs) (model : Int)
    (refineBoard : Bool) (camera board : Block) (I : Camera.Intr ℝ) :
    objectRef rot o (consts I) refineBoard model camera board =
      errorAt model I o
        (pose ro hro camera • (if refineBoard then pose ro hro board else 1) • pt o) := by
  cases refineBoard
  · rw [← move hrot, ← tail_eq, if_neg (by decide), one_smul]; rfl
  · rw [← move hrot, ← tail_eq, if_pos rfl, ← move hrot]; rfl

/-- C36: the cost of the refinement of a camera group; the reference camera is the frame of the
group. -/
theorem C36_group (hrot : RotatesBy rot ro) (hro : ro.Sound) (o : Obs) (model : Int)
    (refineCamera : Bool) (camera object : Block) (I : Camera.Intr ℝ) :
    groupRef rot o (consts I) refineCamera model camera object =
      errorAt model I o
        ((if refineCamera then pose ro hro camera else 1) • pose ro hro object • pt o) := by
  cases refineCamera
  · rw [← tail_eq, if_neg (by decide), one_smul, ← move hrot]; rfl
  · rw [← tail_eq, if_pos rfl, ← move hrot, ← move hrot]; rfl

/-- C36: the cost of the joint refinement of a camera group and its objects. -/
theorem C36_group_object (hrot : RotatesBy rot ro) (hro : ro.Sound) (o : Obs) (model : Int)
    (refineCamera refineBoard : Bool) (camera object board : Block) (I : Camera.Intr ℝ) :
    groupObjectRef rot o (consts I) refineCamera refineBoard model camera object board =
      errorAt model I o
        ((if refineCamera then pose ro hro camera else 1) • pose ro hro object •
          (if refineBoard then pose ro hro board else 1) • pt o) := by
  cases refineCamera <;> cases refineBoard
  · rw [← tail_eq, if_neg (by decide), if_neg (by decide), one_smul, one_smul, ← move hrot]; rfl
  · rw [← tail_eq, if_neg (by decide), if_pos rfl, one_smul, ← move hrot, ← move hrot]; rfl
  · rw [← tail_eq, if_pos rfl, if_neg (by decide), one_smul, ← move hrot, ← move hrot]; rfl
  · rw [← tail_eq, if_pos rfl, if_pos rfl, ← move hrot, ← move hrot, ← move hrot]; rfl

/-- C36: the cost of the joint refinement including the intrinsics. -/
theorem C36_group_object_intrinsics (hrot : RotatesBy rot ro) (hro : ro.Sound) (o : Obs) (model : Int)
    (refineCamera refineBoard : Bool) (camera object board : Block) (I : Camera.Intr ℝ) :
    groupObjectIntrinsics rot o refineCamera refineBoard model camera object board I =
      errorAt model I o
        ((if refineCamera then pose ro hro camera else 1) • pose ro hro object •
          (if refineBoard then pose ro hro board else 1) • pt o) := by
  rw [← C36_group_object hrot hro]; rfl

/-- C36: for consistent arguments the five costs agree: the pose handed to the first is the composition
of the poses handed to the others. -/
theorem C36_agree (hrot : RotatesBy rot ro) (hro : ro.Sound) (o : Obs) (model : Int)
    (camera object board whole left right : Block) (I : Camera.Intr ℝ)
    (hl : pose ro hro left = pose ro hro camera * pose ro hro object)
    (hr : pose ro hro right = pose ro hro object * pose ro hro board)
    (hw : pose ro hro whole = pose ro hro camera * pose ro hro object * pose ro hro board) :
    let e := boardIntrinsics rot o model whole I
    objectRef rot o (consts I) true model left board = e ∧
    groupRef rot o (consts I) true model camera right = e ∧
    groupObjectRef rot o (consts I) true true model camera object board = e ∧
    groupObjectIntrinsics rot o true true model camera object board I = e := by
  intro e
  have he : e = errorAt model I o
      ((pose ro hro camera * pose ro hro object * pose ro hro board) • pt o) := by
    rw [← hw]; exact C36_board_intrinsics hrot hro o model whole I
  refine ⟨?_, ?_, ?_, ?_⟩
  · rw [C36_object hrot hro, he, if_pos rfl, hl, mul_smul, mul_smul, mul_smul]
  · rw [C36_group hrot hro, he, if_pos rfl, hr, mul_smul, mul_smul, mul_smul]
  · rw [C36_group_object hrot hro, he, if_pos rfl, if_pos rfl, mul_smul, mul_smul]
  · rw [C36_group_object_intrinsics hrot hro, he, if_pos rfl, if_pos rfl, mul_smul, mul_smul]

/-- C36: the pose block of the reference camera and that of the reference board have no influence. -/
theorem C36_reference (o : Obs) (model : Int) (c : Consts) (camera camera' object board board' : Block)
    (I : Camera.Intr ℝ) :
    objectRef rot o c false model camera board = objectRef rot o c false model camera board' ∧
    groupRef rot o c false model camera object = groupRef rot o c false model camera' object ∧
    (∀ b, groupObjectRef rot o c false b model camera object board =
      groupObjectRef rot o c false b model camera' object board) ∧
    (∀ b, groupObjectRef rot o c b false model camera object board =
      groupObjectRef rot o c b false model camera object board') ∧
    (∀ b, groupObjectIntrinsics rot o false b model camera object board I =
      groupObjectIntrinsics rot o false b model camera' object board I) ∧
    (∀ b, groupObjectIntrinsics rot o b false model camera object board I =
      groupObjectIntrinsics rot o b false model camera object board' I) := by
  refine ⟨rfl, rfl, ?_, ?_, ?_, ?_⟩ <;> intro b <;> rfl

/-- C36: the residual is zero exactly if the projection is the observed pixel. -/
theorem C36_zero (model : Int) (I : Camera.Intr ℝ) (o : Obs) (X : Vec3 ℝ) :
    errorAt model I o X = some (0, 0) ↔
      pixel model (Camera.getCameraMat I) (Camera.getDistortionVector model I) X = some (o.u, o.v) := by
  unfold errorAt error seen
  cases h : pixel model (Camera.getCameraMat I) (Camera.getDistortionVector model I) X with
  | none => simp
  | some q =>
    simp only [Option.map_some, Option.some.injEq]
    constructor
    · intro h; have := sub_eq_zero.mp h; exact this
    · rintro rfl; exact sub_self _

/-- C36: there is a residual for both models, and none for any other. -/
theorem C36_models (model : Int) (I : Camera.Intr ℝ) (o : Obs) (X : Vec3 ℝ) :
    errorAt model I o X ≠ none ↔ model = 0 ∨ model = 1 := by
  unfold errorAt error
  rw [ne_eq, Option.map_eq_none_iff]
  by_cases h0 : model = 0
  · subst h0; simp [Camera.getDistortionVector, pixel]
  · by_cases h1 : model = 1
    · subst h1; simp [Camera.getDistortionVector, pixel]
    · simp [Camera.getDistortionVector, pixel, h0, h1]

/-- Rodrigues' formula and the rotation it defines meet the contracts. -/
example : ∃ (ro : Rodrigues ℝ) (rot : RotatePoint), ro.Sound ∧ RotatesBy rot ro :=
  ⟨Verif.Lemmas.Rodrigues.rod, fun r p => (Verif.Lemmas.Rodrigues.rod.toMat r).mulVec p, Verif.Lemmas.Rodrigues.rod_sound, fun _ _ => rfl⟩

/-- A Brown camera without distortion sees the point (1, 2, 4) at (800/4 + 320, 2 * 800/4 + 240). -/
example : errorAt 0 (fun i => if i = 0 ∨ i = 1 then 800 else if i = 2 then 320 else if i = 3 then 240 else 0)
    ⟨520, 640, 1, 2, 4⟩ ![1, 2, 4] = some (0, 0) := by
  rw [C36_zero]
  simp [Camera.getDistortionVector, Camera.getCameraMat, pixel, toPixel, brown]
  norm_num

end Verif.Props.Residual
