import Verif.Lemmas.RigidGroup
import Verif.Lemmas.Rodrigues
import Verif.Props.Average

/-!
C28: pose conversions, inversion, composition and the transformation of points.  `ro` is any sound
`cv::Rodrigues` (`Rodrigues.Sound`); `C28_rodrigues` exhibits one, Rodrigues' formula over the reals.
-/
namespace Verif.Props.Rigid
open Verif Verif.Rigid Verif.Lemmas.Rigid

variable {K : Type} [Field K] (ro : Rodrigues K)

/-- C28: splitting a projection built from a rotation and a translation gives them back. -/
theorem C28_build_split (R : Mat3 K) (T : Vec3 K) :
    projRot (RT2Proj R T) = R ∧ projTrans (RT2Proj R T) = T ∧
      ∀ j : Fin 4, RT2Proj R T 3 j = if j = 3 then 1 else 0 :=
  ⟨projRot_RT2Proj R T, projTrans_RT2Proj R T, by intro j; fin_cases j <;> rfl⟩

/-- C28: rebuilding a rigid 4x4 matrix from its rotation vector and translation gives it back. -/
theorem C28_split_build (hro : ro.Sound) (M : Mat4 K) (h : IsRigid M) :
    RVecT2Proj ro (Proj2RT ro M).1 (Proj2RT ro M).2 = M := by
  unfold RVecT2Proj Proj2RT
  rw [hro.back _ h.rot, h.rebuild]

/-- C28: storing a pose as six numbers and reading it again gives it back. -/
theorem C28_store_read (hro : ro.Sound) (M : Mat4 K) (h : IsRigid M) :
    ofVec ro (toVec ro M) = M := ofVec_toVec ro hro M h

/-- C28: what is stored after reading stored numbers represents the same pose, with the same
translation; rotation vectors in the range of the conversion are reproduced exactly. -/
theorem C28_read_store (hro : ro.Sound) (v : Average.Vec6 K) :
    ofVec ro (toVec ro (ofVec ro v)) = ofVec ro v ∧
    (toVec ro (ofVec ro v)).t1 = v.t1 ∧ (toVec ro (ofVec ro v)).t2 = v.t2 ∧
    (toVec ro (ofVec ro v)).t3 = v.t3 ∧
    (ro.toVec (ro.toMat ![v.r1, v.r2, v.r3]) = ![v.r1, v.r2, v.r3] → toVec ro (ofVec ro v) = v) := by
  refine ⟨ofVec_toVec ro hro _ ⟨_, _, hro.rot _, rfl⟩, rfl, rfl, rfl, fun h => ?_⟩
  have e : toVec ro (ofVec ro v) =
      { r1 := (ro.toVec (projRot (RT2Proj (ro.toMat ![v.r1, v.r2, v.r3]) ![v.t1, v.t2, v.t3]))) 0
        r2 := (ro.toVec (projRot (RT2Proj (ro.toMat ![v.r1, v.r2, v.r3]) ![v.t1, v.t2, v.t3]))) 1
        r3 := (ro.toVec (projRot (RT2Proj (ro.toMat ![v.r1, v.r2, v.r3]) ![v.t1, v.t2, v.t3]))) 2
        t1 := v.t1, t2 := v.t2, t3 := v.t3 } := rfl
  rw [e, projRot_RT2Proj, h]
  rfl

/-- C28: the product of the projections of two poses is the projection of: rotate by the second then by
the first; move the second translation by the first pose. -/
theorem C28_compose (R R' : Mat3 K) (T T' : Vec3 K) :
    RT2Proj R T * RT2Proj R' T' = RT2Proj (R * R') (R.mulVec T' + T) := by
  rw [RT2Proj_mul, transformPt_eq]

/-- C28: a point is moved as by the 4x4 matrix in homogeneous coordinates. -/
theorem C28_homogeneous (r T p : Vec3 K) :
    (RVecT2Proj ro r T).mulVec ![p 0, p 1, p 2, 1] =
      let q := transformPt (ro.toMat r) T p
      ![q 0, q 1, q 2, 1] := by
  ext i
  fin_cases i <;>
    simp [RVecT2Proj, RT2Proj, transformPt, Matrix.mulVec, dotProduct, Fin.sum_univ_succ] <;> ring

/-- C28: moving a list of points by one pose and then by another is moving it by the product of the
projections. -/
theorem C28_transform_compose (hro : ro.Sound) (r T r' T' : Vec3 K) (pts : List (Vec3 K)) :
    transform3DPts ro (transform3DPts ro pts r' T') r T =
      let M := RVecT2Proj ro r T * RVecT2Proj ro r' T'
      transform3DPts ro pts (Proj2RT ro M).1 (Proj2RT ro M).2 := by
  simp only [transform3DPts, List.map_map]
  apply List.map_congr_left
  intro p _
  unfold Proj2RT RVecT2Proj
  rw [RT2Proj_mul, projRot_RT2Proj, projTrans_RT2Proj,
    hro.back _ ((hro.rot r).mul (hro.rot r')), Function.comp, transformPt_comp]

/-- C28: the inverse pose is the inverse matrix, on both sides. -/
theorem C28_invert (hro : ro.Sound) (r T : Vec3 K) :
    let i := invertRvecT ro r T
    RVecT2Proj ro i.1 i.2 * RVecT2Proj ro r T = 1 ∧ RVecT2Proj ro r T * RVecT2Proj ro i.1 i.2 = 1 := by
  have h : IsRigid (RVecT2Proj ro r T) := ⟨_, _, hro.rot r, rfl⟩
  have e : RVecT2Proj ro (invertRvecT ro r T).1 (invertRvecT ro r T).2 = (RVecT2Proj ro r T)⁻¹ :=
    C28_split_build ro hro _ h.inv
  refine ⟨?_, ?_⟩
  · rw [e]; exact h.inv_mul
  · rw [e]; exact RT2Proj_mul_inv (hro.rot r) T

/-- C28: inverting twice gives back the pose, and the stored vector too if it is one the conversion
produces. -/
theorem C28_invert_twice (hro : ro.Sound) (r T : Vec3 K) :
    let i := invertRvecT ro r T
    let ii := invertRvecT ro i.1 i.2
    RVecT2Proj ro ii.1 ii.2 = RVecT2Proj ro r T ∧ ii.2 = T ∧
      (ro.toVec (ro.toMat r) = r → ii = (r, T)) := by
  have h1 := (C28_invert ro hro r T).1
  have h2 := (C28_invert ro hro (invertRvecT ro r T).1 (invertRvecT ro r T).2).1
  have e : RVecT2Proj ro (invertRvecT ro (invertRvecT ro r T).1 (invertRvecT ro r T).2).1
      (invertRvecT ro (invertRvecT ro r T).1 (invertRvecT ro r T).2).2 = RVecT2Proj ro r T :=
    left_inv_eq_right_inv h2 h1
  refine ⟨e, (RT2Proj_inj e).2, fun hr => ?_⟩
  have e' : (RVecT2Proj ro (invertRvecT ro r T).1 (invertRvecT ro r T).2)⁻¹ = RVecT2Proj ro r T :=
    Matrix.inv_eq_right_inv h1
  show Proj2RT ro (RVecT2Proj ro (invertRvecT ro r T).1 (invertRvecT ro r T).2)⁻¹ = (r, T)
  rw [e', Proj2RT, RVecT2Proj, projRot_RT2Proj, projTrans_RT2Proj, hr]

/-- C28: transforming points by a pose and then by its inverse changes nothing, in either order. -/
theorem C28_invert_undoes (hro : ro.Sound) (r T : Vec3 K) (pts : List (Vec3 K)) :
    let i := invertRvecT ro r T
    transform3DPts ro (transform3DPts ro pts r T) i.1 i.2 = pts ∧
    transform3DPts ro (transform3DPts ro pts i.1 i.2) r T = pts := by
  obtain ⟨h1, h2⟩ := C28_invert ro hro r T
  unfold RVecT2Proj at h1 h2
  rw [RT2Proj_mul, ← RT2Proj_one] at h1 h2
  have key : ∀ (A B : Mat3 K) (a b : Vec3 K), RT2Proj (A * B) (transformPt A a b) = RT2Proj 1 (fun _ => 0) →
      (pts.map (transformPt B b)).map (transformPt A a) = pts := by
    intro A B a b h
    obtain ⟨e1, e2⟩ := RT2Proj_inj h
    rw [List.map_map]
    conv_rhs => rw [← List.map_id pts]
    apply List.map_congr_left
    intro p _
    rw [Function.comp, transformPt_comp, e1, e2, transformPt_one, id]
  exact ⟨key _ _ _ _ h1, key _ _ _ _ h2⟩

/-- C28: distances between points are preserved (checked as squared distance), and so is the number of
points. -/
theorem C28_isometry (hro : ro.Sound) (r T : Vec3 K) (p q : Vec3 K) (pts : List (Vec3 K)) :
    (let d := transformPt (ro.toMat r) T p - transformPt (ro.toMat r) T q
     d ⬝ᵥ d) = (p - q) ⬝ᵥ (p - q) ∧ (transform3DPts ro pts r T).length = pts.length := by
  refine ⟨?_, by simp [transform3DPts]⟩
  have e : transformPt (ro.toMat r) T p - transformPt (ro.toMat r) T q = (ro.toMat r).mulVec (p - q) := by
    rw [transformPt_eq, transformPt_eq, Matrix.mulVec_sub]; abel
  simp only [e]
  rw [Matrix.dotProduct_mulVec, Matrix.vecMul_mulVec, (hro.rot r).orth', Matrix.vecMul_one]

/-- C28: rigid poses are closed under product and inverse, and satisfy the group laws (the instance
`Group (Pose K)`), so every theorem of the model about a group of poses applies to them; the product,
inverse and unit of the instance are those of the matrices. -/
theorem C28_group (a b : Pose K) :
    (a * b).1 = a.1 * b.1 ∧ a⁻¹.1 = a.1⁻¹ ∧ (1 : Pose K).1 = 1 ∧ a⁻¹ * a = 1 :=
  ⟨rfl, rfl, rfl, inv_mul_cancel a⟩

/-- C28: the contract on `cv::Rodrigues` is met by Rodrigues' formula. -/
theorem C28_rodrigues : (Verif.Lemmas.Rodrigues.rod).Sound := Verif.Lemmas.Rodrigues.rod_sound

/-- The averaging of relative poses, on rigid poses stored as six numbers, reproduces equal poses: the
hypothesis `Averages` of C13, C19, C24 holds of the code's averaging. -/
theorem C28_averages [LinearOrder K] [IsStrictOrderedRing K] (hro : ro.Sound) :
    Verif.Props.Objects.Averages (Average.interAverage (Pose.toVec ro) (Pose.ofVec ro hro)) :=
  Verif.Props.Average.interAverage_averages _ _ (Pose.ofVec_toVec ro hro)

/-- Non-vacuity: a quarter turn about the third axis with a translation is rigid and is not trivial; its
inverse moves the image of a point back. -/
example : let R : Mat3 ℚ := !![0, -1, 0; 1, 0, 0; 0, 0, 1]
    IsRot R ∧ transformPt R ![1, 2, 3] ![1, 0, 0] = ![1, 3, 3] ∧
    transformPt R.transpose (invTrans R ![1, 2, 3]) ![1, 3, 3] = ![1, 0, 0] := by
  refine ⟨⟨?_, ?_⟩, ?_, ?_⟩
  · ext i j; fin_cases i <;> fin_cases j <;> simp [Matrix.mul_apply, Fin.sum_univ_succ]
  · simp [Matrix.det_fin_three]
  · ext i; fin_cases i <;> simp [transformPt] <;> norm_num
  · ext i; fin_cases i <;> simp [transformPt, invTrans, Matrix.mulVec, dotProduct, Fin.sum_univ_succ] <;> norm_num

end Verif.Props.Rigid
