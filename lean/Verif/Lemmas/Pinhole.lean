import Verif.Lemmas.RigidGroup
import Mathlib.LinearAlgebra.Matrix.Adjugate
import Mathlib.Data.Real.Basic

/-!
Poses of a square seen by a pinhole camera: four pixels determine the pose, if the square is parallel to the image.
-/
namespace Verif.Lemmas.Pinhole
open Verif Verif.Rigid Verif.Lemmas.Rigid

theorem smul_apply (g : Pose ℝ) (p : Vec3 ℝ) (i : Fin 3) :
    (g • p) i = projRot g.1 i 0 * p 0 + projRot g.1 i 1 * p 1 + projRot g.1 i 2 * p 2 + projTrans g.1 i := by
  rw [smul_def, transformPt_eq]
  simp [Matrix.mulVec, dotProduct, Fin.sum_univ_succ]
  ring

/-- The third column of a rotation is determined by the others. -/
theorem third {R : Mat3 ℝ} (h : IsRot R) (i : Fin 3) :
    R i 2 = ![R 1 0 * R 2 1 - R 2 0 * R 1 1, R 2 0 * R 0 1 - R 0 0 * R 2 1, R 0 0 * R 1 1 - R 1 0 * R 0 1] i := by
  have h1 : R.adjugate = R.transpose := by
    have h2 := Matrix.adjugate_mul R
    rw [h.det, one_smul] at h2
    calc R.adjugate = R.adjugate * (R * R.transpose) := by rw [h.orth, Matrix.mul_one]
      _ = R.transpose := by rw [← Matrix.mul_assoc, h2, Matrix.one_mul]
  have h3 := congrFun (congrFun h1 2) i
  rw [Matrix.transpose_apply] at h3
  rw [← h3, Matrix.adjugate_fin_three]
  fin_cases i <;> simp <;> ring

theorem pose_ext {g h : Pose ℝ} (h0 : ∀ i, projRot g.1 i 0 = projRot h.1 i 0) (h1 : ∀ i, projRot g.1 i 1 = projRot h.1 i 1)
    (ht : ∀ i, projTrans g.1 i = projTrans h.1 i) : g = h := by
  have hR : projRot g.1 = projRot h.1 := by
    ext i j
    have hg := third g.2.rot i
    have hh := third h.2.rot i
    simp only [h0, h1] at hg
    fin_cases j
    · exact h0 i
    · exact h1 i
    · exact hg.trans hh.symm
  apply Subtype.ext
  rw [← g.2.rebuild, ← h.2.rebuild, hR, funext ht]

/-- A pose that keeps the direction of the third axis and moves along it by `z`. -/
structure Upright (z : ℝ) (g : Pose ℝ) : Prop where
  a : projRot g.1 2 0 = 0
  b : projRot g.1 2 1 = 0
  c : projRot g.1 2 2 = 1
  d : projTrans g.1 2 = z

theorem rot_mul (g h : Pose ℝ) : projRot (g * h).1 = projRot g.1 * projRot h.1 := by
  show projRot (g.1 * h.1) = _
  rw [← g.2.rebuild, ← h.2.rebuild, RT2Proj_mul, projRot_RT2Proj, projRot_RT2Proj, projRot_RT2Proj]

theorem trans_mul (g h : Pose ℝ) : projTrans (g * h).1 = transformPt (projRot g.1) (projTrans g.1) (projTrans h.1) := by
  show projTrans (g.1 * h.1) = _
  rw [← g.2.rebuild, ← h.2.rebuild, RT2Proj_mul, projTrans_RT2Proj, projTrans_RT2Proj, projRot_RT2Proj, projTrans_RT2Proj]

theorem Upright.mul {z y : ℝ} {g h : Pose ℝ} (hg : Upright z g) (hh : Upright y h) : Upright (z + y) (g * h) := by
  refine ⟨?_, ?_, ?_, ?_⟩
  · rw [rot_mul, Matrix.mul_apply]; simp [Fin.sum_univ_succ, hg.a, hg.b, hg.c, hh.a]
  · rw [rot_mul, Matrix.mul_apply]; simp [Fin.sum_univ_succ, hg.a, hg.b, hg.c, hh.b]
  · rw [rot_mul, Matrix.mul_apply]; simp [Fin.sum_univ_succ, hg.a, hg.b, hg.c, hh.c]
  · rw [trans_mul, transformPt_eq]
    simp [Matrix.mulVec, dotProduct, Fin.sum_univ_succ, hg.a, hg.b, hg.c, hg.d, hh.d]
    ring

theorem col_unit {R : Mat3 ℝ} (h : IsRot R) :
    R 0 0 ^ 2 + R 1 0 ^ 2 + R 2 0 ^ 2 = 1 ∧ R 0 1 ^ 2 + R 1 1 ^ 2 + R 2 1 ^ 2 = 1 ∧
      R 0 0 * R 0 1 + R 1 0 * R 1 1 + R 2 0 * R 2 1 = 0 := by
  have h' := h.orth'
  have e00 := congrFun (congrFun h' 0) 0
  have e11 := congrFun (congrFun h' 1) 1
  have e01 := congrFun (congrFun h' 0) 1
  simp [Matrix.mul_apply, Fin.sum_univ_succ] at e00 e11 e01
  refine ⟨?_, ?_, ?_⟩ <;> linarith

/-- The corners of a unit square in the plane of a board. -/
def corner (i j : ℝ) : Vec3 ℝ := ![i, j, 0]

theorem at_corner (g : Pose ℝ) (x y : ℝ) (i : Fin 3) :
    (g • corner x y) i = projRot g.1 i 0 * x + projRot g.1 i 1 * y + projTrans g.1 i := by
  rw [smul_apply]
  simp [corner]

/-- Same ray, in front of the camera. -/
def SameRay (p q : Vec3 ℝ) : Prop := ∃ m : ℝ, 0 < m ∧ ∀ i, p i = m * q i

theorem sameRay_of {p q : Vec3 ℝ} (hp : 0 < p 2) (hq : 0 < q 2) (h0 : p 0 / p 2 = q 0 / q 2) (h1 : p 1 / p 2 = q 1 / q 2) :
    SameRay p q := by
  refine ⟨p 2 / q 2, div_pos hp hq, fun i => ?_⟩
  have e0 : p 0 = p 2 / q 2 * q 0 := by
    rw [div_eq_iff hp.ne'] at h0
    rw [h0]; ring
  have e1 : p 1 = p 2 / q 2 * q 1 := by
    rw [div_eq_iff hp.ne'] at h1
    rw [h1]; ring
  fin_cases i
  · exact e0
  · exact e1
  · exact (div_mul_cancel₀ _ hq.ne').symm

/-- Four corners of a square determine the pose of the board. -/
theorem unique {z : ℝ} {g h : Pose ℝ} (hz : 0 < z) (hh : Upright z h)
    (h00 : SameRay (g • corner 0 0) (h • corner 0 0)) (h10 : SameRay (g • corner 1 0) (h • corner 1 0))
    (h01 : SameRay (g • corner 0 1) (h • corner 0 1)) (h11 : SameRay (g • corner 1 1) (h • corner 1 1)) : g = h := by
  suffices h : (∀ i, projRot g.1 i 0 = projRot h.1 i 0) ∧ (∀ i, projRot g.1 i 1 = projRot h.1 i 1) ∧
      ∀ i, projTrans g.1 i = projTrans h.1 i from pose_ext h.1 h.2.1 h.2.2
  obtain ⟨m0, p0, e0⟩ := h00
  obtain ⟨m1, p1, e1⟩ := h10
  obtain ⟨m2, p2, e2⟩ := h01
  obtain ⟨m3, p3, e3⟩ := h11
  simp only [at_corner] at e0 e1 e2 e3
  obtain ⟨hr, hs, hrs⟩ := col_unit h.2.rot
  obtain ⟨gr, gs, grs⟩ := col_unit g.2.rot
  have ha := hh.a
  have hb := hh.b
  have hd := hh.d
  generalize projRot g.1 = R at *
  generalize projTrans g.1 = t at *
  generalize projRot h.1 = S at *
  generalize projTrans h.1 = v at *
  -- depths
  have a2 := e0 2; have b2 := e1 2; have c2 := e2 2; have d2 := e3 2
  have a0 := e0 0; have b0 := e1 0; have c0 := e2 0; have d0 := e3 0
  have a1 := e0 1; have b1 := e1 1; have c1 := e2 1; have d1 := e3 1
  simp only [ha, hb, hd, mul_zero, mul_one, add_zero, zero_add] at a2 b2 c2 d2 a0 b0 c0 d0 a1 b1 c1 d1 hr hs hrs
  have hsum : m0 + m3 = m1 + m2 := by
    have : (m0 + m3 - m1 - m2) * z = 0 := by linear_combination b2 + c2 - a2 - d2
    rcases mul_eq_zero.1 this with h | h
    · linarith
    · exact absurd h hz.ne'
  have k0 : (m1 - m3) * S 0 0 + (m2 - m3) * S 0 1 = 0 := by linear_combination a0 + d0 - b0 - c0 + v 0 * hsum
  have k1 : (m1 - m3) * S 1 0 + (m2 - m3) * S 1 1 = 0 := by linear_combination a1 + d1 - b1 - c1 + v 1 * hsum
  have q1 : m1 = m3 := by linear_combination S 0 0 * k0 + S 1 0 * k1 - (m1 - m3) * hr - (m2 - m3) * hrs
  have q2 : m2 = m3 := by linear_combination S 0 1 * k0 + S 1 1 * k1 - (m2 - m3) * hs - (m1 - m3) * hrs
  have q0 : m0 = m3 := by linarith
  subst q1 q2
  subst q0
  have hone : m0 = 1 := by
    have r0 : R 0 0 = m0 * S 0 0 := by linear_combination b0 - a0
    have r1 : R 1 0 = m0 * S 1 0 := by linear_combination b1 - a1
    have r2 : R 2 0 = 0 := by linear_combination b2 - a2
    rw [r0, r1, r2] at gr
    have : m0 * m0 = 1 := by linear_combination gr - m0 ^ 2 * hr
    nlinarith
  subst hone
  refine ⟨fun i => ?_, fun i => ?_, fun i => ?_⟩
  · have x0 := e0 i; have x1 := e1 i
    linarith
  · have x0 := e0 i; have x1 := e2 i
    linarith
  · have x0 := e0 i
    linarith

end Verif.Lemmas.Pinhole
