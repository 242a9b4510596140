import Verif.Model.Rigid
import Mathlib.LinearAlgebra.Matrix.Adjugate
import Mathlib.Tactic.LinearCombination
import Mathlib.Tactic.FinCases

namespace Verif.Lemmas.Rigid
open Verif Verif.Rigid

variable {K : Type} [Field K]

theorem projRot_RT2Proj (R : Mat3 K) (T : Vec3 K) : projRot (RT2Proj R T) = R := by
  ext i j; fin_cases i <;> fin_cases j <;> rfl

theorem projTrans_RT2Proj (R : Mat3 K) (T : Vec3 K) : projTrans (RT2Proj R T) = T := by
  ext i; fin_cases i <;> rfl

theorem RT2Proj_mul (R R' : Mat3 K) (T T' : Vec3 K) :
    RT2Proj R T * RT2Proj R' T' = RT2Proj (R * R') (transformPt R T T') := by
  ext i j
  fin_cases i <;> fin_cases j <;>
    simp [RT2Proj, transformPt, Matrix.mul_apply, Fin.sum_univ_succ] <;> ring

theorem RT2Proj_one : RT2Proj (1 : Mat3 K) (fun _ => 0) = 1 := by
  ext i j; fin_cases i <;> fin_cases j <;> simp [RT2Proj]

theorem RT2Proj_inj {R R' : Mat3 K} {T T' : Vec3 K} (h : RT2Proj R T = RT2Proj R' T') :
    R = R' ∧ T = T' := by
  refine ⟨?_, ?_⟩
  · rw [← projRot_RT2Proj R T, h, projRot_RT2Proj]
  · rw [← projTrans_RT2Proj R T, h, projTrans_RT2Proj]

theorem _root_.Verif.Rigid.IsRot.one : IsRot (1 : Mat3 K) := ⟨by simp, by simp⟩

theorem _root_.Verif.Rigid.IsRot.mul {R S : Mat3 K} (hR : IsRot R) (hS : IsRot S) : IsRot (R * S) := by
  refine ⟨?_, by rw [Matrix.det_mul, hR.det, hS.det, one_mul]⟩
  rw [Matrix.transpose_mul]
  calc R * S * (S.transpose * R.transpose) = R * (S * S.transpose) * R.transpose := by
        simp only [Matrix.mul_assoc]
    _ = 1 := by rw [hS.orth, Matrix.mul_one, hR.orth]

theorem _root_.Verif.Rigid.IsRot.orth' {R : Mat3 K} (h : IsRot R) : R.transpose * R = 1 := mul_eq_one_comm.1 h.orth

theorem _root_.Verif.Rigid.IsRot.transpose {R : Mat3 K} (h : IsRot R) : IsRot R.transpose :=
  ⟨by rw [Matrix.transpose_transpose]; exact h.orth', by rw [Matrix.det_transpose, h.det]⟩

theorem transformPt_eq (R : Mat3 K) (T p : Vec3 K) : transformPt R T p = R.mulVec p + T := by
  ext i
  fin_cases i <;> simp [transformPt, Matrix.mulVec, dotProduct, Fin.sum_univ_succ] <;> ring

theorem transformPt_comp (R S : Mat3 K) (T U p : Vec3 K) :
    transformPt R T (transformPt S U p) = transformPt (R * S) (transformPt R T U) p := by
  simp only [transformPt_eq, Matrix.mulVec_add, Matrix.mulVec_mulVec]; abel

theorem transformPt_one (p : Vec3 K) : transformPt (1 : Mat3 K) (fun _ => 0) p = p := by
  rw [transformPt_eq]; ext i; simp

/-- Translation of the inverse pose. -/
def invTrans (R : Mat3 K) (T : Vec3 K) : Vec3 K := -(R.transpose.mulVec T)

theorem RT2Proj_inv_left {R : Mat3 K} (h : IsRot R) (T : Vec3 K) :
    RT2Proj R.transpose (invTrans R T) * RT2Proj R T = 1 := by
  rw [RT2Proj_mul, h.orth', transformPt_eq, invTrans, ← RT2Proj_one]
  congr 1
  ext i; simp

theorem RT2Proj_inv {R : Mat3 K} (h : IsRot R) (T : Vec3 K) :
    (RT2Proj R T)⁻¹ = RT2Proj R.transpose (invTrans R T) :=
  Matrix.inv_eq_left_inv (RT2Proj_inv_left h T)

theorem RT2Proj_mul_inv {R : Mat3 K} (h : IsRot R) (T : Vec3 K) :
    RT2Proj R T * (RT2Proj R T)⁻¹ = 1 := by
  rw [RT2Proj_inv h]; exact mul_eq_one_comm.1 (RT2Proj_inv_left h T)

/-! ### Entrywise facts about rotations -/

theorem _root_.Verif.Rigid.IsRot.rows {R : Mat3 K} (h : IsRot R) (i j : Fin 3) :
    R i 0 * R j 0 + R i 1 * R j 1 + R i 2 * R j 2 = if i = j then 1 else 0 := by
  have := congrFun (congrFun h.orth i) j
  rw [Matrix.mul_apply, Fin.sum_univ_three, Matrix.one_apply] at this
  simpa [Matrix.transpose_apply] using this

theorem _root_.Verif.Rigid.IsRot.cols {R : Mat3 K} (h : IsRot R) (i j : Fin 3) :
    R 0 i * R 0 j + R 1 i * R 1 j + R 2 i * R 2 j = if i = j then 1 else 0 := by
  have := h.transpose.rows i j
  simpa [Matrix.transpose_apply] using this

/-- Every entry of a rotation is its cofactor. -/
theorem _root_.Verif.Rigid.IsRot.cofactor {R : Mat3 K} (h : IsRot R) : R.adjugate = R.transpose := by
  have h1 : R.adjugate * R = 1 := by rw [Matrix.adjugate_mul, h.det, one_smul]
  calc R.adjugate = R.adjugate * (R * R.transpose) := by rw [h.orth, Matrix.mul_one]
    _ = R.transpose := by rw [← Matrix.mul_assoc, h1, Matrix.one_mul]

end Verif.Lemmas.Rigid
