import Verif.Spec.Noise
import Verif.Spec.Majority
import Verif.Lemmas.Rodrigues
import Mathlib.Analysis.Quaternion
import Mathlib.Analysis.SpecialFunctions.Trigonometric.Bounds

/-! Lengths of vectors, distances of poses, and how far the rotations of two rotation vectors are apart. -/
namespace Verif.Lemmas.Noise
open Verif Verif.Rigid Verif.Quaternion Verif.Average Verif.Lemmas.Rodrigues Verif.Lemmas.Rigid Verif.Spec.Noise Verif.Spec.Majority

/-- A vector as a pure quaternion. -/
def pure3 (v : Vec3 ℝ) : _root_.Quaternion ℝ := ⟨0, v 0, v 1, v 2⟩

/-- Four numbers, the real part last, as a quaternion. -/
def quat (q : Quat) : _root_.Quaternion ℝ := ⟨q 3, q 0, q 1, q 2⟩

@[simp] theorem pure3_re (v : Vec3 ℝ) : (pure3 v).re = 0 := rfl
@[simp] theorem pure3_imI (v : Vec3 ℝ) : (pure3 v).imI = v 0 := rfl
@[simp] theorem pure3_imJ (v : Vec3 ℝ) : (pure3 v).imJ = v 1 := rfl
@[simp] theorem pure3_imK (v : Vec3 ℝ) : (pure3 v).imK = v 2 := rfl
@[simp] theorem quat_re (q : Quat) : (quat q).re = q 3 := rfl
@[simp] theorem quat_imI (q : Quat) : (quat q).imI = q 0 := rfl
@[simp] theorem quat_imJ (q : Quat) : (quat q).imJ = q 1 := rfl
@[simp] theorem quat_imK (q : Quat) : (quat q).imK = q 2 := rfl

theorem norm_eq (q : _root_.Quaternion ℝ) : ‖q‖ = Real.sqrt (q.re ^ 2 + q.imI ^ 2 + q.imJ ^ 2 + q.imK ^ 2) := by
  rw [← _root_.Quaternion.normSq_def', _root_.Quaternion.normSq_eq_norm_mul_self, Real.sqrt_mul_self (norm_nonneg _)]

theorem len_eq (v : Vec3 ℝ) : len v = ‖pure3 v‖ := by
  rw [norm_eq]
  unfold len pure3
  congr 1
  simp

theorem pure3_add (u v : Vec3 ℝ) : pure3 (u + v) = pure3 u + pure3 v := by
  ext <;> simp

theorem pure3_sub (u v : Vec3 ℝ) : pure3 (u - v) = pure3 u - pure3 v := by
  ext <;> simp

theorem len_nonneg (v : Vec3 ℝ) : 0 ≤ len v := Real.sqrt_nonneg _

theorem len_add (u v : Vec3 ℝ) : len (u + v) ≤ len u + len v := by
  rw [len_eq, len_eq, len_eq, pure3_add]
  exact norm_add_le _ _

theorem len_sub_comm (u v : Vec3 ℝ) : len (u - v) = len (v - u) := by
  rw [len_eq, len_eq, pure3_sub, pure3_sub, norm_sub_rev]

theorem len_triangle (u v x : Vec3 ℝ) : len (u - x) ≤ len (u - v) + len (v - x) := by
  have := len_add (u - v) (v - x)
  rwa [sub_add_sub_cancel] at this

theorem len_rot {R : Mat3 ℝ} (h : IsRot R) (v : Vec3 ℝ) : len (R.mulVec v) = len v := by
  unfold len
  congr 1
  have e := fun i j => h.cols i j
  simp only [Matrix.mulVec, dotProduct, Fin.sum_univ_three]
  have h00 := e 0 0; have h11 := e 1 1; have h22 := e 2 2; have h01 := e 0 1; have h02 := e 0 2; have h12 := e 1 2
  simp at h00 h11 h22 h01 h02 h12
  linear_combination (v 0)^2 * h00 + (v 1)^2 * h11 + (v 2)^2 * h22 + 2 * v 0 * v 1 * h01 + 2 * v 0 * v 2 * h02 + 2 * v 1 * v 2 * h12

theorem smul_eq (a : Pose ℝ) (p : Vec3 ℝ) : a • p = (projRot a.1).mulVec p + projTrans a.1 := by
  rw [smul_def, transformPt_eq]

theorem len_smul_sub (a : Pose ℝ) (p q : Vec3 ℝ) : len (a • p - a • q) = len (p - q) := by
  rw [smul_eq, smul_eq, add_sub_add_right_eq_sub, ← Matrix.mulVec_sub, len_rot a.2.rot]

theorem len_smul (a : Pose ℝ) (p : Vec3 ℝ) : len (a • p) ≤ len p + len (a • (0 : Vec3 ℝ)) := by
  have := len_triangle (a • p) (a • (0 : Vec3 ℝ)) 0
  rw [len_smul_sub, sub_zero, sub_zero, sub_zero] at this
  exact this

theorem _root_.Verif.Spec.Noise.Off.left {α τ : ℝ} {a b : Pose ℝ} (h : Off α τ a b) (g : Pose ℝ) : Off α τ (g * a) (g * b) := by
  intro p
  rw [mul_smul, mul_smul, len_smul_sub]
  exact h p

theorem _root_.Verif.Spec.Noise.Off.right {α τ : ℝ} {a b : Pose ℝ} (h : Off α τ a b) (hα : 0 ≤ α) (g : Pose ℝ) (D : ℝ) (hD : len (g • (0 : Vec3 ℝ)) ≤ D) :
    Off α (τ + α * D) (a * g) (b * g) := by
  intro p
  rw [mul_smul, mul_smul]
  have h1 := h (g • p)
  have h2 := mul_le_mul_of_nonneg_left (len_smul g p) hα
  have h3 := mul_le_mul_of_nonneg_left hD hα
  linarith

theorem _root_.Verif.Spec.Noise.Off.trans {α τ α' τ' : ℝ} {a b c : Pose ℝ} (h : Off α τ a b) (h' : Off α' τ' b c) : Off (α + α') (τ + τ') a c := by
  intro p
  have h1 := h p
  have h2 := h' p
  have h3 := len_triangle (a • p) (b • p) (c • p)
  linarith

theorem _root_.Verif.Spec.Noise.Off.inv {α τ : ℝ} {a b : Pose ℝ} (h : Off α τ a b) (hα : 0 ≤ α) (D : ℝ) (hD : len (b⁻¹ • (0 : Vec3 ℝ)) ≤ D) :
    Off α (τ + α * D) a⁻¹ b⁻¹ := by
  intro p
  have h1 := h (b⁻¹ • p)
  rw [smul_inv_smul] at h1
  have h2 := len_smul_sub a (a⁻¹ • p) (b⁻¹ • p)
  rw [smul_inv_smul] at h2
  rw [← h2, len_sub_comm]
  have h3 := mul_le_mul_of_nonneg_left (len_smul b⁻¹ p) hα
  have h4 := mul_le_mul_of_nonneg_left hD hα
  linarith

theorem _root_.Verif.Spec.Noise.Off.refl (a : Pose ℝ) : Off 0 0 a a := by
  intro p
  rw [sub_self]
  simp [len]

theorem _root_.Verif.Spec.Noise.Off.mono {α τ α' τ' : ℝ} {a b : Pose ℝ} (h : Off α τ a b) (hα : α ≤ α') (hτ : τ ≤ τ') : Off α' τ' a b := by
  intro p
  have h1 := h p
  have h2 := mul_le_mul_of_nonneg_right hα (len_nonneg p)
  linarith

/-! ### Rotations -/

theorem rot_quat (q : Quat) (h : q ⬝ᵥ q = 1) (v : Vec3 ℝ) : pure3 ((ofQuat q).mulVec v) = quat q * pure3 v * star (quat q) := by
  simp only [dotProduct, Fin.sum_univ_four] at h
  have h3 : q 3 * q 3 = 1 - q 0 * q 0 - q 1 * q 1 - q 2 * q 2 := by linarith
  ext
  · simp; ring
  · simp [ofQuat, Matrix.mulVec, dotProduct, Fin.sum_univ_three]
    linear_combination v 0 * h
  · simp [ofQuat, Matrix.mulVec, dotProduct, Fin.sum_univ_three]
    linear_combination v 1 * h
  · simp [ofQuat, Matrix.mulVec, dotProduct, Fin.sum_univ_three]
    linear_combination v 2 * h

theorem quat_norm {q : Quat} (h : q ⬝ᵥ q = 1) : ‖quat q‖ = 1 := by
  rw [norm_eq]
  simp only [dotProduct, Fin.sum_univ_four] at h
  have : (quat q).re ^ 2 + (quat q).imI ^ 2 + (quat q).imJ ^ 2 + (quat q).imK ^ 2 = 1 := by
    simp only [quat]
    linarith
  rw [this, Real.sqrt_one]

theorem rot_near {p q : Quat} (hp : p ⬝ᵥ p = 1) (hq : q ⬝ᵥ q = 1) (v : Vec3 ℝ) :
    len ((ofQuat p).mulVec v - (ofQuat q).mulVec v) ≤ 2 * ‖quat p - quat q‖ * len v := by
  rw [len_eq, len_eq, pure3_sub, rot_quat p hp, rot_quat q hq]
  have e : quat p * pure3 v * star (quat p) - quat q * pure3 v * star (quat q) =
      (quat p - quat q) * pure3 v * star (quat p) + quat q * pure3 v * star (quat p - quat q) := by
    rw [star_sub, mul_sub, sub_mul, sub_mul]
    abel
  rw [e]
  refine (norm_add_le _ _).trans ?_
  rw [norm_mul, norm_mul, norm_mul, norm_mul, norm_star, norm_star, quat_norm hp, quat_norm hq]
  linarith

/-- Axis and half angle of a rotation vector. -/
theorem axis (r : Vec3 ℝ) : ∃ (n : Vec3 ℝ) (a : ℝ), n 0 ^ 2 + n 1 ^ 2 + n 2 ^ 2 = 1 ∧ (∀ i, r i = 2 * a * n i) ∧
    axisQuat r = ![Real.sin a * n 0, Real.sin a * n 1, Real.sin a * n 2, Real.cos a] := by
  by_cases h : angle r = 0
  · refine ⟨![1, 0, 0], 0, by simp, ?_, ?_⟩
    · unfold angle at h
      have h0 := mul_self_nonneg (r 0)
      have h1 := mul_self_nonneg (r 1)
      have h2 := mul_self_nonneg (r 2)
      rw [Real.sqrt_eq_zero (by linarith)] at h
      have e0 : r 0 = 0 := mul_self_eq_zero.1 (by linarith)
      have e1 : r 1 = 0 := mul_self_eq_zero.1 (by linarith)
      have e2 : r 2 = 0 := mul_self_eq_zero.1 (by linarith)
      intro i
      fin_cases i <;> simp [e0, e1, e2]
    · rw [axisQuat_zero h]
      ext i
      fin_cases i <;> simp
  · refine ⟨fun i => r i / angle r, angle r / 2, ?_, ?_, ?_⟩
    · have := axis_unit h
      linarith
    · intro i
      field_simp
    · rw [axisQuat_of rfl h]
      ext i
      fin_cases i <;> simp [mul_comm]

theorem quat_near (r r' : Vec3 ℝ) : 2 * ‖quat (axisQuat r) - quat (axisQuat r')‖ ≤ len (r - r') := by
  obtain ⟨n, a, hn, hr, hq⟩ := axis r
  obtain ⟨m, b, hm, hr', hq'⟩ := axis r'
  rw [hq, hq', norm_eq]
  unfold len
  have h4 : (2 : ℝ) = Real.sqrt 4 := by
    rw [show (4 : ℝ) = 2 * 2 by norm_num, Real.sqrt_mul_self (by norm_num)]
  rw [h4, ← Real.sqrt_mul (by norm_num)]
  apply Real.sqrt_le_sqrt
  simp only [Pi.sub_apply, hr, hr', _root_.Quaternion.re_sub, _root_.Quaternion.imI_sub, _root_.Quaternion.imJ_sub,
    _root_.Quaternion.imK_sub, quat_re, quat_imI, quat_imJ, quat_imK]
  simp only [Matrix.cons_val]
  have h1 := Real.one_sub_sq_div_two_le_cos (x := a - b)
  have h2 := Real.one_sub_sq_div_two_le_cos (x := a + b)
  rw [Real.cos_sub] at h1
  rw [Real.cos_add] at h2
  have sa := Real.sin_sq_add_cos_sq a
  have sb := Real.sin_sq_add_cos_sq b
  generalize hc : n 0 * m 0 + n 1 * m 1 + n 2 * m 2 = c
  have c1 : 0 ≤ 1 - c := by nlinarith [sq_nonneg (n 0 - m 0), sq_nonneg (n 1 - m 1), sq_nonneg (n 2 - m 2)]
  have c2 : 0 ≤ 1 + c := by nlinarith [sq_nonneg (n 0 + m 0), sq_nonneg (n 1 + m 1), sq_nonneg (n 2 + m 2)]
  generalize Real.sin a = x at *
  generalize Real.sin b = y at *
  generalize Real.cos a = u at *
  generalize Real.cos b = v at *
  have e1 : (u - v) ^ 2 + (x * n 0 - y * m 0) ^ 2 + (x * n 1 - y * m 1) ^ 2 + (x * n 2 - y * m 2) ^ 2 = 2 - 2 * (x * y * c + u * v) := by
    rw [← hc]
    linear_combination x ^ 2 * hn + y ^ 2 * hm + sa + sb
  have e2 : (2 * a * n 0 - 2 * b * m 0) ^ 2 + (2 * a * n 1 - 2 * b * m 1) ^ 2 + (2 * a * n 2 - 2 * b * m 2) ^ 2 =
      4 * (a ^ 2 + b ^ 2 - 2 * a * b * c) := by
    rw [← hc]
    linear_combination 4 * a ^ 2 * hn + 4 * b ^ 2 * hm
  rw [e1, e2]
  have f1 : 0 ≤ (a - b) ^ 2 - 2 + 2 * (u * v + x * y) := by linarith
  have f2 : 0 ≤ (a + b) ^ 2 - 2 + 2 * (u * v - x * y) := by linarith
  have g1 := mul_nonneg c2 f1
  have g2 := mul_nonneg c1 f2
  nlinarith

/-- Rodrigues' formula does not increase distances: two rotations are at most as far apart as their rotation vectors. -/
theorem rodMat_near (r r' v : Vec3 ℝ) : len ((rodMat r).mulVec v - (rodMat r').mulVec v) ≤ len (r - r') * len v := by
  rw [rodMat_eq, rodMat_eq]
  exact (rot_near (axisQuat_unit r) (axisQuat_unit r') v).trans (mul_le_mul_of_nonneg_right (quat_near r r') (len_nonneg v))

theorem len_le {v : Vec3 ℝ} {δ : ℝ} (h0 : |v 0| ≤ δ) (h1 : |v 1| ≤ δ) (h2 : |v 2| ≤ δ) : len v ≤ Real.sqrt 3 * δ := by
  have hδ : 0 ≤ δ := (abs_nonneg _).trans h0
  unfold len
  rw [show Real.sqrt 3 * δ = Real.sqrt (3 * (δ * δ)) by rw [Real.sqrt_mul (by norm_num), Real.sqrt_mul_self hδ]]
  apply Real.sqrt_le_sqrt
  have e : ∀ x : ℝ, |x| ≤ δ → x ^ 2 ≤ δ * δ := by
    intro x hx
    rw [← sq_abs, sq]
    exact mul_self_le_mul_self (abs_nonneg _) hx
  linarith [e _ h0, e _ h1, e _ h2]

/-- Poses whose six numbers differ by at most `δ` move points nearly alike. -/
theorem off_of_near {u v : Vec6 ℝ} {δ : ℝ} (h : Near δ u v) :
    Off (Real.sqrt 3 * δ) (Real.sqrt 3 * δ) (Pose.ofVec rod rod_sound u) (Pose.ofVec rod rod_sound v) := by
  intro p
  have e : ∀ u : Vec6 ℝ, Pose.ofVec rod rod_sound u • p = (rodMat ![u.r1, u.r2, u.r3]).mulVec p + ![u.t1, u.t2, u.t3] := by
    intro u
    rw [smul_eq]
    show (projRot (RT2Proj (rodMat ![u.r1, u.r2, u.r3]) ![u.t1, u.t2, u.t3])).mulVec p + projTrans (RT2Proj _ ![u.t1, u.t2, u.t3]) = _
    rw [projRot_RT2Proj, projTrans_RT2Proj]
  rw [e, e, add_sub_add_comm]
  refine (len_add _ _).trans ?_
  have h1 := rodMat_near ![u.r1, u.r2, u.r3] ![v.r1, v.r2, v.r3] p
  have h2 : len (![u.r1, u.r2, u.r3] - ![v.r1, v.r2, v.r3]) ≤ Real.sqrt 3 * δ := len_le h.r1 h.r2 h.r3
  have h3 : len (![u.t1, u.t2, u.t3] - ![v.t1, v.t2, v.t3]) ≤ Real.sqrt 3 * δ := len_le h.t1 h.t2 h.t3
  have h4 := mul_le_mul_of_nonneg_right h2 (len_nonneg p)
  linarith

end Verif.Lemmas.Noise
