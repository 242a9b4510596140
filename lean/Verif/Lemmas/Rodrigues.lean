import Verif.Lemmas.QuaternionMean

/-!
Rodrigues' formula over the reals and a matching rotation vector: a witness that the contract put on
`cv::Rodrigues` can be met.
-/
namespace Verif.Lemmas.Rodrigues
open Verif Verif.Rigid Verif.Quaternion Verif.Lemmas.Rigid Verif.Lemmas.Quaternion

/-- Length of a rotation vector. -/
noncomputable def angle (r : Vec3 ℝ) : ℝ := Real.sqrt (r 0 * r 0 + r 1 * r 1 + r 2 * r 2)

/-- Rodrigues' formula `cos θ I + (1 - cos θ) n nᵀ + sin θ [n]×` for `r = θ n`, the identity for `r = 0`. -/
noncomputable def rodMat (r : Vec3 ℝ) : Mat3 ℝ :=
  let θ := angle r
  if θ = 0 then 1 else
    let c := Real.cos θ
    let s := Real.sin θ
    let n : Vec3 ℝ := fun i => r i / θ
    !![c + (1 - c) * (n 0 * n 0), (1 - c) * (n 0 * n 1) - s * n 2, (1 - c) * (n 0 * n 2) + s * n 1;
       (1 - c) * (n 1 * n 0) + s * n 2, c + (1 - c) * (n 1 * n 1), (1 - c) * (n 1 * n 2) - s * n 0;
       (1 - c) * (n 2 * n 0) - s * n 1, (1 - c) * (n 2 * n 1) + s * n 0, c + (1 - c) * (n 2 * n 2)]

/-- Axis times angle of a rotation, read off its quaternion. -/
noncomputable def rodVec (R : Mat3 ℝ) : Vec3 ℝ :=
  let q := antipodal (toQuat R)
  let l := Real.sqrt (q 0 * q 0 + q 1 * q 1 + q 2 * q 2)
  fun i => (2 * Real.arccos (q 3)) * (q i.castSucc / l)

noncomputable def rod : Rodrigues ℝ := ⟨rodMat, rodVec⟩

/-- The quaternion of a rotation vector. -/
noncomputable def axisQuat (r : Vec3 ℝ) : Quat :=
  let θ := angle r
  let h := Real.sin (θ / 2)
  if θ = 0 then ![0, 0, 0, 1] else ![r 0 / θ * h, r 1 / θ * h, r 2 / θ * h, Real.cos (θ / 2)]

theorem axis_unit {r : Vec3 ℝ} (h : angle r ≠ 0) :
    r 0 / angle r * (r 0 / angle r) + r 1 / angle r * (r 1 / angle r) + r 2 / angle r * (r 2 / angle r) = 1 := by
  have e : angle r * angle r = r 0 * r 0 + r 1 * r 1 + r 2 * r 2 :=
    Real.mul_self_sqrt (add_nonneg (add_nonneg (mul_self_nonneg _) (mul_self_nonneg _)) (mul_self_nonneg _))
  field_simp
  linarith

theorem axisQuat_unit (r : Vec3 ℝ) : axisQuat r ⬝ᵥ axisQuat r = 1 := by
  unfold axisQuat
  by_cases h : angle r = 0
  · simp [h, dot4]
  · have hu := axis_unit h
    have hc := Real.sin_sq_add_cos_sq (angle r / 2)
    rw [dot4]
    simp only [h, if_false]
    simp
    linear_combination (Real.sin (angle r / 2)) ^ 2 * hu + hc

theorem rodMat_eq (r : Vec3 ℝ) : rodMat r = ofQuat (axisQuat r) := by
  unfold rodMat axisQuat
  by_cases h : angle r = 0
  · simp only [h, if_true]
    ext i j
    fin_cases i <;> fin_cases j <;> simp [ofQuat]
    all_goals norm_num
  · have h1 : Real.cos (angle r) = 2 * Real.cos (angle r / 2) ^ 2 - 1 := by
      rw [← Real.cos_two_mul]; congr 1; ring
    have h2 : Real.sin (angle r) = 2 * Real.sin (angle r / 2) * Real.cos (angle r / 2) := by
      rw [← Real.sin_two_mul]; congr 1; ring
    have hc := Real.sin_sq_add_cos_sq (angle r / 2)
    have hs : Real.sin (angle r / 2) ^ 2 = 1 - Real.cos (angle r / 2) ^ 2 := by linarith
    simp only [h, if_false]
    rw [h1, h2]
    generalize Real.sin (angle r / 2) = sn at *
    generalize Real.cos (angle r / 2) = cn at *
    generalize angle r = a at *
    ext i j
    fin_cases i <;> fin_cases j <;> simp [ofQuat] <;> ring_nf <;> rw [hs] <;> ring

theorem angle_rodVec {l a : ℝ} (v : Vec3 ℝ) (hl : l = angle v) (hl0 : l ≠ 0) (ha : 0 ≤ a) :
    angle (fun i => a * (v i / l)) = a := by
  have hu := axis_unit (r := v) (hl ▸ hl0)
  rw [← hl] at hu
  unfold angle
  have : a * (v 0 / l) * (a * (v 0 / l)) + a * (v 1 / l) * (a * (v 1 / l)) + a * (v 2 / l) * (a * (v 2 / l)) = a * a := by
    linear_combination a * a * hu
  rw [this, Real.sqrt_mul_self ha]

theorem antipodal_cases (q : Quat) : antipodal q = q ∨ antipodal q = -q := by
  unfold antipodal; split_ifs <;> simp

theorem antipodal_nonneg (q : Quat) : 0 ≤ antipodal q 3 := by
  unfold antipodal; split_ifs with h
  · simp; linarith
  · exact not_lt.1 h

theorem axisQuat_zero {r : Vec3 ℝ} (h : angle r = 0) : axisQuat r = ![0, 0, 0, 1] := by
  simp only [axisQuat, h, if_true]

theorem axisQuat_of {r : Vec3 ℝ} {θ : ℝ} (h : angle r = θ) (h0 : θ ≠ 0) :
    axisQuat r = ![r 0 / θ * Real.sin (θ / 2), r 1 / θ * Real.sin (θ / 2), r 2 / θ * Real.sin (θ / 2),
      Real.cos (θ / 2)] := by
  simp only [axisQuat, h, if_neg h0]

theorem rodMat_rodVec (R : Mat3 ℝ) (hR : IsRot R) : rodMat (rodVec R) = R := by
  have hq : ofQuat (antipodal (toQuat R)) = R := by
    rcases antipodal_cases (toQuat R) with h | h <;> rw [h]
    · exact ofQuat_toQuat R hR
    · rw [ofQuat_neg]; exact ofQuat_toQuat R hR
  have hu : antipodal (toQuat R) ⬝ᵥ antipodal (toQuat R) = 1 := by
    rcases antipodal_cases (toQuat R) with h | h <;> rw [h]
    · exact toQuat_unit R hR
    · rw [neg_dotProduct_neg]; exact toQuat_unit R hR
  have hw := antipodal_nonneg (toQuat R)
  rw [rodMat_eq, ← hq]
  congr 1
  unfold rodVec
  rw [hq]
  generalize antipodal (toQuat R) = q at *
  clear hq hR R
  rw [dot4] at hu
  have hw1 : q 3 ≤ 1 := by
    have := mul_self_nonneg (q 0); have := mul_self_nonneg (q 1); have := mul_self_nonneg (q 2)
    nlinarith
  have hn : 0 ≤ q 0 * q 0 + q 1 * q 1 + q 2 * q 2 :=
    add_nonneg (add_nonneg (mul_self_nonneg _) (mul_self_nonneg _)) (mul_self_nonneg _)
  set l := Real.sqrt (q 0 * q 0 + q 1 * q 1 + q 2 * q 2) with hl
  show axisQuat (fun i : Fin 3 => 2 * Real.arccos (q 3) * (q i.castSucc / l)) = q
  have hll : l * l = q 0 * q 0 + q 1 * q 1 + q 2 * q 2 := Real.mul_self_sqrt hn
  by_cases h0 : l = 0
  · have hz : q 0 * q 0 + q 1 * q 1 + q 2 * q 2 = 0 := by rw [← hll, h0, mul_zero]
    have hq3 : q 3 = 1 := by
      have : (q 3 - 1) * (q 3 + 1) = 0 := by linarith
      rcases mul_eq_zero.1 this with h | h <;> linarith
    have := mul_self_nonneg (q 0); have := mul_self_nonneg (q 1); have := mul_self_nonneg (q 2)
    have e0 : q 0 = 0 := mul_self_eq_zero.1 (by linarith)
    have e1 : q 1 = 0 := mul_self_eq_zero.1 (by linarith)
    have e2 : q 2 = 0 := mul_self_eq_zero.1 (by linarith)
    have ha : angle (fun i : Fin 3 => 2 * Real.arccos (q 3) * (q i.castSucc / l)) = 0 := by
      simp [angle, hq3]
    rw [axisQuat_zero ha]
    ext i; fin_cases i <;> simp [e0, e1, e2, hq3]
  · have ha : angle (fun i : Fin 3 => 2 * Real.arccos (q 3) * (q i.castSucc / l)) = 2 * Real.arccos (q 3) :=
      angle_rodVec (fun i : Fin 3 => q i.castSucc) hl h0 (by have := Real.arccos_nonneg (q 3); linarith)
    have hq3 : q 3 ≠ 1 := by
      intro h; apply h0; rw [h] at hu; rw [hl, show q 0 * q 0 + q 1 * q 1 + q 2 * q 2 = 0 by linarith, Real.sqrt_zero]
    have hne : 2 * Real.arccos (q 3) ≠ 0 := by
      intro h
      have : Real.arccos (q 3) = 0 := by linarith
      rw [Real.arccos_eq_zero] at this
      exact hq3 (le_antisymm hw1 this)
    have hsin : Real.sin (2 * Real.arccos (q 3) / 2) = l := by
      rw [mul_div_cancel_left₀ _ (by norm_num : (2 : ℝ) ≠ 0), Real.sin_arccos, hl]
      congr 1; linarith
    have hcos : Real.cos (2 * Real.arccos (q 3) / 2) = q 3 := by
      rw [mul_div_cancel_left₀ _ (by norm_num : (2 : ℝ) ≠ 0), Real.cos_arccos (by linarith) hw1]
    rw [axisQuat_of ha hne, hsin, hcos]
    have hx : ∀ x : ℝ, 2 * Real.arccos (q 3) * (x / l) / (2 * Real.arccos (q 3)) * l = x := by
      intro x
      have := mul_ne_zero_iff.1 hne |>.2
      field_simp
    ext i; fin_cases i
    · exact hx (q 0)
    · exact hx (q 1)
    · exact hx (q 2)
    · rfl

theorem rod_sound : rod.Sound where
  rot := fun r => by
    show IsRot (rodMat r)
    rw [rodMat_eq]; exact ofQuat_isRot _ (axisQuat_unit r)
  back := fun R h => rodMat_rodVec R h

end Verif.Lemmas.Rodrigues
