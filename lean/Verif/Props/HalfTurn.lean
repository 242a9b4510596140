import Verif.Props.Majority
import Verif.Lemmas.Rodrigues
import Mathlib.Analysis.SpecialFunctions.Trigonometric.Inverse
import Mathlib.Analysis.SpecialFunctions.Trigonometric.Bounds
import Mathlib.Topology.Order.Basic

/-!
C94, where medians fail although all measurements agree: the average is taken of rotation vectors, and two rotations that are
nearly the same half turn can have nearly opposite rotation vectors.
-/
namespace Verif.Props.HalfTurn
open Verif Verif.Rigid Verif.Quaternion Verif.Average Verif.Lemmas.Rodrigues Verif.Lemmas.Rigid

/-- The rotation about the first axis with cosine `c` and sine `s`. -/
def turn (c s : ℝ) : Mat3 ℝ := !![1, 0, 0; 0, c, -s; 0, s, c]

theorem angle_x (x : ℝ) : angle ![x, 0, 0] = |x| := by
  unfold angle
  simp [Real.sqrt_mul_self_eq_abs]

theorem rodMat_x (x : ℝ) : rodMat ![x, 0, 0] = turn (Real.cos x) (Real.sin x) := by
  by_cases h : x = 0
  · subst h
    have : angle ![(0 : ℝ), 0, 0] = 0 := by rw [angle_x]; simp
    unfold rodMat
    simp only [this, if_true]
    ext i j
    fin_cases i <;> fin_cases j <;> simp [turn]
  · have ha := angle_x x
    have hne : |x| ≠ 0 := abs_ne_zero.2 h
    have hs : Real.sin |x| * (x / |x|) = Real.sin x := by
      rcases abs_cases x with ⟨e, _⟩ | ⟨e, _⟩ <;> rw [e]
      · rw [div_self h, mul_one]
      · rw [Real.sin_neg, div_neg, div_self h]; ring
    have hx : x / |x| * (x / |x|) = 1 := by
      rw [div_mul_div_comm, abs_mul_abs_self, div_self (mul_ne_zero h h)]
    unfold rodMat
    simp only [ha, if_neg hne, Real.cos_abs]
    ext i j
    fin_cases i <;> fin_cases j <;> simp [turn, hs, hx]

theorem rodVec_turn (t σ : ℝ) (h0 : 0 < t) (hπ : t < Real.pi) (hc : Real.cos t ≤ -1/2) (hσ : σ = 1 ∨ σ = -1) :
    rodVec (turn (Real.cos t) (σ * Real.sin t)) = ![σ * t, 0, 0] := by
  have hsin : 0 < Real.sin (t / 2) := Real.sin_pos_of_pos_of_lt_pi (by linarith) (by linarith)
  have hcos : 0 < Real.cos (t / 2) := Real.cos_pos_of_mem_Ioo ⟨by linarith, by linarith⟩
  have e1 : 1 - Real.cos t - Real.cos t + 1 = (2 * Real.sin (t / 2)) * (2 * Real.sin (t / 2)) := by
    have h1 : Real.cos t = 1 - 2 * Real.sin (t / 2) ^ 2 := by
      have := Real.cos_two_mul (t / 2)
      rw [show 2 * (t / 2) = t by ring] at this
      have := Real.sin_sq_add_cos_sq (t / 2)
      linarith
    rw [h1]; ring
  have e2 : Real.sin t = 2 * Real.sin (t / 2) * Real.cos (t / 2) := by
    have := Real.sin_two_mul (t / 2)
    rwa [show 2 * (t / 2) = t by ring] at this
  have hq : toQuat (turn (Real.cos t) (σ * Real.sin t)) = ![Real.sin (t / 2), 0, 0, σ * Real.cos (t / 2)] := by
    have ht : ¬ 0 < turn (Real.cos t) (σ * Real.sin t) 0 0 + turn (Real.cos t) (σ * Real.sin t) 1 1 + turn (Real.cos t) (σ * Real.sin t) 2 2 := by
      simp [turn]; linarith
    have hm : maxDiag (turn (Real.cos t) (σ * Real.sin t)) = 0 := by
      have : ¬ (1 < Real.cos t) := by linarith
      simp [maxDiag, turn, this]
    unfold toQuat
    simp only [if_neg ht]
    unfold toQuatMax
    simp only [hm]
    have hs : Real.sqrt (turn (Real.cos t) (σ * Real.sin t) 0 0 - turn (Real.cos t) (σ * Real.sin t) (0 + 1) (0 + 1) -
        turn (Real.cos t) (σ * Real.sin t) (0 + 2) (0 + 2) + 1) = 2 * Real.sin (t / 2) := by
      have : turn (Real.cos t) (σ * Real.sin t) 0 0 - turn (Real.cos t) (σ * Real.sin t) (0 + 1) (0 + 1) -
        turn (Real.cos t) (σ * Real.sin t) (0 + 2) (0 + 2) + 1 = (2 * Real.sin (t / 2)) * (2 * Real.sin (t / 2)) := by
        rw [← e1]; rfl
      rw [this, Real.sqrt_mul_self (by linarith)]
    rw [hs]
    ext n
    fin_cases n
    · simp; ring
    · simp [turn]
    · simp [turn]
    · simp [turn]
      rw [e2]
      field_simp
      ring
  have hl : ∀ a : ℝ, a = Real.sin (t / 2) ∨ a = -Real.sin (t / 2) → Real.sqrt (a * a + 0 * 0 + 0 * 0) = Real.sin (t / 2) := by
    rintro a (rfl | rfl)
    · rw [mul_zero, add_zero, add_zero, Real.sqrt_mul_self hsin.le]
    · rw [mul_zero, add_zero, add_zero, neg_mul_neg, Real.sqrt_mul_self hsin.le]
  have hac : Real.arccos (Real.cos (t / 2)) = t / 2 := Real.arccos_cos (by linarith) (by linarith)
  have hap : antipodal ![Real.sin (t / 2), 0, 0, σ * Real.cos (t / 2)] = ![σ * Real.sin (t / 2), 0, 0, Real.cos (t / 2)] := by
    unfold antipodal
    rcases hσ with rfl | rfl
    · rw [if_neg (by simp; exact hcos.le)]
      ext n; fin_cases n <;> simp
    · rw [if_pos (by simp; exact hcos)]
      ext n; fin_cases n <;> simp
  unfold rodVec
  rw [hq, hap]
  have hl' := hl (σ * Real.sin (t / 2)) (by rcases hσ with rfl | rfl <;> simp)
  ext n
  fin_cases n
  · show 2 * Real.arccos (Real.cos (t / 2)) * (σ * Real.sin (t / 2) / Real.sqrt (σ * Real.sin (t / 2) * (σ * Real.sin (t / 2)) + 0 * 0 + 0 * 0)) = σ * t
    rw [hl', hac]
    field_simp
  · show 2 * Real.arccos (Real.cos (t / 2)) * (0 / _) = 0
    simp
  · show 2 * Real.arccos (Real.cos (t / 2)) * (0 / _) = 0
    simp

/-- The half turn about the first axis. -/
def half : Mat4 ℝ := !![1, 0, 0, 0; 0, -1, 0, 0; 0, 0, -1, 0; 0, 0, 0, 1]

/-- The pose with rotation vector `(x, 0, 0)` and no translation. -/
noncomputable def about (x : ℝ) : Pose ℝ := Pose.ofVec rod rod_sound ⟨x, 0, 0, 0, 0, 0⟩

theorem about_val (x : ℝ) : (about x).1 = !![1, 0, 0, 0; 0, Real.cos x, -Real.sin x, 0; 0, Real.sin x, Real.cos x, 0; 0, 0, 0, 1] := by
  show RT2Proj (rodMat ![x, 0, 0]) ![0, 0, 0] = _
  rw [rodMat_x]
  ext i j
  fin_cases i <;> fin_cases j <;> rfl

theorem about_toVec (t σ : ℝ) (h0 : 0 < t) (hπ : t < Real.pi) (hc : Real.cos t ≤ -1/2) (hσ : σ = 1 ∨ σ = -1) :
    Pose.toVec rod (about (σ * t)) = ⟨σ * t, 0, 0, 0, 0, 0⟩ := by
  have hr : projRot (about (σ * t)).1 = turn (Real.cos t) (σ * Real.sin t) := by
    show projRot (RT2Proj (rodMat ![σ * t, 0, 0]) ![0, 0, 0]) = _
    rw [projRot_RT2Proj, rodMat_x]
    rcases hσ with rfl | rfl
    · simp
    · simp
  have hv : rodVec (projRot (about (σ * t)).1) = ![σ * t, 0, 0] := by rw [hr, rodVec_turn t σ h0 hπ hc hσ]
  have ht : projTrans (about (σ * t)).1 = ![0, 0, 0] := projTrans_RT2Proj _ _
  show (⟨rodVec (projRot (about (σ * t)).1) 0, rodVec (projRot (about (σ * t)).1) 1, rodVec (projRot (about (σ * t)).1) 2,
    projTrans (about (σ * t)).1 0, projTrans (about (σ * t)).1 1, projTrans (about (σ * t)).1 2⟩ : Vec6 ℝ) = _
  rw [hv, ht]
  rfl

/-- C94 (half turns): the average of two measured relative poses can be the identity although all entries of both matrices
are arbitrarily close to those of one and the same half turn. (`rod` is Rodrigues' formula, with rotation vectors no
longer than a half turn, as `cv::Rodrigues` returns them.) -/
theorem C94_half_turn (ε : ℝ) (hε : 0 < ε) : ∃ a b : Pose ℝ, (∀ i j, |a.1 i j - half i j| ≤ ε) ∧ (∀ i j, |b.1 i j - half i j| ≤ ε) ∧
    interAverage (Pose.toVec rod) (Pose.ofVec rod rod_sound) [a, b] = 1 := by
  obtain ⟨η, h0, h1, h2⟩ : ∃ η : ℝ, 0 < η ∧ η ≤ 1 ∧ η ≤ ε := ⟨min 1 ε, lt_min one_pos hε, min_le_left _ _, min_le_right _ _⟩
  have hpi := Real.two_le_pi
  have hcos := Real.one_sub_sq_div_two_le_cos (x := η)
  have hsin : Real.sin η ≤ η := Real.sin_le h0.le
  have hsin0 : 0 ≤ Real.sin η := Real.sin_nonneg_of_nonneg_of_le_pi h0.le (by linarith)
  have hcos1 := Real.cos_le_one η
  have hc : Real.cos (Real.pi - η) ≤ -1/2 := by
    rw [Real.cos_pi_sub]
    nlinarith
  have hnear : ∀ σ : ℝ, σ = 1 ∨ σ = -1 → ∀ i j, |(about (σ * (Real.pi - η))).1 i j - half i j| ≤ ε := by
    intro σ hσ i j
    have c1 : Real.cos (σ * (Real.pi - η)) = -Real.cos η := by
      rcases hσ with rfl | rfl
      · rw [one_mul, Real.cos_pi_sub]
      · rw [neg_one_mul, Real.cos_neg, Real.cos_pi_sub]
    have s1 : |Real.sin (σ * (Real.pi - η))| ≤ ε := by
      rcases hσ with rfl | rfl
      · rw [one_mul, Real.sin_pi_sub, abs_of_nonneg hsin0]; linarith
      · rw [neg_one_mul, Real.sin_neg, Real.sin_pi_sub, abs_neg, abs_of_nonneg hsin0]; linarith
    have c2 : |-Real.cos η + 1| ≤ ε := by
      rw [abs_of_nonneg (by linarith)]
      nlinarith
    rw [about_val, c1]
    generalize Real.sin (σ * (Real.pi - η)) = x at s1
    fin_cases i <;> fin_cases j <;> simp [half, hε.le, s1, c2]
  refine ⟨about (1 * (Real.pi - η)), about (-1 * (Real.pi - η)), hnear 1 (.inl rfl), hnear (-1) (.inr rfl), ?_⟩
  have hm : medianPose ([about (1 * (Real.pi - η)), about (-1 * (Real.pi - η))].map (Pose.toVec rod)) = ⟨0, 0, 0, 0, 0, 0⟩ := by
    rw [List.map_cons, List.map_cons, List.map_nil, about_toVec _ 1 (by linarith) (by linarith) hc (.inl rfl),
      about_toVec _ (-1) (by linarith) (by linarith) hc (.inr rfl), Majority.C94_half]
    simp
  unfold interAverage
  rw [hm]
  apply Subtype.ext
  show (about 0).1 = 1
  rw [about_val, Real.cos_zero, Real.sin_zero]
  ext i j
  fin_cases i <;> fin_cases j <;> simp

end Verif.Props.HalfTurn
