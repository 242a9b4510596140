import Verif.Lemmas.QuaternionMean
import Mathlib.Topology.Instances.Matrix
import Mathlib.Topology.MetricSpace.ProperSpace
import Mathlib.Topology.MetricSpace.ProperSpace.Real
import Mathlib.Topology.Order.Compact
import Mathlib.Topology.Algebra.Order.LiminfLimsup
import Mathlib.Topology.MetricSpace.Bounded

/-! A first left singular vector exists for every 4x4 real matrix. -/
namespace Verif.Lemmas.Svd
open Verif Verif.Rigid Verif.Quaternion Verif.Lemmas.Quaternion

theorem dot_cont {X : Type} [TopologicalSpace X] {f g : X → Quat} (hf : Continuous f) (hg : Continuous g) :
    Continuous fun x => f x ⬝ᵥ g x := by
  simp only [dot4]
  have h1 : ∀ i, Continuous fun x => f x i := fun i => (continuous_apply i).comp hf
  have h2 : ∀ i, Continuous fun x => g x i := fun i => (continuous_apply i).comp hg
  exact ((((h1 0).mul (h2 0)).add ((h1 1).mul (h2 1))).add ((h1 2).mul (h2 2))).add ((h1 3).mul (h2 3))

theorem mulVec_cont (A : Mat4 ℝ) : Continuous fun x : Quat => A.mulVec x :=
  continuous_const.matrix_mulVec continuous_id

theorem sphere_compact : IsCompact {x : Quat | x ⬝ᵥ x = 1} := by
  apply Metric.isCompact_of_isClosed_isBounded
  · exact isClosed_eq (dot_cont continuous_id continuous_id) continuous_const
  · apply (Metric.isBounded_closedBall (x := (0 : Quat)) (r := 1)).subset
    intro x hx
    rw [mem_closedBall_zero_iff, pi_norm_le_iff_of_nonneg (by norm_num)]
    intro i
    rw [Set.mem_setOf_eq, dot4] at hx
    rw [Real.norm_eq_abs]
    apply abs_le_one_iff_mul_self_le_one.2
    have := mul_self_nonneg (x 0); have := mul_self_nonneg (x 1)
    have := mul_self_nonneg (x 2); have := mul_self_nonneg (x 3)
    fin_cases i <;> simp <;> linarith

theorem linear_zero {a b : ℝ} (h : ∀ t : ℝ, 2 * t * a + t ^ 2 * b ≤ 0) : a = 0 := by
  have hb : b ≤ 0 := by have h1 := h 1; have h2 := h (-1); nlinarith
  by_contra ha
  rcases hb.lt_or_eq with hb | hb
  · have := h (-a / (2 * b))
    have e : 2 * (-a / (2 * b)) * a + (-a / (2 * b)) ^ 2 * b = -(3 / 4) * (a ^ 2 / b) := by
      have := hb.ne; field_simp; ring
    rw [e] at this
    have h2 : a ^ 2 / b < 0 := div_neg_of_pos_of_neg (by positivity) hb
    linarith
  · have := h a
    have h2 : 0 < a ^ 2 := by positivity
    rw [hb] at this; nlinarith

theorem exists_top (A : Mat4 ℝ) : ∃ u, TopSingular A u := by
  obtain ⟨v, hv, hmax⟩ := sphere_compact.exists_isMaxOn (s := {x : Quat | x ⬝ᵥ x = 1})
    ⟨![1, 0, 0, 0], by rw [Set.mem_setOf_eq, dot4]; simp⟩
    (f := fun x => A.mulVec x ⬝ᵥ A.mulVec x) (dot_cont (mulVec_cont A) (mulVec_cont A)).continuousOn
  rw [Set.mem_setOf_eq] at hv
  set m := A.mulVec v ⬝ᵥ A.mulVec v with hm
  have hm0 : 0 ≤ m := dot_self_nonneg _
  have hall : ∀ x : Quat, A.mulVec x ⬝ᵥ A.mulVec x ≤ m * (x ⬝ᵥ x) := by
    intro x
    by_cases hx : x ⬝ᵥ x = 0
    · rw [dot_self_eq_zero hx]; simp
    · have hp : 0 < x ⬝ᵥ x := lt_of_le_of_ne (dot_self_nonneg x) (Ne.symm hx)
      set c := (Real.sqrt (x ⬝ᵥ x))⁻¹ with hc
      have hcc : c * c * (x ⬝ᵥ x) = 1 := by
        have h1 := Real.mul_self_sqrt hp.le
        have h2 : Real.sqrt (x ⬝ᵥ x) ≠ 0 := (Real.sqrt_pos.2 hp).ne'
        rw [hc]; nth_rewrite 3 [← h1]; field_simp
      have hu : (c • x) ∈ {x : Quat | x ⬝ᵥ x = 1} := by
        rw [Set.mem_setOf_eq, dotProduct_smul, smul_dotProduct, smul_eq_mul, smul_eq_mul, ← mul_assoc, hcc]
      have := hmax hu
      simp only [Set.mem_setOf_eq, Matrix.mulVec_smul, dotProduct_smul, smul_dotProduct, smul_eq_mul] at this
      rw [← mul_assoc] at this
      have h3 := mul_le_mul_of_nonneg_right this hp.le
      calc A.mulVec x ⬝ᵥ A.mulVec x = (c * c * (x ⬝ᵥ x)) * (A.mulVec x ⬝ᵥ A.mulVec x) := by rw [hcc, one_mul]
        _ = c * c * (A.mulVec x ⬝ᵥ A.mulVec x) * (x ⬝ᵥ x) := by ring
        _ ≤ _ := h3
  have hfirst : A.transpose.mulVec (A.mulVec v) = m • v := by
    have key : ∀ y : Quat, A.mulVec v ⬝ᵥ A.mulVec y - m * (v ⬝ᵥ y) = 0 := by
      intro y
      apply linear_zero (b := A.mulVec y ⬝ᵥ A.mulVec y - m * (y ⬝ᵥ y))
      intro t
      have := hall (v + t • y)
      simp only [Matrix.mulVec_add, Matrix.mulVec_smul, add_dotProduct, dotProduct_add, dotProduct_smul,
        smul_dotProduct, smul_eq_mul, hv] at this
      rw [dotProduct_comm (A.mulVec y) (A.mulVec v), dotProduct_comm y v, ← hm] at this
      nlinarith
    have e : ∀ y : Quat, (A.transpose.mulVec (A.mulVec v) - m • v) ⬝ᵥ y = 0 := by
      intro y
      rw [sub_dotProduct, smul_dotProduct, Matrix.mulVec_transpose, ← Matrix.dotProduct_mulVec, smul_eq_mul]
      exact key y
    exact sub_eq_zero.1 (dot_self_eq_zero (e _))
  rcases hm0.eq_or_lt with h0 | h0
  · refine ⟨v, hv, v, 0, le_rfl, ?_, ?_, fun x => by simpa [← h0] using hall x⟩
    · rw [zero_smul]; exact dot_self_eq_zero h0.symm
    · have hz : ∀ x, A.mulVec x = 0 := fun x =>
        dot_self_eq_zero (le_antisymm (by simpa [← h0] using hall x) (dot_self_nonneg _))
      have hA : A = 0 := by
        ext i j
        have := congrFun (hz (Pi.single j 1)) i
        simpa using this
      rw [hA]; simp
  · have hs := Real.sqrt_pos.2 h0
    have hss := Real.mul_self_sqrt h0.le
    refine ⟨(Real.sqrt m)⁻¹ • A.mulVec v, ?_, v, Real.sqrt m, hs.le, ?_, ?_, fun x => ?_⟩
    · rw [dotProduct_smul, smul_dotProduct, ← hm, smul_eq_mul, smul_eq_mul]
      have := hs.ne'
      nth_rewrite 3 [← hss]; field_simp
    · rw [smul_smul, mul_inv_cancel₀ hs.ne', one_smul]
    · rw [Matrix.mulVec_smul, hfirst, smul_smul]
      congr 1
      have := hs.ne'
      nth_rewrite 2 [← hss]; field_simp
    · rw [Real.sq_sqrt h0.le]; exact hall x

end Verif.Lemmas.Svd
