import Verif.Lemmas.Quaternion
import Mathlib.Algebra.Order.BigOperators.Ring.Finset
import Mathlib.Analysis.SpecialFunctions.Trigonometric.Inverse
import Mathlib.Tactic.NormNum.Basic

namespace Verif.Lemmas.Quaternion
open Verif Verif.Rigid Verif.Quaternion Verif.Lemmas.Rigid

theorem ofQuat_neg (q : Quat) : ofQuat (-q) = ofQuat q := by
  ext i j; fin_cases i <;> fin_cases j <;> simp [ofQuat]

theorem outer_antipodal (q : Quat) : outer (antipodal q) = outer q := by
  unfold antipodal; split_ifs
  · ext i j; simp [outer]
  · rfl

/-- Unit vectors with product ±1 are equal up to sign. -/
theorem eq_or_neg_of_dot {p q : Quat} (hp : p ⬝ᵥ p = 1) (hq : q ⬝ᵥ q = 1) (h : (p ⬝ᵥ q) ^ 2 = 1) :
    q = p ∨ q = -p := by
  have hc : p ⬝ᵥ q = 1 ∨ p ⬝ᵥ q = -1 := by
    have : (p ⬝ᵥ q - 1) * (p ⬝ᵥ q + 1) = 0 := by linear_combination h
    rcases mul_eq_zero.1 this with h | h
    · left; linarith
    · right; linarith
  rw [dot4] at *
  obtain hc | hc := hc
  · left
    have h0 : (q 0 - p 0) ^ 2 + (q 1 - p 1) ^ 2 + (q 2 - p 2) ^ 2 + (q 3 - p 3) ^ 2 = 0 := by nlinarith
    ext i
    have := sq_nonneg (q 0 - p 0); have := sq_nonneg (q 1 - p 1)
    have := sq_nonneg (q 2 - p 2); have := sq_nonneg (q 3 - p 3)
    fin_cases i <;> simp <;> apply sub_eq_zero.1 <;> apply pow_eq_zero_iff (n := 2) (by norm_num) |>.1 <;> linarith
  · right
    have h0 : (q 0 + p 0) ^ 2 + (q 1 + p 1) ^ 2 + (q 2 + p 2) ^ 2 + (q 3 + p 3) ^ 2 = 0 := by nlinarith
    ext i
    have := sq_nonneg (q 0 + p 0); have := sq_nonneg (q 1 + p 1)
    have := sq_nonneg (q 2 + p 2); have := sq_nonneg (q 3 + p 3)
    fin_cases i <;> simp <;> apply eq_neg_of_add_eq_zero_left <;> apply pow_eq_zero_iff (n := 2) (by norm_num) |>.1 <;> linarith

/-- Squared Frobenius distance. -/
def frob (R S : Mat3 ℝ) : ℝ := ∑ i, ∑ j, (R i j - S i j) ^ 2

theorem homog (q : Quat) (h : q ⬝ᵥ q = 1) : ofQuat q =
        !![q 3 * q 3 + q 0 * q 0 - q 1 * q 1 - q 2 * q 2, 2 * (q 0 * q 1 - q 3 * q 2),
            2 * (q 0 * q 2 + q 3 * q 1);
          2 * (q 0 * q 1 + q 3 * q 2), q 3 * q 3 + q 1 * q 1 - q 0 * q 0 - q 2 * q 2,
            2 * (q 1 * q 2 - q 3 * q 0);
          2 * (q 0 * q 2 - q 3 * q 1), 2 * (q 1 * q 2 + q 3 * q 0),
            q 3 * q 3 + q 2 * q 2 - q 0 * q 0 - q 1 * q 1] := by
  rw [dot4] at h
  ext i j
  fin_cases i <;> fin_cases j <;> simp [ofQuat] <;> linear_combination h

theorem frob_ofQuat (p q : Quat) (hp : p ⬝ᵥ p = 1) (hq : q ⬝ᵥ q = 1) :
    frob (ofQuat p) (ofQuat q) = 8 * (1 - (p ⬝ᵥ q) ^ 2) := by
  rw [homog p hp, homog q hq]
  have e : (8 : ℝ) * (1 - (p ⬝ᵥ q) ^ 2) =
      3 * (p ⬝ᵥ p) ^ 2 + 3 * (q ⬝ᵥ q) ^ 2 + 2 * ((p ⬝ᵥ p) * (q ⬝ᵥ q)) - 8 * (p ⬝ᵥ q) ^ 2 := by
    rw [hp, hq]; ring
  rw [e]
  simp only [dot4, frob, Fin.sum_univ_three]
  simp
  ring

theorem ofQuat_eq_iff (p q : Quat) (hp : p ⬝ᵥ p = 1) (hq : q ⬝ᵥ q = 1) :
    ofQuat p = ofQuat q ↔ q = p ∨ q = -p := by
  constructor
  · intro h
    have h0 : frob (ofQuat p) (ofQuat q) = 0 := by rw [h]; simp [frob]
    rw [frob_ofQuat p q hp hq] at h0
    exact eq_or_neg_of_dot hp hq (by linarith)
  · rintro (rfl | rfl)
    · rfl
    · rw [ofQuat_neg]

/-- Cauchy-Schwarz. -/
theorem cauchy (p q : Quat) : (p ⬝ᵥ q) ^ 2 ≤ (p ⬝ᵥ p) * (q ⬝ᵥ q) := by
  have := Finset.sum_mul_sq_le_sq_mul_sq Finset.univ p q
  simpa [dotProduct, pow_two] using this

/-- The accumulated matrix. -/
theorem averageMatrix_eq (qs : List Quat) :
    averageMatrix qs = (qs.length : ℝ)⁻¹ • (qs.map outer).sum := by
  have : ∀ (l : List Quat) (A : Mat4 ℝ),
      l.foldl (fun A q => A + outer (antipodal q)) A = A + (l.map outer).sum := by
    intro l
    induction l with
    | nil => intro A; simp
    | cons q l ih => intro A; rw [List.foldl_cons, ih, outer_antipodal]; simp [add_assoc]
  rw [averageMatrix, this, zero_add]

theorem outer_quad (q v : Quat) : v ⬝ᵥ (outer q).mulVec v = (q ⬝ᵥ v) ^ 2 := by
  simp only [Matrix.mulVec, dotProduct, Fin.sum_univ_four, outer]; ring

theorem sum_quad (qs : List Quat) (v : Quat) :
    v ⬝ᵥ ((qs.map outer).sum).mulVec v = (qs.map fun q => (q ⬝ᵥ v) ^ 2).sum := by
  induction qs with
  | nil => simp
  | cons q l ih => simp only [List.map_cons, List.sum_cons, Matrix.add_mulVec, dotProduct_add, ih, outer_quad]

theorem average_quad (qs : List Quat) (v : Quat) :
    v ⬝ᵥ (averageMatrix qs).mulVec v = (qs.length : ℝ)⁻¹ * (qs.map fun q => (q ⬝ᵥ v) ^ 2).sum := by
  rw [averageMatrix_eq, Matrix.smul_mulVec, dotProduct_smul, sum_quad, smul_eq_mul]

theorem average_symm (qs : List Quat) : (averageMatrix qs).transpose = averageMatrix qs := by
  rw [averageMatrix_eq, Matrix.transpose_smul]
  congr 1
  induction qs with
  | nil => simp
  | cons q l ih =>
    rw [List.map_cons, List.sum_cons, Matrix.transpose_add, ih]
    congr 1
    ext i j; simp [outer, mul_comm]

theorem average_psd (qs : List Quat) (v : Quat) : 0 ≤ v ⬝ᵥ (averageMatrix qs).mulVec v := by
  rw [average_quad]
  apply mul_nonneg (by positivity)
  apply List.sum_nonneg
  intro x hx
  obtain ⟨q, -, rfl⟩ := List.mem_map.1 hx
  positivity

theorem dot_self_nonneg (v : Quat) : 0 ≤ v ⬝ᵥ v := by
  rw [dot4]
  have := mul_self_nonneg (v 0); have := mul_self_nonneg (v 1)
  have := mul_self_nonneg (v 2); have := mul_self_nonneg (v 3)
  linarith

theorem dot_self_eq_zero {v : Quat} (h : v ⬝ᵥ v = 0) : v = 0 := by
  rw [dot4] at h
  ext i
  have := mul_self_nonneg (v 0); have := mul_self_nonneg (v 1)
  have := mul_self_nonneg (v 2); have := mul_self_nonneg (v 3)
  fin_cases i <;> simp <;> apply mul_self_eq_zero.1 <;> linarith

/-- The first singular vector of a symmetric positive semidefinite matrix maximises its form. -/
theorem top_maximal {A : Mat4 ℝ} (hs : A.transpose = A) (hp : ∀ v, 0 ≤ v ⬝ᵥ A.mulVec v) {u : Quat}
    (h : TopSingular A u) (v : Quat) (hv : v ⬝ᵥ v = 1) : v ⬝ᵥ A.mulVec v ≤ u ⬝ᵥ A.mulVec u := by
  obtain ⟨hu, w, σ, hσ, h1, h2, h3⟩ := h
  rw [hs] at h2
  have hbound : v ⬝ᵥ A.mulVec v ≤ σ := by
    have := cauchy v (A.mulVec v)
    have h3 := h3 v
    rw [hv] at this h3
    exact abs_le_of_sq_le_sq' (by nlinarith) hσ |>.2
  have hpp := hp (u - w)
  have e : A.mulVec (u - w) = -(σ • (u - w)) := by
    rw [Matrix.mulVec_sub, h1, h2, smul_sub]; abel
  rw [e, dotProduct_neg, dotProduct_smul, smul_eq_mul] at hpp
  have hn := dot_self_nonneg (u - w)
  obtain h0 | h0 : σ = 0 ∨ 0 < σ := hσ.eq_or_lt.imp Eq.symm id
  · have := hp u; linarith
  · have hz : (u - w) ⬝ᵥ (u - w) = 0 := by nlinarith
    have := sub_eq_zero.1 (dot_self_eq_zero hz)
    rw [h2, ← this, dotProduct_smul, hu, smul_eq_mul, mul_one]
    exact hbound

end Verif.Lemmas.Quaternion
