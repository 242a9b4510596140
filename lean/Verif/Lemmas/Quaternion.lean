import Verif.Model.Quaternion
import Verif.Lemmas.Rigid

namespace Verif.Lemmas.Quaternion
open Verif Verif.Rigid Verif.Quaternion Verif.Lemmas.Rigid

theorem dot4 (p q : Quat) : p ⬝ᵥ q = p 0 * q 0 + p 1 * q 1 + p 2 * q 2 + p 3 * q 3 := by
  simp [dotProduct, Fin.sum_univ_succ]; ring

theorem ofQuat_isRot (q : Quat) (h : q ⬝ᵥ q = 1) : IsRot (ofQuat q) := by
  rw [dot4] at h
  constructor
  · ext i j
    fin_cases i <;> fin_cases j <;>
      simp [ofQuat, Matrix.mul_apply, Fin.sum_univ_succ, Matrix.transpose_apply]
    · linear_combination (4 * (q 3 * q 3 + q 0 * q 0)) * h
    · linear_combination (4 * (q 0 * q 1)) * h
    · linear_combination (4 * (q 0 * q 2)) * h
    · linear_combination (4 * (q 0 * q 1)) * h
    · linear_combination (4 * (q 3 * q 3 + q 1 * q 1)) * h
    · linear_combination (4 * (q 1 * q 2)) * h
    · linear_combination (4 * (q 0 * q 2)) * h
    · linear_combination (4 * (q 1 * q 2)) * h
    · linear_combination (4 * (q 3 * q 3 + q 2 * q 2)) * h
  · have e : ofQuat q =
        !![q 3 * q 3 + q 0 * q 0 - q 1 * q 1 - q 2 * q 2, 2 * (q 0 * q 1 - q 3 * q 2),
            2 * (q 0 * q 2 + q 3 * q 1);
          2 * (q 0 * q 1 + q 3 * q 2), q 3 * q 3 + q 1 * q 1 - q 0 * q 0 - q 2 * q 2,
            2 * (q 1 * q 2 - q 3 * q 0);
          2 * (q 0 * q 2 - q 3 * q 1), 2 * (q 1 * q 2 + q 3 * q 0),
            q 3 * q 3 + q 2 * q 2 - q 0 * q 0 - q 1 * q 1] := by
      ext i j
      fin_cases i <;> fin_cases j <;> simp [ofQuat] <;> linear_combination h
    rw [e, Matrix.det_fin_three]
    simp only [Matrix.of_apply, Matrix.cons_val', Matrix.cons_val_zero, Matrix.cons_val_one,
      Matrix.cons_val]
    have : (q 0 * q 0 + q 1 * q 1 + q 2 * q 2 + q 3 * q 3) ^ 3 = 1 := by rw [h]; norm_num
    rw [← this]; ring

/-- The cofactor equations, entry by entry. -/
theorem cof (R : Mat3 ℝ) (h : IsRot R) (i : Fin 3) :
    R i i = R (i+1) (i+1) * R (i+2) (i+2) - R (i+1) (i+2) * R (i+2) (i+1) ∧
    R i (i+1) = R (i+1) (i+2) * R (i+2) i - R (i+1) i * R (i+2) (i+2) ∧
    R (i+1) i = R (i+2) (i+1) * R i (i+2) - R i (i+1) * R (i+2) (i+2) := by
  have hc := h.cofactor
  rw [Matrix.adjugate_fin_three] at hc
  have e : ∀ a b : Fin 3, _ := fun a b => congrFun (congrFun hc a) b
  have e00 := e 0 0; have e01 := e 0 1; have e02 := e 0 2
  have e10 := e 1 0; have e11 := e 1 1; have e12 := e 1 2
  have e20 := e 2 0; have e21 := e 2 1; have e22 := e 2 2
  simp [Matrix.transpose_apply] at e00 e01 e02 e10 e11 e12 e20 e21 e22
  fin_cases i
  · refine ⟨?_, ?_, ?_⟩ <;> simp <;> linarith
  · refine ⟨?_, ?_, ?_⟩ <;> simp <;> linarith
  · refine ⟨?_, ?_, ?_⟩ <;> simp <;> linarith

/-- The equations used below, for the entries named relative to a cyclic order of the axes. -/
structure Ent (ii ij ik ji jj jk ki kj kk : ℝ) : Prop where
  ri : ii * ii + ij * ij + ik * ik = 1
  rj : ji * ji + jj * jj + jk * jk = 1
  rk : ki * ki + kj * kj + kk * kk = 1
  rij : ii * ji + ij * jj + ik * jk = 0
  rik : ii * ki + ij * kj + ik * kk = 0
  rjk : ji * ki + jj * kj + jk * kk = 0
  ci : ii * ii + ji * ji + ki * ki = 1
  cj : ij * ij + jj * jj + kj * kj = 1
  ck : ik * ik + jk * jk + kk * kk = 1
  cij : ii * ij + ji * jj + ki * kj = 0
  cik : ii * ik + ji * jk + ki * kk = 0
  cjk : ij * ik + jj * jk + kj * kk = 0
  fii : ii = jj * kk - jk * kj
  fjj : jj = kk * ii - ki * ik
  fkk : kk = ii * jj - ij * ji
  fij : ij = jk * ki - ji * kk
  fji : ji = kj * ik - ij * kk
  fjk : jk = ki * ij - kj * ii
  fkj : kj = ik * ji - jk * ii
  fki : ki = ij * jk - ik * jj
  fik : ik = ji * kj - ki * jj

theorem ent (R : Mat3 ℝ) (h : IsRot R) :
    Ent (R 0 0) (R 0 1) (R 0 2) (R 1 0) (R 1 1) (R 1 2) (R 2 0) (R 2 1) (R 2 2) := by
  have c0 := cof R h 0; have c1 := cof R h 1; have c2 := cof R h 2
  simp at c0 c1 c2
  constructor
  · simpa using h.rows 0 0
  · simpa using h.rows 1 1
  · simpa using h.rows 2 2
  · simpa using h.rows 0 1
  · simpa using h.rows 0 2
  · simpa using h.rows 1 2
  · simpa using h.cols 0 0
  · simpa using h.cols 1 1
  · simpa using h.cols 2 2
  · simpa using h.cols 0 1
  · simpa using h.cols 0 2
  · simpa using h.cols 1 2
  · exact c0.1
  · linarith [c1.1]
  · linarith [c2.1]
  · exact c0.2.1
  · linarith [c0.2.2]
  · linarith [c1.2.1]
  · linarith [c1.2.2]
  · linarith [c2.2.1]
  · linarith [c2.2.2]

theorem Ent.cyc {ii ij ik ji jj jk ki kj kk : ℝ} (h : Ent ii ij ik ji jj jk ki kj kk) :
    Ent jj jk ji kj kk ki ij ik ii := by
  obtain ⟨h1, h2, h3, h4, h5, h6, h7, h8, h9, h10, h11, h12, h13, h14, h15, h16, h17, h18, h19, h20, h21⟩ := h
  constructor <;> linarith

section
variable {ii ij ik ji jj jk ki kj kk : ℝ}

theorem Ent.e1 (h : Ent ii ij ik ji jj jk ki kj kk) :
    (kj - jk) * (kj - jk) = (1 + ii + jj + kk) * (1 + ii - jj - kk) := by
  linear_combination h.rj + h.rk - h.ci - 2 * h.fii

theorem Ent.e2 (h : Ent ii ij ik ji jj jk ki kj kk) :
    (ji + ij) * (ji + ij) = (1 + jj - ii - kk) * (1 + ii - jj - kk) := by
  linear_combination h.ri + h.rj - h.ck + 2 * h.fkk

theorem Ent.e3 (h : Ent ii ij ik ji jj jk ki kj kk) :
    (ki + ik) * (ki + ik) = (1 + kk - ii - jj) * (1 + ii - jj - kk) := by
  linear_combination h.ri + h.rk - h.cj + 2 * h.fjj

theorem Ent.e4 (h : Ent ii ij ik ji jj jk ki kj kk) :
    (kj - jk) * (ki + ik) = (ji - ij) * (1 + ii - jj - kk) := by
  linear_combination h.cij - h.rij - h.fji + h.fij

theorem Ent.e5 (h : Ent ii ij ik ji jj jk ki kj kk) :
    (kj - jk) * (ji + ij) = (ik - ki) * (1 + ii - jj - kk) := by
  linear_combination h.rik - h.cik - h.fik + h.fki

theorem Ent.e6 (h : Ent ii ij ik ji jj jk ki kj kk) :
    (ji + ij) * (ki + ik) = (jk + kj) * (1 + ii - jj - kk) := by
  linear_combination h.rjk + h.cjk - h.fjk - h.fkj

theorem Ent.g (h : Ent ii ij ik ji jj jk ki kj kk) :
    (kj - jk) * (ik - ki) = (ij + ji) * (1 + ii + jj + kk) := by
  linear_combination - h.rij - h.cij - h.fij - h.fji

theorem mul_half {s a b c : ℝ} (hs : s ≠ 0) (h : a * b = c * (s * s)) :
    (a * (0.5 / s)) * (b * (0.5 / s)) = c / 4 := by
  have : (a * (0.5 / s)) * (b * (0.5 / s)) = (a * b) * (0.25 / (s * s)) := by
    field_simp; norm_num <;> ring
  rw [this, h]; field_simp; norm_num <;> ring

theorem half_mul {s a : ℝ} (hs : s ≠ 0) : (s * 0.5) * (a * (0.5 / s)) = a / 4 := by
  field_simp; norm_num <;> ring

/-- A quaternion (x y z w) represents the nine entries. -/
structure Rep (x y z w ii ij ik ji jj jk ki kj kk : ℝ) : Prop where
  unit : x * x + y * y + z * z + w * w = 1
  eii : 2 * (w * w + x * x) - 1 = ii
  eij : 2 * (x * y - w * z) = ij
  eik : 2 * (x * z + w * y) = ik
  eji : 2 * (x * y + w * z) = ji
  ejj : 2 * (w * w + y * y) - 1 = jj
  ejk : 2 * (y * z - w * x) = jk
  eki : 2 * (x * z - w * y) = ki
  ekj : 2 * (y * z + w * x) = kj
  ekk : 2 * (w * w + z * z) - 1 = kk

theorem Rep.cyc {x y z w : ℝ} (h : Rep y z x w jj jk ji kj kk ki ij ik ii) :
    Rep x y z w ii ij ik ji jj jk ki kj kk := by
  obtain ⟨h1, h2, h3, h4, h5, h6, h7, h8, h9, h10⟩ := h
  constructor <;> linarith

theorem Ent.repMax (h : Ent ii ij ik ji jj jk ki kj kk) {s : ℝ} (hs : s ≠ 0)
    (hss : s * s = 1 + ii - jj - kk) :
    Rep (s * 0.5) ((ji + ij) * (0.5 / s)) ((ki + ik) * (0.5 / s)) ((kj - jk) * (0.5 / s))
      ii ij ik ji jj jk ki kj kk := by
  have xx : (s * 0.5) * (s * 0.5) = (1 + ii - jj - kk) / 4 := by linear_combination hss / 4
  have ww := mul_half hs (h.e1.trans (by rw [hss]))
  have yy := mul_half hs (h.e2.trans (by rw [hss]))
  have zz := mul_half hs (h.e3.trans (by rw [hss]))
  have wz := mul_half hs (h.e4.trans (by rw [hss]))
  have wy := mul_half hs (h.e5.trans (by rw [hss]))
  have yz := mul_half hs (h.e6.trans (by rw [hss]))
  have xy := half_mul (a := ji + ij) hs
  have xz := half_mul (a := ki + ik) hs
  have xw := half_mul (a := kj - jk) hs
  constructor <;> linarith

theorem Ent.repTrace (h : Ent ii ij ik ji jj jk ki kj kk) {s : ℝ} (hs : s ≠ 0)
    (hss : s * s = 1 + ii + jj + kk) :
    Rep ((kj - jk) * (0.5 / s)) ((ik - ki) * (0.5 / s)) ((ji - ij) * (0.5 / s)) (s * 0.5)
      ii ij ik ji jj jk ki kj kk := by
  have ww : (s * 0.5) * (s * 0.5) = (1 + ii + jj + kk) / 4 := by linear_combination hss / 4
  have xx := mul_half hs (h.e1.trans (by rw [hss]; ring : _ = (1 + ii - jj - kk) * (s * s)))
  have yy := mul_half hs (h.cyc.e1.trans (by rw [hss]; ring : _ = (1 + jj - kk - ii) * (s * s)))
  have zz := mul_half hs (h.cyc.cyc.e1.trans (by rw [hss]; ring : _ = (1 + kk - ii - jj) * (s * s)))
  have xy := mul_half hs (h.g.trans (by rw [hss]))
  have yz := mul_half hs (h.cyc.g.trans (by rw [hss]; ring : _ = (jk + kj) * (s * s)))
  have zx := mul_half hs (h.cyc.cyc.g.trans (by rw [hss]; ring : _ = (ki + ik) * (s * s)))
  have wx := half_mul (a := kj - jk) hs
  have wy := half_mul (a := ik - ki) hs
  have wz := half_mul (a := ji - ij) hs
  constructor <;> linarith

end

/-- What the conversion to a quaternion returns. -/
theorem toQuat_rep (R : Mat3 ℝ) (h : IsRot R) :
    Rep (toQuat R 0) (toQuat R 1) (toQuat R 2) (toQuat R 3)
      (R 0 0) (R 0 1) (R 0 2) (R 1 0) (R 1 1) (R 1 2) (R 2 0) (R 2 1) (R 2 2) := by
  have he := ent R h
  unfold toQuat
  split_ifs with ht
  · have hp : 0 < R 0 0 + R 1 1 + R 2 2 + 1 := by linarith
    have := he.repTrace (s := Real.sqrt (R 0 0 + R 1 1 + R 2 2 + 1)) (Real.sqrt_pos.2 hp).ne'
      (by rw [Real.mul_self_sqrt hp.le]; ring)
    simpa using this
  · have ht : R 0 0 + R 1 1 + R 2 2 ≤ 0 := not_lt.1 ht
    have key : (maxDiag R = 0 ∧ R 1 1 ≤ R 0 0 ∧ R 2 2 ≤ R 0 0) ∨
        (maxDiag R = 1 ∧ R 0 0 ≤ R 1 1 ∧ R 2 2 ≤ R 1 1) ∨
        (maxDiag R = 2 ∧ R 0 0 ≤ R 2 2 ∧ R 1 1 ≤ R 2 2) := by
      unfold maxDiag
      split_ifs with h1 h2 h2
      · right; right; exact ⟨rfl, by linarith, by linarith⟩
      · right; left; exact ⟨rfl, by linarith, by linarith⟩
      · right; right; exact ⟨rfl, by linarith, by linarith⟩
      · left; exact ⟨rfl, by linarith, by linarith⟩
    obtain ⟨hm, h1, h2⟩ | ⟨hm, h1, h2⟩ | ⟨hm, h1, h2⟩ := key
    · have hp : 0 < R 0 0 - R 1 1 - R 2 2 + 1 := by linarith
      have := he.repMax (s := Real.sqrt (R 0 0 - R 1 1 - R 2 2 + 1)) (Real.sqrt_pos.2 hp).ne'
        (by rw [Real.mul_self_sqrt hp.le]; ring)
      simpa [toQuatMax, hm] using this
    · have hp : 0 < R 1 1 - R 2 2 - R 0 0 + 1 := by linarith
      have := he.cyc.repMax (s := Real.sqrt (R 1 1 - R 2 2 - R 0 0 + 1)) (Real.sqrt_pos.2 hp).ne'
        (by rw [Real.mul_self_sqrt hp.le]; ring)
      have := this.cyc
      simpa [toQuatMax, hm] using this
    · have hp : 0 < R 2 2 - R 0 0 - R 1 1 + 1 := by linarith
      have := he.cyc.cyc.repMax (s := Real.sqrt (R 2 2 - R 0 0 - R 1 1 + 1)) (Real.sqrt_pos.2 hp).ne'
        (by rw [Real.mul_self_sqrt hp.le]; ring)
      have := this.cyc.cyc
      simpa [toQuatMax, hm] using this

theorem toQuat_unit (R : Mat3 ℝ) (h : IsRot R) : toQuat R ⬝ᵥ toQuat R = 1 := by
  rw [dot4]; exact (toQuat_rep R h).unit

theorem ofQuat_toQuat (R : Mat3 ℝ) (h : IsRot R) : ofQuat (toQuat R) = R := by
  have hr := toQuat_rep R h
  ext i j
  fin_cases i <;> fin_cases j
  · exact hr.eii
  · exact hr.eij
  · exact hr.eik
  · exact hr.eji
  · exact hr.ejj
  · exact hr.ejk
  · exact hr.eki
  · exact hr.ekj
  · exact hr.ekk

end Verif.Lemmas.Quaternion
