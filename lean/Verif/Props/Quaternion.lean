import Verif.Lemmas.Rodrigues
import Verif.Lemmas.Svd
import Verif.Props.Average

/-!
C32: quaternion conversions and rotation averaging, over the real numbers.  `frobenius R S` is the
squared Frobenius distance of two matrices.
-/
namespace Verif.Props.Quaternion
open Verif Verif.Rigid Verif.Quaternion Verif.Lemmas.Quaternion

/-- Sum over all entries of the squared difference. -/
def frobenius (R S : Mat3 ℝ) : ℝ := ∑ i, ∑ j, (R i j - S i j) ^ 2

/-- C32: a unit quaternion gives a rotation matrix. -/
theorem C32_rotation (q : Quat) (h : q ⬝ᵥ q = 1) : IsRot (ofQuat q) := ofQuat_isRot q h

/-- C32: a rotation matrix gives a unit quaternion (in every branch of the conversion), and converting
back gives the rotation. -/
theorem C32_roundtrip (R : Mat3 ℝ) (h : IsRot R) :
    toQuat R ⬝ᵥ toQuat R = 1 ∧ ofQuat (toQuat R) = R := ⟨toQuat_unit R h, ofQuat_toQuat R h⟩

/-- C32: two unit quaternions give the same rotation iff they are equal or opposite. -/
theorem C32_sign (p q : Quat) (hp : p ⬝ᵥ p = 1) (hq : q ⬝ᵥ q = 1) :
    ofQuat p = ofQuat q ↔ q = p ∨ q = -p := ofQuat_eq_iff p q hp hq

/-- C32: quaternion to matrix to quaternion gives the quaternion or its opposite. -/
theorem C32_back (q : Quat) (h : q ⬝ᵥ q = 1) :
    toQuat (ofQuat q) = q ∨ toQuat (ofQuat q) = -q := by
  obtain ⟨h1, h2⟩ := C32_roundtrip (ofQuat q) (C32_rotation q h)
  exact (C32_sign q _ h h1).1 h2.symm

/-- C32: the averaging matrix does not change when quaternions are replaced by their opposites nor with
their order: it is the mean of the products of coordinates. -/
theorem C32_matrix (qs : List Quat) (i j : Fin 4) :
    averageMatrix qs i j = (qs.map fun q => q i * q j).sum / qs.length := by
  rw [averageMatrix_eq, Matrix.smul_apply, smul_eq_mul, inv_mul_eq_div]
  congr 1
  induction qs with
  | nil => simp
  | cons q l ih => simp only [List.map_cons, List.sum_cons, Matrix.add_apply, ih]; rfl

theorem C32_order (ps qs : List Quat) (h : ps.Perm qs) : averageMatrix ps = averageMatrix qs := by
  ext i j
  rw [C32_matrix, C32_matrix, (h.map _).sum_eq, h.length_eq]

theorem C32_opposite (qs : List Quat) (neg : Quat → Bool) :
    averageMatrix (qs.map fun q => if neg q then -q else q) = averageMatrix qs := by
  ext i j
  rw [C32_matrix, C32_matrix, List.map_map, List.length_map]
  congr 3
  funext q
  by_cases h : neg q <;> simp [h]

private theorem mean_optimal {svd : Mat4 ℝ → Quat} (hsvd : ∀ A, TopSingular A (svd A)) (Rs : List (Mat3 ℝ))
    (hR : ∀ R ∈ Rs, IsRot R) (v : Quat) (hv : v ⬝ᵥ v = 1) :
    let u := svd (averageMatrix (Rs.map toQuat))
    (Rs.map fun R => frobenius R (ofQuat u)).sum ≤ (Rs.map fun R => frobenius R (ofQuat v)).sum := by
  intro u
  have hu : u ⬝ᵥ u = 1 := (hsvd _).1
  have key : ∀ w : Quat, w ⬝ᵥ w = 1 → (Rs.map fun R => frobenius R (ofQuat w)).sum =
      8 * (Rs.length - (Rs.map fun R => (toQuat R ⬝ᵥ w) ^ 2).sum) := by
    intro w hw
    clear hsvd u hu
    induction Rs with
    | nil => simp
    | cons R l ih =>
      have h1 : frobenius R (ofQuat w) = 8 * (1 - (toQuat R ⬝ᵥ w) ^ 2) := by
        have hRr := hR R List.mem_cons_self
        conv_lhs => rw [← ofQuat_toQuat R hRr]
        exact frob_ofQuat _ _ (toQuat_unit R hRr) hw
      rw [List.map_cons, List.sum_cons, h1, ih (fun S hS => hR S (List.mem_cons_of_mem _ hS))]
      simp only [List.map_cons, List.sum_cons, List.length_cons]
      push_cast
      ring
  rw [key u hu, key v hv]
  have hm := top_maximal (average_symm (Rs.map toQuat)) (average_psd (Rs.map toQuat)) (hsvd _) v hv
  rw [average_quad, average_quad] at hm
  simp only [List.length_map, List.map_map] at hm
  rcases Nat.eq_zero_or_pos Rs.length with h0 | h0
  · rw [List.length_eq_zero_iff] at h0; subst h0; simp
  · have hp : (0 : ℝ) < (Rs.length : ℝ)⁻¹ := by positivity
    have := le_of_mul_le_mul_left hm hp
    have e : ∀ w : Quat, (Rs.map fun R => (toQuat R ⬝ᵥ w) ^ 2) =
        (Rs.map ((fun q => (q ⬝ᵥ w) ^ 2) ∘ toQuat)) := fun w => rfl
    rw [e, e]
    linarith

variable (ro : Rodrigues ℝ) (svd : Mat4 ℝ → Quat)

/-- C32: with quaternion averaging, the returned rotation vector is that of a rotation which minimises
the sum of squared distances to the given rotations, over all rotations. -/
theorem C32_mean (hro : ro.Sound) (hsvd : ∀ A, TopSingular A (svd A)) (rs : List (Vec3 ℝ)) :
    let avg := ro.toMat (quaternionAverage ro svd rs)
    IsRot avg ∧ ∀ S : Mat3 ℝ, IsRot S →
      (rs.map fun r => frobenius (ro.toMat r) avg).sum ≤ (rs.map fun r => frobenius (ro.toMat r) S).sum := by
  intro avg
  have hu := (hsvd (averageMatrix (rs.map fun r => toQuat (ro.toMat r)))).1
  have e : avg = ofQuat (svd (averageMatrix (rs.map fun r => toQuat (ro.toMat r)))) :=
    hro.back _ (ofQuat_isRot _ hu)
  refine ⟨hro.rot _, fun S hS => ?_⟩
  have := mean_optimal hsvd (rs.map ro.toMat)
    (by intro R hR; obtain ⟨r, -, rfl⟩ := List.mem_map.1 hR; exact hro.rot r) (toQuat S) (toQuat_unit S hS)
  rw [ofQuat_toQuat S hS] at this
  simp only [List.map_map] at this
  rw [e]
  exact this

/-- C32: the average of equal rotations is that rotation. -/
theorem C32_constant (hro : ro.Sound) (hsvd : ∀ A, TopSingular A (svd A)) (rs : List (Vec3 ℝ))
    (hne : rs ≠ []) (R : Mat3 ℝ) (h : ∀ r ∈ rs, ro.toMat r = R) :
    ro.toMat (quaternionAverage ro svd rs) = R := by
  obtain ⟨r, hr⟩ := List.exists_mem_of_ne_nil rs hne
  have hR : IsRot R := h r hr ▸ hro.rot r
  have hm := (C32_mean ro svd hro hsvd rs).2 R hR
  have hz : (rs.map fun r => frobenius (ro.toMat r) R).sum = 0 := by
    rw [List.map_congr_left (g := fun _ => (0 : ℝ)) (fun r hr => by rw [h r hr]; simp [frobenius])]
    simp
  rw [hz] at hm
  have hnn : ∀ A B : Mat3 ℝ, 0 ≤ frobenius A B := fun A B =>
    Finset.sum_nonneg fun i _ => Finset.sum_nonneg fun j _ => sq_nonneg _
  have h0 : frobenius R (ro.toMat (quaternionAverage ro svd rs)) = 0 := by
    apply le_antisymm _ (hnn _ _)
    refine le_trans ?_ hm
    rw [← h r hr]
    exact List.single_le_sum (by intro x hx; obtain ⟨s, -, rfl⟩ := List.mem_map.1 hx; exact hnn _ _) _
      (List.mem_map.2 ⟨r, hr, rfl⟩)
  ext i j
  have h1 := (Finset.sum_eq_zero_iff_of_nonneg
    (fun i _ => Finset.sum_nonneg fun j _ => sq_nonneg _)).1 h0 i (Finset.mem_univ i)
  have h2 := (Finset.sum_eq_zero_iff_of_nonneg (fun j _ => sq_nonneg _)).1 h1 j (Finset.mem_univ j)
  have := pow_eq_zero_iff (n := 2) (by norm_num) |>.1 h2
  linarith

/-- C32: the order of the rotations does not matter. -/
theorem C32_average_order (rs rs' : List (Vec3 ℝ)) (h : rs.Perm rs') :
    quaternionAverage ro svd rs = quaternionAverage ro svd rs' := by
  unfold quaternionAverage
  rw [C32_order _ _ (h.map _)]

/-- C32: both ways of averaging return the common rotation of equal rotation vectors, and neither depends
on the order. -/
theorem C32_both (hro : ro.Sound) (hsvd : ∀ A, TopSingular A (svd A)) (useQuaternions : Bool)
    (rs : List (Vec3 ℝ)) (hne : rs ≠ []) (r : Vec3 ℝ) (h : ∀ x ∈ rs, x = r) :
    ro.toMat (getAverageRotation ro svd useQuaternions rs) = ro.toMat r ∧
    ∀ rs', rs.Perm rs' →
      getAverageRotation ro svd useQuaternions rs' = getAverageRotation ro svd useQuaternions rs := by
  refine ⟨?_, fun rs' hp => ?_⟩
  · cases useQuaternions
    · have e : getAverageRotation ro svd false rs = r := by
        have hm : ∀ i : Fin 3, Average.median (rs.map (· i)) = r i := fun i => by
          apply Verif.Props.Average.C31_constant _ _ (by simpa using hne)
          intro y hy
          obtain ⟨x, hx, rfl⟩ := List.mem_map.1 hy
          rw [h x hx]
        simp only [getAverageRotation, Bool.false_eq_true, if_false, hm]
        ext i; fin_cases i <;> rfl
      rw [e]
    · exact C32_constant ro svd hro hsvd rs hne _ (fun x hx => by rw [h x hx])
  · cases useQuaternions
    · simp only [getAverageRotation, Bool.false_eq_true, if_false]
      rw [Verif.Props.Average.C31_order (hp.map (· 0)), Verif.Props.Average.C31_order (hp.map (· 1)),
        Verif.Props.Average.C31_order (hp.map (· 2))]
    · exact C32_average_order ro svd rs' rs hp.symm

/-! ### Non-vacuity -/

/-- A half turn about the diagonal of the first two axes: rotation with trace -1, converted by the second
branch. -/
example : IsRot (!![0, 1, 0; 1, 0, 0; 0, 0, -1] : Mat3 ℝ) := by
  refine ⟨?_, by simp [Matrix.det_fin_three]⟩
  ext i j; fin_cases i <;> fin_cases j <;> simp [Matrix.mul_apply, Fin.sum_univ_succ]

/-- The contract on the singular vectors can be met for all matrices at once. -/
theorem C32_svd : ∃ svd : Mat4 ℝ → Quat, ∀ A, TopSingular A (svd A) :=
  ⟨fun A => (Verif.Lemmas.Svd.exists_top A).choose, fun A => (Verif.Lemmas.Svd.exists_top A).choose_spec⟩

/-- The contract on the singular vector is met, e.g. for the matrix of one quaternion. -/
theorem top_outer (q : Quat) (h : q ⬝ᵥ q = 1) : TopSingular (outer q) q := by
  have hm : ∀ x : Quat, (outer q).mulVec x = (q ⬝ᵥ x) • q := by
    intro x; ext i
    simp only [Matrix.mulVec, dotProduct, outer, Pi.smul_apply, smul_eq_mul, Fin.sum_univ_four]; ring
  have hs : (outer q).transpose = outer q := by ext i j; simp [outer, mul_comm]
  refine ⟨h, q, 1, by norm_num, by rw [hm, h], by rw [hs, hm, h], fun x => ?_⟩
  rw [hm, dotProduct_smul, smul_dotProduct, h]
  have := cauchy q x
  rw [h] at this
  simp only [smul_eq_mul, mul_one, one_mul, one_pow]
  nlinarith

end Verif.Props.Quaternion
