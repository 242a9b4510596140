import Verif.Props.Noise
import Verif.Props.HandEye
import Verif.Props.HalfTurn
import Mathlib.Analysis.InnerProductSpace.PiL2

/-!
C95 for the quaternion average of rotations and for the hand-eye bootstrap, which averages accepted solutions: rotations by
quaternions, translations by medians.
-/
namespace Verif.Props.NoiseHandEye
open Verif Verif.Rigid Verif.Quaternion Verif.HandEye Verif.Spec.Noise Verif.Spec.Majority Verif.Lemmas.Noise Verif.Lemmas.Rigid
open Verif.Props.HandEye (Contracts Solution Accepted Rigids Combined passing mem_passing)

theorem frob_norm (A B : Mat3 ℝ) : Real.sqrt (Props.Quaternion.frobenius A B) =
    ‖(WithLp.toLp 2 (fun e : Fin 3 × Fin 3 => A e.1 e.2 - B e.1 e.2) : EuclideanSpace ℝ (Fin 3 × Fin 3))‖ := by
  rw [EuclideanSpace.norm_eq, Fintype.sum_prod_type]
  simp only [Props.Quaternion.frobenius, Real.norm_eq_abs, sq_abs]

theorem frob_triangle (A B C : Mat3 ℝ) : Real.sqrt (Props.Quaternion.frobenius A C) ≤ Real.sqrt (Props.Quaternion.frobenius A B) + Real.sqrt (Props.Quaternion.frobenius B C) := by
  rw [frob_norm, frob_norm, frob_norm]
  refine le_trans (le_of_eq ?_) (norm_add_le _ _)
  congr 1
  ext e
  simp

theorem frob_comm (A B : Mat3 ℝ) : Props.Quaternion.frobenius A B = Props.Quaternion.frobenius B A := by
  unfold Props.Quaternion.frobenius
  refine Finset.sum_congr rfl fun i _ => Finset.sum_congr rfl fun j _ => ?_
  ring

theorem frob_nonneg (A B : Mat3 ℝ) : 0 ≤ Props.Quaternion.frobenius A B :=
  Finset.sum_nonneg fun _ _ => Finset.sum_nonneg fun _ _ => sq_nonneg _

theorem len_sq (v : Vec3 ℝ) : len v ^ 2 = v 0 ^ 2 + v 1 ^ 2 + v 2 ^ 2 := Real.sq_sqrt (by positivity)

/-- Bounded on all vectors, hence on the three axes. -/
theorem frob_of_len {A B : Mat3 ℝ} {α : ℝ} (h : ∀ v, len (A.mulVec v - B.mulVec v) ≤ α * len v) : Props.Quaternion.frobenius A B ≤ 3 * α ^ 2 := by
  have key : ∀ j : Fin 3, (A 0 j - B 0 j) ^ 2 + (A 1 j - B 1 j) ^ 2 + (A 2 j - B 2 j) ^ 2 ≤ α ^ 2 := by
    intro j
    have h1 := h (Pi.single j 1)
    have e : len (Pi.single j (1 : ℝ) : Vec3 ℝ) = 1 := by
      unfold len
      fin_cases j <;> simp
    rw [e, mul_one] at h1
    have h2 := pow_le_pow_left₀ (len_nonneg _) h1 2
    rw [len_sq] at h2
    simpa using h2
  have h0 := key 0
  have h1 := key 1
  have h2 := key 2
  simp only [Props.Quaternion.frobenius, Fin.sum_univ_three]
  linarith

theorem len_of_frob (A B : Mat3 ℝ) (v : Vec3 ℝ) : len (A.mulVec v - B.mulVec v) ≤ Real.sqrt (Props.Quaternion.frobenius A B) * len v := by
  rw [len, len, ← Real.sqrt_mul (frob_nonneg A B)]
  apply Real.sqrt_le_sqrt
  have cs : ∀ a b c x y z : ℝ, (a * x + b * y + c * z) ^ 2 ≤ (a ^ 2 + b ^ 2 + c ^ 2) * (x ^ 2 + y ^ 2 + z ^ 2) := by
    intro a b c x y z
    nlinarith [sq_nonneg (a * y - b * x), sq_nonneg (a * z - c * x), sq_nonneg (b * z - c * y)]
  have hi : ∀ i : Fin 3, ((A.mulVec v - B.mulVec v) i) ^ 2 ≤
      ((A i 0 - B i 0) ^ 2 + (A i 1 - B i 1) ^ 2 + (A i 2 - B i 2) ^ 2) * (v 0 ^ 2 + v 1 ^ 2 + v 2 ^ 2) := by
    intro i
    refine le_trans (le_of_eq ?_) (cs _ _ _ (v 0) (v 1) (v 2))
    simp only [Pi.sub_apply, Matrix.mulVec, dotProduct, Fin.sum_univ_three]
    ring
  have h0 := hi 0
  have h1 := hi 1
  have h2 := hi 2
  simp only [Props.Quaternion.frobenius, Fin.sum_univ_three]
  linarith

/-- A rotation that minimises the sum of the squared distances to rotations within `α` of `X` is within `2 √3 α` of `X`. -/
theorem mean_near {ι : Type} (l : List ι) (hl : l ≠ []) (R : ι → Mat3 ℝ) (A X : Mat3 ℝ) (α : ℝ) (hα : 0 ≤ α)
    (hA : (l.map fun i => Props.Quaternion.frobenius (R i) A).sum ≤ (l.map fun i => Props.Quaternion.frobenius (R i) X).sum)
    (h : ∀ i ∈ l, ∀ v, len ((R i).mulVec v - X.mulVec v) ≤ α * len v) (v : Vec3 ℝ) :
    len (A.mulVec v - X.mulVec v) ≤ 2 * Real.sqrt 3 * α * len v := by
  have hb : ∀ i ∈ l, Props.Quaternion.frobenius (R i) X ≤ 3 * α ^ 2 := fun i hi => frob_of_len (h i hi)
  have hex : ∃ i ∈ l, Props.Quaternion.frobenius (R i) A ≤ 3 * α ^ 2 := by
    by_contra hc
    push Not at hc
    have h1 : (l.map fun i => Props.Quaternion.frobenius (R i) X).sum < (l.map fun i => Props.Quaternion.frobenius (R i) A).sum :=
      List.sum_lt_sum_of_ne_nil hl _ _ fun i hi => lt_of_le_of_lt (hb i hi) (hc i hi)
    linarith
  obtain ⟨i, hi, h1⟩ := hex
  have s : Real.sqrt (3 * α ^ 2) = Real.sqrt 3 * α := by
    rw [Real.sqrt_mul (by norm_num), Real.sqrt_sq hα]
  have a1 := Real.sqrt_le_sqrt h1
  have a2 := Real.sqrt_le_sqrt (hb i hi)
  rw [s] at a1 a2
  have a3 := frob_triangle A (R i) X
  rw [frob_comm A (R i)] at a3
  refine le_trans (len_of_frob A X v) (mul_le_mul_of_nonneg_right ?_ (len_nonneg v))
  linarith

/-- C95 (quaternions): if all measured rotations turn every vector to within `α |v|` of where a rotation turns it, the
quaternion average turns it to within `2 √3 α |v|`; this holds for half turns too. -/
theorem C95_quaternions (ro : Rodrigues ℝ) (hro : ro.Sound) (svd : Mat4 ℝ → Quat) (hsvd : ∀ A, TopSingular A (svd A))
    (rs : List (Vec3 ℝ)) (hrs : rs ≠ []) (X : Mat3 ℝ) (hX : IsRot X) (α : ℝ) (hα : 0 ≤ α)
    (h : ∀ r ∈ rs, ∀ v, len ((ro.toMat r).mulVec v - X.mulVec v) ≤ α * len v) (v : Vec3 ℝ) :
    len ((ro.toMat (getAverageRotation ro svd true rs)).mulVec v - X.mulVec v) ≤ 2 * Real.sqrt 3 * α * len v :=
  mean_near rs hrs ro.toMat _ X α hα ((Props.Quaternion.C32_mean ro svd hro hsvd rs).2 X hX) h v

/-- The combination of solutions whose rotations are all near that of `x`, most of whose translations are near that of `x`. -/
theorem combined_near (good : List (Mat4 ℝ)) (hne : good ≠ []) (X : Mat4 ℝ) (hc : Combined good X) (x : Pose ℝ) (α δ : ℝ)
    (hα : 0 ≤ α) (hr : ∀ M ∈ good, ∀ v, len ((projRot M).mulVec v - (projRot x.1).mulVec v) ≤ α * len v)
    (ht : Most (fun M => ∀ k, |projTrans M k - projTrans x.1 k| ≤ δ) good) :
    Off (2 * Real.sqrt 3 * α) (Real.sqrt 3 * δ) ⟨X, hc.1⟩ x := by
  obtain ⟨hX, t0, t1, t2, hm⟩ := hc
  have hxr : IsRot (projRot x.1) := by
    obtain ⟨M, R, T, hR, rfl⟩ := x
    rw [projRot_RT2Proj]
    exact hR
  have hrot := mean_near good hne (fun M => projRot M) (projRot X) (projRot x.1) α hα (hm _ hxr) hr
  have med : ∀ (f : Mat4 ℝ → ℝ) (c : ℝ), Most (fun M => |f M - c| ≤ δ) good → |Average.median (good.map f) - c| ≤ δ := by
    intro f c hf
    have := Props.Majority.C94_median (good.map f) (c - δ) (c + δ) (hf.map f fun u hu => by
      rw [abs_le] at hu
      constructor <;> linarith [hu.1, hu.2])
    rw [abs_le]
    constructor <;> linarith [this.1, this.2]
  have htr : len (projTrans X - projTrans x.1) ≤ Real.sqrt 3 * δ := by
    apply len_le
    · have := med (fun M => M 0 3) (projTrans x.1 0) (ht.imp fun M hM => hM 0)
      rw [← t0] at this
      exact this
    · have := med (fun M => M 1 3) (projTrans x.1 1) (ht.imp fun M hM => hM 1)
      rw [← t1] at this
      exact this
    · have := med (fun M => M 2 3) (projTrans x.1 2) (ht.imp fun M hM => hM 2)
      rw [← t2] at this
      exact this
  intro p
  rw [smul_eq ⟨X, hX⟩ p, smul_eq x p]
  have e : (projRot X).mulVec p + projTrans X - ((projRot x.1).mulVec p + projTrans x.1) =
      (projTrans X - projTrans x.1) + ((projRot X).mulVec p - (projRot x.1).mulVec p) := by abel
  rw [e]
  refine le_trans (len_add _ _) ?_
  exact add_le_add htr (hrot p)

/-- C95 (hand-eye): with more than three accepted solutions, if all of them turn within `α` of a pose and most have each
coordinate of the translation within `δ` of its, the result moves no point `p` further than `√3 δ + 2 √3 α |p|` from where
that pose moves it. -/
theorem C95_handeye (lib : Lib) (hl : Contracts lib) (hsvd : ∀ A, TopSingular A (lib.svd A)) (nbIt nbCluster : Nat)
    (hc : 6 ≤ nbCluster) (p1 p2 : List (Mat4 ℝ)) (hlen : p1.length = p2.length) (h6 : 6 ≤ p1.length) (h1 : Rigids p1)
    (h2 : Rigids p2) :
    ∃ sols : List (Mat4 ℝ), sols.length = nbIt ∧ (∀ X ∈ sols, Solution lib p1 p2 X ∧ IsRigid X) ∧
      (3 < (passing lib sols).length → ∃ X : Pose ℝ, bootstrap lib nbCluster nbIt p1 p2 = .ok X.1 ∧
        ∀ (x : Pose ℝ) (α δ : ℝ), 0 ≤ α →
          (∀ M ∈ passing lib sols, ∀ v, len ((projRot M).mulVec v - (projRot x.1).mulVec v) ≤ α * len v) →
          Most (fun M => ∀ k, |projTrans M k - projTrans x.1 k| ≤ δ) (passing lib sols) →
          Off (2 * Real.sqrt 3 * α) (Real.sqrt 3 * δ) X x) := by
  obtain ⟨sols, a1, a2, b4, _⟩ :=
    Props.HandEye.C35_combined lib hl hsvd nbIt nbCluster hc p1 p2 hlen h6 h1 h2
  refine ⟨sols, a1, a2, fun h3 => ?_⟩
  obtain ⟨X, hb, hX⟩ := b4 h3
  refine ⟨⟨X, hX.1⟩, hb, fun x α δ hα hr ht => ?_⟩
  exact combined_near _ (by intro e; rw [e] at h3; simp at h3) X hX x α δ hα hr ht

/-- Half turns: the rotation vectors `(π, 0, 0)` and `(-π, 0, 0)` are of one half turn, and any list of them meets the
hypothesis with `α = 0`: the average by quaternions is this half turn, although the medians of the vectors may be `0`. -/
example (svd : Mat4 ℝ → Quat) (hsvd : ∀ A, TopSingular A (svd A)) (v : Vec3 ℝ) :
    len ((Lemmas.Rodrigues.rod.toMat (getAverageRotation Lemmas.Rodrigues.rod svd true [![Real.pi, 0, 0], ![-Real.pi, 0, 0]])).mulVec v -
      (Lemmas.Rodrigues.rodMat ![Real.pi, 0, 0]).mulVec v) ≤ 0 := by
  have h := C95_quaternions Lemmas.Rodrigues.rod Lemmas.Rodrigues.rod_sound svd hsvd [![Real.pi, 0, 0], ![-Real.pi, 0, 0]]
    (by simp) (Lemmas.Rodrigues.rodMat ![Real.pi, 0, 0]) (Lemmas.Rodrigues.rod_sound.rot _) 0 le_rfl (by
      intro r hr v
      have e : Lemmas.Rodrigues.rod.toMat r = Lemmas.Rodrigues.rodMat ![Real.pi, 0, 0] := by
        rcases List.mem_cons.1 hr with rfl | hr
        · rfl
        · rw [List.mem_singleton.1 hr]
          show Lemmas.Rodrigues.rodMat _ = _
          rw [Props.HalfTurn.rodMat_x, Props.HalfTurn.rodMat_x]
          simp
      rw [e, sub_self]
      simp [len]) v
  simpa using h

theorem accepted_shift (lib : Lib) (h0 : 0 ≤ lib.eps) (h1 : lib.eps ≤ 0.01) (T : Vec3 ℝ) : Accepted lib (RT2Proj 1 T) := by
  have h := Props.HandEye.C33_identity lib h0 h1
  unfold Accepted at h ⊢
  rw [projRot_RT2Proj]
  rw [← RT2Proj_one, projRot_RT2Proj] at h
  exact h

/-- A solver whose solutions are off by up to a tenth in the translation, in any way that depends on the motions: the result
is off by at most `√3 / 10`. -/
example (f : List Motion → ℝ) (hf : ∀ ms, |f ms| ≤ 1 / 10) : ∃ (lib : Lib) (p : List (Mat4 ℝ)) (X : Pose ℝ),
    (lib.tsai = fun ms => .ok (1, ![f ms, 0, 0])) ∧ 6 ≤ p.length ∧ bootstrap lib 20 200 p p = .ok X.1 ∧
    Off 0 (Real.sqrt 3 * (1 / 10)) X 1 := by
  obtain ⟨svd, hsvd⟩ := Props.Quaternion.C32_svd
  let lib : Lib :=
    { ro := Lemmas.Rodrigues.rod, svd := svd, eps := 0.0001
      kmeans := fun rows k => (List.range rows.length).map fun i => min i (k - 1)
      shuffle := fun _ l => l, pick := fun _ _ _ => 0
      tsai := fun ms => .ok (1, ![f ms, 0, 0]), horaud := fun _ => .ok (1, fun _ => 0) }
  have hl : Contracts lib := by
    refine ⟨Lemmas.Rodrigues.rod_sound, fun _ _ => List.Perm.refl _, fun _ _ _ h => h, ?_, fun ms => ⟨1, _, rfl, IsRot.one⟩⟩
    intro rows k hk hk'
    refine ⟨by simp [lib], fun c hc => List.mem_map.2 ⟨c, List.mem_range.2 (by omega), by omega⟩⟩
  have hr : Rigids (List.replicate 6 (1 : Mat4 ℝ)) := by
    intro a ha
    rw [List.eq_of_mem_replicate ha]
    exact IsRigid.one
  obtain ⟨sols, a1, a2, a3⟩ := C95_handeye lib hl hsvd 200 20 (by norm_num) _ _ rfl (by simp) hr hr
  have hval : ∀ M ∈ sols, ∃ ms, M = RT2Proj 1 ![f ms, 0, 0] := by
    intro M hM
    obtain ⟨⟨sel, -, -, -, R, T, h, -, rfl⟩, -⟩ := a2 M hM
    simp only [lib, Outcome.ok.injEq, Prod.mk.injEq] at h
    exact ⟨_, by rw [← h.1, ← h.2]⟩
  have hp : passing lib sols = sols := by
    classical
    unfold passing
    rw [List.filter_eq_self]
    intro M hM
    obtain ⟨ms, rfl⟩ := hval M hM
    rw [decide_eq_true_eq]
    exact accepted_shift lib (by norm_num [lib]) (by norm_num [lib]) _
  rw [hp] at a3
  obtain ⟨X, hX, h⟩ := a3 (by omega)
  refine ⟨lib, _, X, rfl, by simp, hX, ?_⟩
  have := h 1 0 (1 / 10) le_rfl (by
    intro M hM v
    obtain ⟨ms, rfl⟩ := hval M hM
    have e : projRot (1 : Pose ℝ).1 = 1 := by
      show projRot (1 : Mat4 ℝ) = 1
      rw [← RT2Proj_one, projRot_RT2Proj]
    rw [projRot_RT2Proj, e, sub_self]
    simp [len]) ⟨sols, [], by simp, by simp; omega, by
    intro M hM k
    obtain ⟨ms, rfl⟩ := hval M hM
    have e : projTrans (1 : Pose ℝ).1 = fun _ => 0 := by
      show projTrans (1 : Mat4 ℝ) = _
      rw [← RT2Proj_one, projTrans_RT2Proj]
    rw [projTrans_RT2Proj, e]
    have := hf ms
    fin_cases k
    · simpa using this
    · simp
    · simp⟩
  simpa using this

end Verif.Props.NoiseHandEye
