import Verif.Lemmas.UnitsRun
import Verif.Lemmas.Average
import Verif.Props.HandEye

/-! Multiplying all lengths by a number commutes with products of poses, averages and hand-eye calibration. -/
namespace Verif.Lemmas.Units
open Verif Verif.Rigid Verif.Average Verif.HandEye Verif.Spec.Units Verif.Lemmas.Rigid Verif.Props.HandEye

section Field
variable {K : Type} [Field K]

theorem scalePose_val (k : K) (g : Pose K) : (scalePose k g).1 = RT2Proj (projRot g.1) fun i => k * projTrans g.1 i := rfl

theorem scalePose_mk (k : K) (g : Pose K) (R : Mat3 K) (T : Vec3 K) (h : g.1 = RT2Proj R T) :
    (scalePose k g).1 = RT2Proj R fun i => k * T i := by
  rw [scalePose_val, h, projRot_RT2Proj, projTrans_RT2Proj]

theorem scale_smul (k : K) (g : Pose K) (p : Vec3 K) : scalePoint k (g • p) = scalePose k g • scalePoint k p := by
  rw [smul_def, smul_def]
  have h : (scalePose k g).1 = RT2Proj (projRot g.1) fun i => k * projTrans g.1 i := rfl
  rw [h, projRot_RT2Proj, projTrans_RT2Proj, transformPt_eq, transformPt_eq]
  ext i
  simp only [scalePoint, Pi.add_apply, Matrix.mulVec, dotProduct, Fin.sum_univ_three]
  ring

theorem scale_one (k : K) : scalePose k (1 : Pose K) = 1 := by
  apply Subtype.ext
  have h : (1 : Pose K).1 = RT2Proj 1 (fun _ => 0) := RT2Proj_one.symm
  rw [scalePose_val, h, projRot_RT2Proj, projTrans_RT2Proj]
  congr 1
  ext i
  simp

theorem scale_mul (k : K) (a b : Pose K) : scalePose k (a * b) = scalePose k a * scalePose k b := by
  apply Subtype.ext
  have h : ∀ x y : Pose K, (x * y).1 = x.1 * y.1 := fun _ _ => rfl
  rw [h, scalePose_val, h]
  obtain ⟨R, T, hR, ea⟩ := a.2
  obtain ⟨S, U, hS, eb⟩ := b.2
  rw [scalePose_mk k a R T ea, scalePose_mk k b S U eb, ea, eb, RT2Proj_mul, RT2Proj_mul, projRot_RT2Proj, projTrans_RT2Proj, transformPt_eq, transformPt_eq]
  congr 1
  ext i
  simp only [Pi.add_apply, Matrix.mulVec, dotProduct, Fin.sum_univ_three]
  ring

/-- Changing the unit of length. -/
def scaleHom (k : K) : Pose K →* Pose K where
  toFun := scalePose k
  map_one' := scale_one k
  map_mul' := scale_mul k

theorem scaleHom_coe (k : K) : ⇑(scaleHom k) = scalePose k := rfl

theorem scale_toVec (ro : Rodrigues K) (k : K) (g : Pose K) : Pose.toVec ro (scalePose k g) = scaleVec k (Pose.toVec ro g) := by
  have h : (scalePose k g).1 = RT2Proj (projRot g.1) fun i => k * projTrans g.1 i := rfl
  unfold Pose.toVec toVec Proj2RT
  rw [h, projRot_RT2Proj, projTrans_RT2Proj]
  rfl

theorem scale_ofVec (ro : Rodrigues K) (hro : ro.Sound) (k : K) (v : Vec6 K) :
    Pose.ofVec ro hro (scaleVec k v) = scalePose k (Pose.ofVec ro hro v) := by
  apply Subtype.ext
  have e : ∀ v, (Pose.ofVec ro hro v).1 = Rigid.ofVec ro v := fun _ => rfl
  rw [scalePose_val, e, e]
  unfold Rigid.ofVec RVecT2Proj
  rw [projRot_RT2Proj, projTrans_RT2Proj]
  congr 1
  ext i
  fin_cases i <;> rfl

end Field

section Ordered
variable {K : Type} [Field K] [LinearOrder K] [IsStrictOrderedRing K]

theorem median_scale {k : K} (hk : 0 < k) (v : List K) : median (v.map (k * ·)) = k * median v := by
  by_cases hv : v = []
  · subst hv
    show (0 : K) = k * 0
    rw [mul_zero]
  · exact Lemmas.Average.median_map v hv _ (fun a b h => mul_lt_mul_of_pos_left h hk) fun a b => by ring

theorem median_scale' {A : Type} {k : K} (hk : 0 < k) (f : A → K) (v : List A) :
    median (v.map fun x => k * f x) = k * median (v.map f) := by
  rw [← median_scale hk, List.map_map]
  rfl

theorem medianPose_scale {k : K} (hk : 0 < k) (ps : List (Vec6 K)) :
    medianPose (ps.map (scaleVec k)) = scaleVec k (medianPose ps) := by
  unfold medianPose
  simp only [List.map_map]
  show Vec6.mk _ _ _ (median (ps.map fun x => k * x.t1)) (median (ps.map fun x => k * x.t2)) (median (ps.map fun x => k * x.t3)) = _
  rw [median_scale' hk, median_scale' hk, median_scale' hk]
  rfl

theorem interAverage_scale (ro : Rodrigues K) (hro : ro.Sound) {k : K} (hk : 0 < k) (zs : List (Pose K)) :
    interAverage (Pose.toVec ro) (Pose.ofVec ro hro) (zs.map (scalePose k)) =
      scalePose k (interAverage (Pose.toVec ro) (Pose.ofVec ro hro) zs) := by
  unfold interAverage
  rw [List.map_map, ← scale_ofVec, ← medianPose_scale hk, List.map_map]
  rfl

omit [IsStrictOrderedRing K] in
theorem sum_scale (k : K) (v : List K) : (v.map (k * ·)).foldl (· + ·) 0 = k * v.foldl (· + ·) 0 := by
  rw [Lemmas.Average.foldl_add_eq_sum, Lemmas.Average.foldl_add_eq_sum, List.sum_map_mul_left]
  simp

omit [IsStrictOrderedRing K] in
theorem mean_scale {A : Type} (k n : K) (f : A → K) (v : List A) :
    (v.map fun x => k * f x).foldl (· + ·) 0 / n = k * ((v.map f).foldl (· + ·) 0 / n) := by
  have h := sum_scale k (v.map f)
  rw [List.map_map] at h
  rw [mul_div_assoc', ← h]
  rfl

omit [IsStrictOrderedRing K] in
theorem groupAverage_scale (k : K) (ps : List (Vec6 K)) :
    groupAverageVec (ps.map (scaleVec k)) = scaleVec k (groupAverageVec ps) := by
  unfold groupAverageVec
  simp only [List.map_map, List.length_map]
  show Vec6.mk _ _ _ ((ps.map fun x => k * x.t1).foldl (· + ·) 0 / _) ((ps.map fun x => k * x.t2).foldl (· + ·) 0 / _)
    ((ps.map fun x => k * x.t3).foldl (· + ·) 0 / _) = _
  rw [mean_scale, mean_scale, mean_scale]
  rfl

end Ordered

/-! ### Hand-eye calibration -/

/-- The change of units as a matrix. -/
def unit (k : ℝ) : Mat4 ℝ := Matrix.diagonal ![k, k, k, 1]

/-- A matrix in other units. -/
noncomputable def conj (k : ℝ) (M : Mat4 ℝ) : Mat4 ℝ := unit k * M * unit k⁻¹

theorem unit_mul {k : ℝ} (hk : k ≠ 0) : unit k * unit k⁻¹ = 1 := by
  unfold unit
  rw [Matrix.diagonal_mul_diagonal, ← Matrix.diagonal_one]
  congr 1
  ext i
  fin_cases i <;> simp [hk]

theorem unit_mul' {k : ℝ} (hk : k ≠ 0) : unit k⁻¹ * unit k = 1 := mul_eq_one_comm.1 (unit_mul hk)

theorem unit_inv {k : ℝ} (hk : k ≠ 0) : (unit k)⁻¹ = unit k⁻¹ := Matrix.inv_eq_right_inv (unit_mul hk)

theorem unit_inv' {k : ℝ} (hk : k ≠ 0) : (unit k⁻¹)⁻¹ = unit k := Matrix.inv_eq_right_inv (unit_mul' hk)

theorem conj_mul {k : ℝ} (hk : k ≠ 0) (M N : Mat4 ℝ) : conj k M * conj k N = conj k (M * N) := by
  unfold conj
  calc unit k * M * unit k⁻¹ * (unit k * N * unit k⁻¹) = unit k * M * (unit k⁻¹ * unit k) * N * unit k⁻¹ := by
        simp only [Matrix.mul_assoc]
    _ = unit k * (M * N) * unit k⁻¹ := by rw [unit_mul' hk]; simp only [Matrix.mul_assoc, Matrix.mul_one]

theorem conj_inv {k : ℝ} (hk : k ≠ 0) (M : Mat4 ℝ) : (conj k M)⁻¹ = conj k M⁻¹ := by
  unfold conj
  rw [Matrix.mul_inv_rev, Matrix.mul_inv_rev, unit_inv hk, unit_inv' hk, Matrix.mul_assoc]

theorem conj_apply (k : ℝ) (M : Mat4 ℝ) (i j : Fin 4) :
    conj k M i j = (![k, k, k, 1] : Fin 4 → ℝ) i * M i j * (![k⁻¹, k⁻¹, k⁻¹, 1] : Fin 4 → ℝ) j := by
  unfold conj unit
  rw [Matrix.mul_diagonal, Matrix.diagonal_mul]

theorem projRot_conj {k : ℝ} (hk : k ≠ 0) (M : Mat4 ℝ) : projRot (conj k M) = projRot M := by
  unfold projRot
  ext i j
  fin_cases i <;> fin_cases j <;> simp [conj_apply] <;> field_simp

theorem projTrans_conj (k : ℝ) (M : Mat4 ℝ) : projTrans (conj k M) = scalePoint k (projTrans M) := by
  unfold projTrans scalePoint
  ext i
  fin_cases i <;> simp [conj_apply]

theorem conj_RT2Proj {k : ℝ} (hk : k ≠ 0) (R : Mat3 ℝ) (T : Vec3 ℝ) :
    conj k (RT2Proj R T) = RT2Proj R (scalePoint k T) := by
  unfold RT2Proj scalePoint
  ext i j
  fin_cases i <;> fin_cases j <;> simp [conj_apply] <;> field_simp

theorem scalePose_coe {k : ℝ} (hk : k ≠ 0) (g : Pose ℝ) : (scalePose k g).1 = conj k g.1 := by
  obtain ⟨_, R, T, hR, rfl⟩ := g
  rw [conj_RT2Proj hk]
  show RT2Proj (projRot (RT2Proj R T)) (fun i => k * projTrans (RT2Proj R T) i) = _
  rw [projRot_RT2Proj, projTrans_RT2Proj]
  rfl

theorem Proj2RT_conj (ro : Rodrigues ℝ) {k : ℝ} (hk : k ≠ 0) (M : Mat4 ℝ) :
    Proj2RT ro (conj k M) = ((Proj2RT ro M).1, scalePoint k (Proj2RT ro M).2) := by
  unfold Proj2RT
  rw [projRot_conj hk, projTrans_conj]

theorem motion_conj (ro : Rodrigues ℝ) {k : ℝ} (hk : k ≠ 0) (a b : Mat4 ℝ) :
    motion ro (conj k a) (conj k b) = scaleMotion k (motion ro a b) := by
  unfold motion scaleMotion
  rw [conj_inv hk, Proj2RT_conj ro hk, Proj2RT_conj ro hk]

theorem idx_conj (k : ℝ) (p : List (Mat4 ℝ)) (i : Nat) : Outcome.idx (p.map (conj k)) i = result (conj k) (Outcome.idx p i) :=
  idx_map _ _ _

theorem motions_conj (ro : Rodrigues ℝ) {k : ℝ} (hk : k ≠ 0) (p1 p2 : List (Mat4 ℝ)) (l : List Nat) :
    Outcome.foldlM (motionStep ro (p1.map (conj k)) (p2.map (conj k))) [] l =
      result (List.map (scaleMotion k)) (Outcome.foldlM (motionStep ro p1 p2) [] l) := by
  refine foldlM_result' (List.map (scaleMotion k)) (fun acc i => ?_) l []
  unfold motionStep
  rw [idx_conj, idx_conj]
  refine bind_map (conj k) _ rfl fun a => ?_
  refine bind_map (conj k) _ rfl fun b => ?_
  show Outcome.ok _ = Outcome.ok _
  rw [motion_conj ro hk, List.map_append]
  rfl

theorem pairError_conj (lib : Lib) {k : ℝ} (hk : k ≠ 0) (a b c d X : Mat4 ℝ) :
    pairError lib (conj k a) (conj k b) (conj k c) (conj k d) (conj k X) = pairError lib a b c d X := by
  unfold pairError
  simp only [conj_inv hk, conj_mul hk, Proj2RT_conj lib.ro hk]

theorem consistency_conj (lib : Lib) {k : ℝ} (hk : k ≠ 0) (p1 p2 : List (Mat4 ℝ)) (sel : List Nat) (X : Mat4 ℝ) :
    checkSetConsistency lib (p1.map (conj k)) (p2.map (conj k)) sel (conj k X) = checkSetConsistency lib p1 p2 sel X := by
  have hi : ∀ i a b m j, innerStep lib (p1.map (conj k)) (p2.map (conj k)) sel (conj k X) i (conj k a) (conj k b) m j =
      innerStep lib p1 p2 sel X i a b m j := by
    intro i a b m j
    unfold innerStep
    split
    · refine bind_congr' fun s => ?_
      rw [idx_conj, idx_conj, result_bind]
      refine bind_congr' fun x => ?_
      rw [result_bind]
      refine bind_congr' fun y => ?_
      rw [pairError_conj lib hk]
    · rfl
  unfold checkSetConsistency
  congr 1
  funext m i
  unfold outerStep
  refine bind_congr' fun s => ?_
  rw [idx_conj, idx_conj, result_bind]
  refine bind_congr' fun x => ?_
  rw [result_bind]
  refine bind_congr' fun y => ?_
  congr 1
  funext m j
  exact hi _ _ _ _ _

theorem calibration_conj {lib : Lib} {k : ℝ} (hk : k ≠ 0) (hl : ScaleFree k lib) (p1 p2 : List (Mat4 ℝ)) :
    handeyeCalibration lib (p1.map (conj k)) (p2.map (conj k)) = result (conj k) (handeyeCalibration lib p1 p2) := by
  unfold handeyeCalibration
  rw [List.length_map, motions_conj lib.ro hk]
  refine bind_map _ _ rfl fun ms => ?_
  refine bind_map _ _ (hl.horaud ms) fun x => ?_
  show Outcome.ok _ = Outcome.ok _
  rw [conj_RT2Proj hk]

theorem translations_conj (k : ℝ) (p1 p2 : List (Mat4 ℝ)) :
    translations (p1.map (conj k)) (p2.map (conj k)) = (translations p1 p2).map (List.map (k * ·)) := by
  unfold translations
  rw [List.zip_map, List.map_map, List.map_map]
  apply List.map_congr_left
  intro e _
  simp only [Function.comp_apply, Prod.map, projTrans_conj]
  rfl

theorem roundSolve_conj {lib : Lib} {k : ℝ} (hk : k ≠ 0) (hl : ScaleFree k lib) (p1 p2 : List (Mat4 ℝ)) (labels : List Nat)
    (c r : Nat) : roundSolve lib (p1.map (conj k)) (p2.map (conj k)) labels c r =
      result (fun x => (x.1, conj k x.2)) (roundSolve lib p1 p2 labels c r) := by
  unfold roundSolve
  rw [bind_result]
  refine bind_congr' fun cl => ?_
  rw [bind_result]
  refine bind_congr' fun sel => ?_
  refine bind_map _ _ (motions_conj lib.ro hk p1 p2 sel) fun ms => ?_
  refine bind_map _ _ (hl.tsai ms) fun x => ?_
  show Outcome.ok (sel, _) = Outcome.ok (sel, conj k (RT2Proj x.1 x.2))
  rw [conj_RT2Proj hk]

theorem roundStep_conj {lib : Lib} {k : ℝ} (hk : k ≠ 0) (hl : ScaleFree k lib) (p1 p2 : List (Mat4 ℝ)) (labels : List Nat)
    (c : Nat) (acc : List (Vec3 ℝ × Vec3 ℝ)) (r : Nat) :
    roundStep lib (p1.map (conj k)) (p2.map (conj k)) labels c (acc.map fun x => (x.1, scalePoint k x.2)) r =
      result (List.map fun x => (x.1, scalePoint k x.2)) (roundStep lib p1 p2 labels c acc r) := by
  unfold roundStep
  refine bind_map _ _ (roundSolve_conj hk hl p1 p2 labels c r) fun x => ?_
  rw [bind_result]
  dsimp only
  rw [consistency_conj lib hk]
  refine bind_congr' fun err => ?_
  show Outcome.ok _ = Outcome.ok _
  split
  · rw [Proj2RT_conj lib.ro hk, List.map_append]
    rfl
  · rfl

theorem combine_conj {lib : Lib} {k : ℝ} (hk : 0 < k) (l : List (Vec3 ℝ × Vec3 ℝ)) :
    combine lib (l.map fun x => (x.1, scalePoint k x.2)) = conj k (combine lib l) := by
  unfold combine RVecT2Proj
  rw [conj_RT2Proj hk.ne']
  simp only [List.map_map]
  congr 1
  ext i
  fin_cases i <;> exact median_scale' hk _ l

theorem handEye_conj {lib : Lib} {k : ℝ} (hk : 0 < k) (hl : ScaleFree k lib) (approach : Int) (p1 p2 : List (Mat4 ℝ)) :
    handEye lib approach (p1.map (conj k)) (p2.map (conj k)) = result (conj k) (handEye lib approach p1 p2) := by
  unfold handEye
  split
  · unfold bootstrap
    rw [translations_conj]
    simp only [List.length_map, hl.kmeans]
    split
    · rfl
    · refine bind_map _ _ (foldlM_result' (List.map fun x => (x.1, scalePoint k x.2))
        (roundStep_conj hk.ne' hl p1 p2 _ _) _ []) fun ok => ?_
      unfold conclude
      rw [List.length_map]
      split
      · rw [combine_conj hk]
        rfl
      · exact calibration_conj hk.ne' hl p1 p1
  · exact calibration_conj hk.ne' hl p1 p2

theorem conj_back {k : ℝ} (hk : k ≠ 0) (M : Mat4 ℝ) : conj k⁻¹ (conj k M) = M := by
  unfold conj
  rw [inv_inv]
  calc unit k⁻¹ * (unit k * M * unit k⁻¹) * unit k = unit k⁻¹ * unit k * M * (unit k⁻¹ * unit k) := by
        simp only [Matrix.mul_assoc]
    _ = M := by rw [unit_mul' hk, Matrix.one_mul, Matrix.mul_one]

theorem conj_rigid {k : ℝ} (hk : k ≠ 0) (M : Mat4 ℝ) : IsRigid (conj k M) ↔ IsRigid M := by
  constructor
  · intro h
    rw [← conj_back hk M]
    obtain ⟨R, T, hR, e⟩ := h
    rw [e, conj_RT2Proj (inv_ne_zero hk)]
    exact ⟨R, _, hR, rfl⟩
  · rintro ⟨R, T, hR, rfl⟩
    rw [conj_RT2Proj hk]
    exact ⟨R, _, hR, rfl⟩

theorem handEyePose_scale {lib : Lib} {k : ℝ} (hk : 0 < k) (hl : ScaleFree k lib) (approach : Int) (ps : List (Pose ℝ × Pose ℝ)) :
    handEyePose lib approach (ps.map fun e => (scalePose k e.1, scalePose k e.2)) =
      result (scalePose k) (handEyePose lib approach ps) := by
  have e1 : ((ps.map fun e => (scalePose k e.1, scalePose k e.2)).map fun e => e.1.1) = (ps.map fun e => e.1.1).map (conj k) := by
    simp only [List.map_map]
    exact List.map_congr_left fun e _ => scalePose_coe hk.ne' e.1
  have e2 : ((ps.map fun e => (scalePose k e.1, scalePose k e.2)).map fun e => e.2.1) = (ps.map fun e => e.2.1).map (conj k) := by
    simp only [List.map_map]
    exact List.map_congr_left fun e _ => scalePose_coe hk.ne' e.2
  unfold handEyePose
  rw [e1, e2]
  refine bind_map (conj k) _ (handEye_conj hk hl approach _ _) fun M => ?_
  by_cases h : IsRigid M
  · rw [dif_pos h, dif_pos ((conj_rigid hk.ne' M).2 h)]
    show Outcome.ok _ = Outcome.ok _
    congr 1
    exact Subtype.ext (scalePose_coe hk.ne' ⟨M, h⟩).symm
  · rw [dif_neg h, dif_neg fun h' => h ((conj_rigid hk.ne' M).1 h')]
    rfl

end Verif.Lemmas.Units
