import Verif.Lemmas.UnitsLength
import Verif.Props.Residual

/-! The refinements commute with a change of the unit of length. -/
namespace Verif.Lemmas.Units
open Verif Verif.Rigid Verif.Residual Verif.Refine Verif.Objects Verif.Groups Verif.Spec.Units Verif.Props.Residual Verif.Spec.Projection

set_option linter.unusedSectionVars false

variable {G H : Type} {k : ℝ} (hk : k ≠ 0)

theorem scaleBlock_axis (k : ℝ) (b : Block) : axis (scaleBlock k b) = axis b := by
  unfold axis scaleBlock
  simp

theorem pose_scale (ro : Rodrigues ℝ) (hro : ro.Sound) (k : ℝ) (b : Block) :
    pose ro hro (scaleBlock k b) = scalePose k (pose ro hro b) := by
  unfold pose
  rw [← scale_ofVec]
  congr 1

theorem scaleBlock_inv {k : ℝ} (hk : k ≠ 0) (b : Block) : scaleBlock k (scaleBlock k⁻¹ b) = b := by
  funext i
  unfold scaleBlock
  split
  · rfl
  · field_simp

theorem scaleEnv_inv {k : ℝ} (hk : k ≠ 0) (e : Env) : scaleEnv k (scaleEnv k⁻¹ e) = e := by
  funext p
  cases p <;> first | rfl | exact scaleBlock_inv hk _

theorem scaleEnv_inv' {k : ℝ} (hk : k ≠ 0) (e : Env) : scaleEnv k⁻¹ (scaleEnv k e) = e := by
  have h := scaleEnv_inv (inv_ne_zero hk) e
  rwa [inv_inv] at h

include hk

theorem error_scale (model : Int) (M : Mat3 ℝ) (d : List ℝ) (X : Vec3 ℝ) (q : ℝ × ℝ) :
    error model M d (scalePoint k X) q = error model M d X q := by
  have h : ∀ i, scalePoint k X i / scalePoint k X 2 = X i / X 2 := fun i => mul_div_mul_left _ _ hk
  unfold error
  congr 1
  unfold pixel
  rw [h 0, h 1]

omit hk in
theorem pt_mkObs (q : ℝ × ℝ) (p : Vec3 ℝ) : pt (mkObs q p) = p := by
  ext i
  fin_cases i <;> rfl

theorem errorAt_scale (model : Int) (I : Camera.Intr ℝ) (q : ℝ × ℝ) (p p' X : Vec3 ℝ) :
    errorAt model I (mkObs q p') (scalePoint k X) = errorAt model I (mkObs q p) X := error_scale hk _ _ _ _ _

variable {rot : RotatePoint} {ro : Rodrigues ℝ} (hrot : RotatesBy rot ro) (hro : ro.Sound)
include hrot hro

theorem boardIntrinsics_scale (q : ℝ × ℝ) (p : Vec3 ℝ) (m : Int) (c I : Block) :
    boardIntrinsics rot (mkObs q (scalePoint k p)) m (scaleBlock k c) I = boardIntrinsics rot (mkObs q p) m c I := by
  rw [C36_board_intrinsics hrot hro, C36_board_intrinsics hrot hro, pt_mkObs, pt_mkObs, pose_scale, ← scale_smul, errorAt_scale hk]

theorem objectRef_scale (q : ℝ × ℝ) (p : Vec3 ℝ) (I : Camera.Intr ℝ) (m : Int) (r : Bool) (c b : Block) :
    objectRef rot (mkObs q (scalePoint k p)) (consts I) r m (scaleBlock k c) (scaleBlock k b) =
      objectRef rot (mkObs q p) (consts I) r m c b := by
  rw [C36_object hrot hro, C36_object hrot hro, pt_mkObs, pt_mkObs, pose_scale, pose_scale]
  cases r
  · simp only [Bool.false_eq_true, if_false, one_smul]
    rw [← scale_smul, errorAt_scale hk]
  · simp only [if_true]
    rw [← scale_smul, ← scale_smul, errorAt_scale hk]

theorem groupRef_scale (q : ℝ × ℝ) (p : Vec3 ℝ) (I : Camera.Intr ℝ) (m : Int) (r : Bool) (c b : Block) :
    groupRef rot (mkObs q (scalePoint k p)) (consts I) r m (scaleBlock k c) (scaleBlock k b) =
      groupRef rot (mkObs q p) (consts I) r m c b := by
  rw [C36_group hrot hro, C36_group hrot hro, pt_mkObs, pt_mkObs, pose_scale, pose_scale]
  cases r
  · simp only [Bool.false_eq_true, if_false, one_smul]
    rw [← scale_smul, errorAt_scale hk]
  · simp only [if_true]
    rw [← scale_smul, ← scale_smul, errorAt_scale hk]

theorem groupObjectRef_scale (q : ℝ × ℝ) (p : Vec3 ℝ) (I : Camera.Intr ℝ) (m : Int) (r r' : Bool) (c o b : Block) :
    groupObjectRef rot (mkObs q (scalePoint k p)) (consts I) r r' m (scaleBlock k c) (scaleBlock k o) (scaleBlock k b) =
      groupObjectRef rot (mkObs q p) (consts I) r r' m c o b := by
  rw [C36_group_object hrot hro, C36_group_object hrot hro, pt_mkObs, pt_mkObs, pose_scale, pose_scale, pose_scale]
  cases r <;> cases r' <;> simp only [Bool.false_eq_true, if_false, if_true, one_smul]
  · rw [← scale_smul, errorAt_scale hk]
  · rw [← scale_smul, ← scale_smul, errorAt_scale hk]
  · rw [← scale_smul, ← scale_smul, errorAt_scale hk]
  · rw [← scale_smul, ← scale_smul, ← scale_smul, errorAt_scale hk]

theorem groupObjectIntrinsics_scale (q : ℝ × ℝ) (p : Vec3 ℝ) (m : Int) (r r' : Bool) (c o b I : Block) :
    groupObjectIntrinsics rot (mkObs q (scalePoint k p)) r r' m (scaleBlock k c) (scaleBlock k o) (scaleBlock k b) I =
      groupObjectIntrinsics rot (mkObs q p) r r' m c o b I :=
  groupObjectRef_scale hk hrot hro q p I m r r' c o b

/-! ### Problems -/

omit hrot hro in
theorem term_ext {t t' : Term} (h : ∀ e, t' (scaleEnv k e) = t e) : t' = scaleTerm k t := by
  funext e
  have := h (scaleEnv k⁻¹ e)
  rw [scaleEnv_inv hk] at this
  exact this

omit hk hrot hro in
theorem append_term {acc : List Term} {t t' : Term} (h : t' = scaleTerm k t) :
    Outcome.ok (acc.map (scaleTerm k) ++ [t']) = result (List.map (scaleTerm k)) (.ok (acc ++ [t])) := by
  subst h
  show Outcome.ok _ = Outcome.ok _
  rw [List.map_append]
  rfl

variable (φ : G → H) {solve solve' : Solver} (hsolve : SameSolver k solve solve') (sc : Scene G)

theorem intrinsicProblem_scale (c : Nat) (l : List Nat) :
    Outcome.foldlM (intrinsicTerms rot (scaleScene φ k sc) c) [] l =
      result (List.map (scaleTerm k)) (Outcome.foldlM (intrinsicTerms rot sc c) [] l) := by
  refine foldlM_result' (List.map (scaleTerm k)) (fun acc i => ?_) l []
  unfold intrinsicTerms
  rw [bind_result]
  refine bind_congr' fun bo => ?_
  split
  · show (Outcome.idx (sc.bpts.map (List.map (scalePoint k))) bo.obs.board >>= _) = _
    rw [idx_map]
    refine bind_map _ _ rfl fun bp => ?_
    refine foldlM_result' (List.map (scaleTerm k)) (fun acc j => ?_) _ acc
    unfold intrinsicTerm
    rw [bind_result]
    refine bind_congr' fun id => ?_
    rw [idx_map]
    refine bind_map _ _ rfl fun p => ?_
    rw [bind_result]
    refine bind_congr' fun q => ?_
    exact append_term (term_ext hk fun e => boardIntrinsics_scale hk hrot hro q p _ _ _)
  · rfl

theorem objectProblem_scale (e : Env) (o : Object G (Vec3 ℝ)) (l : List Nat) :
    Outcome.foldlM (objectTerms rot (scaleScene φ k sc) (scaleEnv k e) (object φ (scalePoint k) o)) [] l =
      result (List.map (scaleTerm k)) (Outcome.foldlM (objectTerms rot sc e o) [] l) := by
  refine foldlM_result' (List.map (scaleTerm k)) (fun acc i => ?_) l []
  unfold objectTerms
  rw [bind_result]
  refine bind_congr' fun oo => ?_
  refine foldlM_result' (List.map (scaleTerm k)) (fun acc j => ?_) oo.boards acc
  unfold objectBoardTerms
  rw [bind_result]
  refine bind_congr' fun bo => ?_
  split
  · show (Outcome.idx (sc.bpts.map (List.map (scalePoint k))) bo.obs.board >>= _) = _
    rw [idx_map]
    refine bind_map _ _ rfl fun bp => ?_
    refine foldlM_result' (List.map (scaleTerm k)) (fun acc j => ?_) _ acc
    unfold objectTerm
    rw [bind_result]
    refine bind_congr' fun id => ?_
    rw [idx_map]
    refine bind_map _ _ rfl fun p => ?_
    rw [bind_result]
    refine bind_congr' fun q => ?_
    exact append_term (term_ext hk fun e => objectRef_scale hk hrot hro q p _ _ _ _ _)
  · rfl

theorem groupProblem_scale (e : Env) (g : CamGroup G) (l : List (Nat × Nat)) :
    Outcome.foldlM (groupTerms rot (scaleScene φ k sc) (scaleEnv k e) (group φ g)) [] l =
      result (List.map (scaleTerm k)) (Outcome.foldlM (groupTerms rot sc e g) [] l) := by
  refine foldlM_result' (List.map (scaleTerm k)) (fun acc v => ?_) l []
  unfold groupTerms
  rw [bind_result]
  refine bind_congr' fun x => ?_
  show (Outcome.deref (OMap.get? (values (object φ (scalePoint k)) sc.objs) x.obj) >>= _) = _
  rw [get_values, deref_map]
  refine bind_map _ _ rfl fun o => ?_
  refine foldlM_result' (List.map (scaleTerm k)) (fun acc j => ?_) _ acc
  unfold groupTerm
  rw [bind_result]
  refine bind_congr' fun id => ?_
  show (Outcome.idx (o.pts.map (scalePoint k)) id >>= _) = _
  rw [idx_map]
  refine bind_map _ _ rfl fun p => ?_
  rw [bind_result]
  refine bind_congr' fun q => ?_
  exact append_term (term_ext hk fun e => groupRef_scale hk hrot hro q p _ _ _ _ _)

theorem groupObjectProblem_scale (e : Env) (g : CamGroup G) (l : List (Nat × Nat)) :
    Outcome.foldlM (groupObjectTerms rot (scaleScene φ k sc) (scaleEnv k e) (group φ g)) [] l =
      result (List.map (scaleTerm k)) (Outcome.foldlM (groupObjectTerms rot sc e g) [] l) := by
  refine foldlM_result' (List.map (scaleTerm k)) (fun acc v => ?_) l []
  unfold groupObjectTerms
  rw [bind_result]
  refine bind_congr' fun x => ?_
  show (Outcome.deref (OMap.get? (values (object φ (scalePoint k)) sc.objs) x.obj) >>= _) = _
  rw [get_values, deref_map]
  refine bind_map _ _ rfl fun o => ?_
  refine foldlM_result' (List.map (scaleTerm k)) (fun acc j => ?_) _ acc
  unfold groupObjectTerm
  rw [bind_result]
  refine bind_congr' fun id => ?_
  rw [bind_result]
  refine bind_congr' fun q => ?_
  rw [bind_result]
  refine bind_congr' fun b => ?_
  show (Outcome.idx (sc.bpts.map (List.map (scalePoint k))) b.1 >>= _) = _
  rw [idx_map]
  refine bind_map _ _ rfl fun bp => ?_
  rw [idx_map]
  refine bind_map _ _ rfl fun p => ?_
  exact append_term (term_ext hk fun e => groupObjectRef_scale hk hrot hro q p _ _ _ _ _ _ _)

theorem groupIntrinsicProblem_scale (g : CamGroup G) (l : List (Nat × Nat)) :
    Outcome.foldlM (groupIntrinsicTerms rot (scaleScene φ k sc) (group φ g)) [] l =
      result (List.map (scaleTerm k)) (Outcome.foldlM (groupIntrinsicTerms rot sc g) [] l) := by
  refine foldlM_result' (List.map (scaleTerm k)) (fun acc v => ?_) l []
  unfold groupIntrinsicTerms
  rw [bind_result]
  refine bind_congr' fun x => ?_
  show (Outcome.deref (OMap.get? (values (object φ (scalePoint k)) sc.objs) x.obj) >>= _) = _
  rw [get_values, deref_map]
  refine bind_map _ _ rfl fun o => ?_
  refine foldlM_result' (List.map (scaleTerm k)) (fun acc j => ?_) _ acc
  unfold groupIntrinsicTerm
  rw [bind_result]
  refine bind_congr' fun id => ?_
  rw [bind_result]
  refine bind_congr' fun q => ?_
  rw [bind_result]
  refine bind_congr' fun b => ?_
  show (Outcome.idx (sc.bpts.map (List.map (scalePoint k))) b.1 >>= _) = _
  rw [idx_map]
  refine bind_map _ _ rfl fun bp => ?_
  rw [idx_map]
  refine bind_map _ _ rfl fun p => ?_
  exact append_term (term_ext hk fun e => groupObjectIntrinsics_scale hk hrot hro q p _ _ _ _ _ _ _)

/-! ### Refinements -/

include hsolve

omit hk hrot hro in
theorem solved_scale {pb pb' : Outcome (List Term)} (h : pb' = result (List.map (scaleTerm k)) pb) (e : Env) :
    (pb' >>= fun pb => pure (solve' pb (scaleEnv k e))) = result (scaleEnv k) (pb >>= fun pb => pure (solve pb e)) :=
  bind_map _ _ h fun pb => congrArg Outcome.ok (hsolve pb e)

theorem refineIntrinsic_scale (e : Env) (c : Nat) :
    refineIntrinsic rot solve' (scaleScene φ k sc) (scaleEnv k e) c = result (scaleEnv k) (refineIntrinsic rot solve sc e c) :=
  solved_scale hsolve (intrinsicProblem_scale hk hrot hro φ sc c _) e

theorem refineObject_scale (e : Env) (o : Object G (Vec3 ℝ)) :
    refineObject rot solve' (scaleScene φ k sc) (scaleEnv k e) (object φ (scalePoint k) o) =
      result (scaleEnv k) (refineObject rot solve sc e o) :=
  solved_scale hsolve (objectProblem_scale hk hrot hro φ sc e o _) e

theorem refineCameraGroup_scale (e : Env) (g : CamGroup G) :
    refineCameraGroup rot solve' (scaleScene φ k sc) (scaleEnv k e) (group φ g) =
      result (scaleEnv k) (refineCameraGroup rot solve sc e g) :=
  solved_scale hsolve (groupProblem_scale hk hrot hro φ sc e g _) e

theorem refineGroupAndObjects_scale (e : Env) (g : CamGroup G) :
    refineGroupAndObjects rot solve' (scaleScene φ k sc) (scaleEnv k e) (group φ g) =
      result (scaleEnv k) (refineGroupAndObjects rot solve sc e g) :=
  solved_scale hsolve (groupObjectProblem_scale hk hrot hro φ sc e g _) e

theorem refineGroupObjectsIntrinsics_scale (e : Env) (g : CamGroup G) :
    refineGroupObjectsIntrinsics rot solve' (scaleScene φ k sc) (scaleEnv k e) (group φ g) =
      result (scaleEnv k) (refineGroupObjectsIntrinsics rot solve sc e g) :=
  solved_scale hsolve (groupIntrinsicProblem_scale hk hrot hro φ sc g _) e

theorem refineAllObjects_scale (e : Env) :
    refineAllObjects rot solve' (scaleScene φ k sc) (scaleEnv k e) = result (scaleEnv k) (refineAllObjects rot solve sc e) :=
  foldlM_result (scaleEnv k) (fun x : Nat × Object G (Vec3 ℝ) => (x.1, object φ (scalePoint k) x.2))
    (fun e x => refineObject_scale hk hrot hro φ hsolve sc e x.2) sc.objs e

theorem refineAllGroups_scale (e : Env) :
    refineAllGroups rot solve' (scaleScene φ k sc) (scaleEnv k e) = result (scaleEnv k) (refineAllGroups rot solve sc e) :=
  foldlM_result (scaleEnv k) (fun x : Nat × CamGroup G => (x.1, group φ x.2))
    (fun e x => refineGroupAndObjects_scale hk hrot hro φ hsolve sc e x.2) sc.t.groups e

theorem refineAllGroupsIntrinsics_scale (e : Env) :
    refineAllGroupsIntrinsics rot solve' (scaleScene φ k sc) (scaleEnv k e) =
      result (scaleEnv k) (refineAllGroupsIntrinsics rot solve sc e) :=
  foldlM_result (scaleEnv k) (fun x : Nat × CamGroup G => (x.1, group φ x.2))
    (fun e x => refineGroupObjectsIntrinsics_scale hk hrot hro φ hsolve sc e x.2) sc.t.groups e

variable {w : World G} {w' : World H} (hw : SameWorld φ k w w')
include hw

omit hk hrot hro hsolve in
theorem write_scale (n : Nat) (e : Env) : w'.write n (scaleEnv k e) = scaleEnv k (w.write n e) := by
  funext p
  have h := congrFun (hw.poses n e) p
  cases p <;> first | rfl | exact h

theorem refinements_scale (fix : Int) (nCam : Nat) (e : Env) :
    Refine.calibrate rot solve' fix nCam w' (scaleEnv k e) = result (scaleEnv k) (Refine.calibrate rot solve fix nCam w e) := by
  unfold Refine.calibrate
  refine bind_map (scaleEnv k) _ ?_ fun e => ?_
  · unfold calibrateBefore
    refine bind_map (scaleEnv k) _ ?_ fun e => ?_
    · unfold Refine.initIntrinsic
      dsimp only
      rw [write_scale φ hw]
      split
      · unfold refineAllIntrinsics
        rw [hw.scene]
        exact foldlM_result' (scaleEnv k) (fun e c => refineIntrinsic_scale hk hrot hro φ hsolve _ e c) _ _
      · rfl
    · refine bind_map (scaleEnv k) _ ?_ fun e => ?_
      · unfold Refine.calibrateObjects
        dsimp only
        rw [write_scale φ hw, hw.scene]
        exact refineAllObjects_scale hk hrot hro φ hsolve _ _
      · refine foldlM_result' (scaleEnv k) (fun e n => ?_) _ e
        unfold refineStage
        dsimp only
        rw [write_scale φ hw, hw.scene]
        exact refineAllGroups_scale hk hrot hro φ hsolve _ _
  · split
    · rw [hw.scene]
      exact refineAllGroupsIntrinsics_scale hk hrot hro φ hsolve _ _
    · rfl

end Verif.Lemmas.Units
