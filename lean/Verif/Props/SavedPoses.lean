import Verif.Props.Refine
import Verif.Props.OutputObjects

/-!
C63: the object poses written at the end are the estimates made before the last refinement.
-/
namespace Verif.Props.SavedPoses
open Verif Verif.Refine Verif.Spec.Refine Verif.Props.Refine Residual Rigid Objects Groups

variable {G : Type}

private theorem groups_obs {rot : RotatePoint} {solve : Solver} (hs : Solver.Frame solve) (sc : Scene G)
    (e e' : Env) (h : refineAllGroups rot solve sc e = .ok e') : ∀ i, e' (.objObs i) = e (.objObs i) := by
  refine Outcome.foldlM_inv (fun e'' : Env => ∀ i, e'' (.objObs i) = e (.objObs i)) ?_ (fun _ => rfl) h
  intro e1 e2 x hx h1 hstep i
  rw [← h1 i]; by_contra hne; exact C51_group_objects_scope hs sc e1 e2 x.2 hstep (.objObs i) hne

private theorem groups_obs' {rot : RotatePoint} {solve : Solver} (hs : Solver.Frame solve) (sc : Scene G)
    (e e' : Env) (h : refineAllGroupsIntrinsics rot solve sc e = .ok e') :
    ∀ i, e' (.objObs i) = e (.objObs i) := by
  refine Outcome.foldlM_inv (fun e'' : Env => ∀ i, e'' (.objObs i) = e (.objObs i)) ?_ (fun _ => rfl) h
  intro e1 e2 x hx h1 hstep i
  rw [← h1 i]; by_contra hne; exact C51_group_intrinsics_scope hs sc e1 e2 x.2 hstep (.objObs i) hne

/-- The workflow up to the end of the last call of `merge3DObjects`. -/
noncomputable def beforeFinal (rot : RotatePoint) (solve : Solver) (fix : Int) (nCam : Nat) (w : World G) (e : Env) :
    Outcome Env := do
  let e ← initIntrinsic rot solve fix nCam w e
  let e ← calibrateObjects rot solve w e
  Outcome.foldlM (refineStage rot solve w) e [2, 3, 4]

/-- C63: for every solver, the pose of an object observation at the end of the workflow is the one estimated from the
pixels (stage 5 of the writes: `estimatePoseAllObjects` before the final refinements); neither of the final
refinements changes it, with or without `fix_intrinsic`. -/
theorem C63_estimate {rot : RotatePoint} {solve : Solver} (hs : Solver.Frame solve) (fix : Int) (nCam : Nat)
    (w : World G) (e e' : Env) (h : calibrate rot solve fix nCam w e = .ok e') :
    ∃ e4, beforeFinal rot solve fix nCam w e = .ok e4 ∧ ∀ i, e' (.objObs i) = w.poses 5 e4 (.objObs i) := by
  unfold calibrate calibrateBefore at h
  obtain ⟨e1, h1, h⟩ := Outcome.bind_eq_ok.1 h
  obtain ⟨e2, h2, h1⟩ := Outcome.bind_eq_ok.1 h1
  obtain ⟨e3, h3, h1⟩ := Outcome.bind_eq_ok.1 h1
  have : ([2, 3, 4, 5] : List Nat) = [2, 3, 4] ++ [5] := rfl
  rw [this, Outcome.foldlM_append] at h1
  obtain ⟨e4, h4, h1⟩ := Outcome.bind_eq_ok.1 h1
  refine ⟨e4, ?_, fun i => ?_⟩
  · unfold beforeFinal
    rw [h2, Outcome.bind_ok, h3, Outcome.bind_ok]; exact h4
  · rw [Outcome.foldlM_cons] at h1
    obtain ⟨e5, h5, h1⟩ := Outcome.bind_eq_ok.1 h1
    cases h1
    have k1 : e1 (.objObs i) = w.poses 5 e4 (.objObs i) := groups_obs hs _ _ _ h5 i
    rw [← k1]
    split at h
    · exact groups_obs' hs _ _ _ h i
    · cases h; rfl

/-- C63: hence the file of object poses holds, for each observation of an object, that estimate. -/
theorem C63_file {Pt P : Type} [Group G] [SMul G Pt] {rot : RotatePoint} {solve : Solver}
    (hs : Solver.Frame solve) (fix : Int) (nCam : Nat) (w : World G) (e e' : Env)
    (h : calibrate rot solve fix nCam w e = .ok e') (bpts : List (List Pt)) (objs : OMap Nat (Object G Pt))
    (hC : Verif.Spec.Objects.Collection bpts objs) (oo : List (ObjObs P)) :
    ∃ e4, beforeFinal rot solve fix nCam w e = .ok e4 ∧
      Output.save3DObjPose objs oo (fun i => e' (.objObs i)) = (OMap.keys objs).map fun j =>
        (j, (Verif.Spec.Store.positions (fun o : ObjObs P => o.obj == j) oo).map fun i => w.poses 5 e4 (.objObs i)) := by
  obtain ⟨e4, h1, h2⟩ := C63_estimate hs fix nCam w e e' h
  refine ⟨e4, h1, ?_⟩
  rw [OutputObjects.C57_poses bpts objs hC]
  simp only [h2]

/-- C63: the refined pose of an object in its group and the written pose may differ: there are a scene and a solver
with which the last refinement moves the pose of the object in its group, which is written nowhere, while the written
pose of the observation stays. -/
theorem C63_not_refined : ∃ e e' : Env, refineAllGroups (fun _ p => p) mover Props.Refine.demo e = .ok e' ∧
    e' (.objPose 0 7 0) ≠ e (.objPose 0 7 0) ∧ ∀ i, e' (.objObs i) = e (.objObs i) := by
  let e : Env := fun k i => if k = .intr 0 ∧ i = 0 then 1 else 0
  obtain ⟨e', he'⟩ : ∃ e', refineAllGroups (fun _ p => p) mover Props.Refine.demo e = .ok e' := ⟨_, rfl⟩
  refine ⟨e, e', he', ?_, groups_obs mover_frame _ e _ he'⟩
  intro h
  have h0 := congrFun h 0
  have hn : ¬ NoInfluence (.objPose 0 7 0) [fun e' : Env => groupObjectRef (fun _ p => p) (mkObs (3, 4) ![0, 1, 0])
      (consts (e (.intr 0))) false true 0 (e' (.camPose 0 0)) (e' (.objPose 0 7 0)) (e' (.boardPose 0 1))] := by
    intro hn
    let E : ℝ → Env := fun u k i => if k = .objPose 0 7 0 ∧ i = 3 then u else if k = .objPose 0 7 0 ∧ i = 5 then 1 else 0
    have := hn _ List.mem_cons_self (E 0) (E 1) (by
        intro k hk
        funext i
        simp [E, hk])
    simp [groupObjectRef, E, e, consts, mkObs] at this
    norm_num at this
  have h1 : mover [fun e' : Env => groupObjectRef (fun _ p => p) (mkObs (3, 4) ![0, 1, 0])
      (consts (e (.intr 0))) false true 0 (e' (.camPose 0 0)) (e' (.objPose 0 7 0)) (e' (.boardPose 0 1))]
      e (.objPose 0 7 0) 0 = e (.objPose 0 7 0) 0 := by
    have : refineAllGroups (fun _ p => p) mover Props.Refine.demo e = .ok (mover [fun e' : Env =>
      groupObjectRef (fun _ p => p) (mkObs (3, 4) ![0, 1, 0])
      (consts (e (.intr 0))) false true 0 (e' (.camPose 0 0)) (e' (.objPose 0 7 0)) (e' (.boardPose 0 1))] e) := rfl
    rw [he'] at this
    cases this
    exact h0
  simp [mover, hn] at h1

/-- The workflow runs on the scene of C51, for any solver. -/
example (rot : RotatePoint) (solve : Solver) (fix : Int) (e : Env) :
    ∃ e', calibrate rot solve fix 1 ⟨fun _ _ => Props.Refine.demo, fun _ e => e⟩ e = .ok e' := by
  by_cases h : fix = 0
  · subst h; exact ⟨_, rfl⟩
  · refine ⟨?_, ?_⟩
    rotate_left
    · unfold calibrate calibrateBefore initIntrinsic
      simp only [if_neg h]
      rfl

end Verif.Props.SavedPoses
