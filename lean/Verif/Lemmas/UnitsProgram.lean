import Verif.Lemmas.UnitsRun

/-! The run with pose estimation, and the reports, commute with a change of units. -/
namespace Verif.Lemmas.Units
open Verif Verif.Structure Verif.Objects Verif.Groups Verif.GroupPose Verif.NonOverlap Verif.Pipeline Verif.Spec.Units
open Verif.Ransac

set_option linter.unusedSectionVars false

variable {V W G H Pt Q P Path K : Type}
variable [Group G] [Group H] (φ : G →* H) [SMul G Pt] [SMul H Q] (ψ : Pt → Q) (hψ : ∀ (g : G) (p : Pt), ψ (g • p) = φ g • ψ p)
  (ν : V → W) {n : Numerics V G} {n' : Numerics W H} {e : Program.Estimator Pt P G} {e' : Program.Estimator Q P H}

theorem scenePoints_map (m : List Pt) (ids : List Nat) : scenePoints (m.map ψ) ids = result (List.map ψ) (scenePoints m ids) := by
  unfold scenePoints
  refine foldlM_result' (List.map ψ) (fun acc i => ?_) ids []
  unfold scenePoint
  rw [idx_map]
  refine bind_map ψ _ rfl fun p => ?_
  show Outcome.ok _ = Outcome.ok _
  rw [List.map_append]
  rfl

/-- A view in other units. -/
def view (φ : G → H) (v : View P G) : View P H := ⟨v.pts, v.ids, v.valid, φ v.pose⟩

section Search
variable {s : Search Pt P G} {s' : Search Q P H} (hs : SameSearch φ ψ s s')
include hs

theorem estimateObject_map (i c : Nat) (m : List Pt) (v : View P G) :
    estimateObject (s' i c) (m.map ψ) (view φ v) = result (view φ) (estimateObject (s i c) m v) := by
  unfold estimateObject
  refine bind_map _ _ (scenePoints_map ψ m v.ids) fun sc => ?_
  exact bind_map _ _ (hs i c sc v.pts) fun r => rfl

theorem estimateBoard_map (i c : Nat) (m : List Pt) (v : View P G) :
    estimateBoard (s' i c) (m.map ψ) (view φ v) = result (view φ) (estimateBoard (s i c) m v) := by
  unfold estimateBoard
  refine bind_map _ _ (scenePoints_map ψ m v.ids) fun sc => ?_
  refine bind_map _ _ (hs i c sc v.pts) fun r => ?_
  rw [bind_result]
  refine bind_congr' fun acc => ?_
  rfl

theorem estimateObjects_map (x : G) (objs : OMap Nat (Object G Pt)) (oo : List (ObjObs P)) :
    estimateAllObjects s' (φ x) (values (object φ ψ) objs) oo = result (List.map φ) (estimateAllObjects s x objs oo) := by
  unfold estimateAllObjects
  refine foldlM_result' (List.map φ) (fun acc o => ?_) oo []
  unfold Ransac.objectStep
  rw [get_values, deref_map, List.length_map]
  refine bind_map _ _ rfl fun ob => ?_
  refine bind_map _ _ (estimateObject_map φ ψ hs acc.length o.cam ob.pts ⟨o.pts, o.ids, true, x⟩) fun v => ?_
  show Outcome.ok _ = Outcome.ok _
  rw [List.map_append]
  rfl

theorem estimateBoards_map (x : G) (bpts : List (List Pt)) (obs : List (BoardObs P)) :
    estimateAllBoards s' (φ x) (bpts.map (List.map ψ)) obs =
      result (List.map (estimated φ)) (estimateAllBoards s x bpts obs) := by
  unfold estimateAllBoards
  refine foldlM_result' (List.map (estimated φ)) (fun acc o => ?_) obs []
  unfold boardStep
  rw [idx_map, List.length_map]
  refine bind_map _ _ rfl fun m => ?_
  refine bind_map _ _ (estimateBoard_map φ ψ hs acc.length o.cam m ⟨o.pts, o.ids, true, x⟩) fun v => ?_
  show Outcome.ok _ = Outcome.ok _
  rw [List.map_append]
  rfl

end Search

theorem poseAt_map (ps : List G) : Program.poseAt (ps.map φ) = fun i => φ (Program.poseAt ps i) := by
  funext i
  unfold Program.poseAt
  rw [List.getElem?_map]
  cases ps[i]? with
  | none => exact (map_one φ).symm
  | some x => rfl

theorem withPoses_map (hn : SameNumerics φ ν n n') (p : Nat → Nat → G) :
    SameNumerics φ ν (Program.withPoses n p) (Program.withPoses n' fun k i => φ (p k i)) :=
  { hn with objPose := fun _ _ => rfl }

section Run
variable (hn : SameNumerics φ ν n n') (he : SameEstimator φ ψ e e')
include hψ hn he

theorem calibrateObjects_est (bpts : List (List Pt)) (s : Store P Path) (obs : List (BoardObs P)) :
    Program.calibrateObjects e' n' (bpts.map (List.map ψ)) s obs =
      result (fun r => (values (object φ ψ) r.1, r.2.1, fun i => φ (r.2.2 i))) (Program.calibrateObjects e n bpts s obs) := by
  unfold Program.calibrateObjects
  have eb : n'.boardPose = fun i => φ (n.boardPose i) := funext hn.boardPose
  rw [eb, hn.choose, he.garbage]
  refine bind_map (values (object φ ψ)) _ (buildObjects_map φ ψ hψ s _ hn.avg bpts _) fun objs => ?_
  refine bind_map id _ ((initAllObs_map φ ψ _ objs []).trans (result_id _).symm) fun oo => ?_
  refine bind_map _ _ (estimateObjects_map φ ψ (he.search 0) e.garbage objs oo) fun ps => ?_
  refine bind_map (values (object φ ψ)) _ (refineObjects_map φ ψ hψ bpts (hn.board 0) objs) fun objs => ?_
  show Outcome.ok _ = Outcome.ok _
  rw [he.refined, poseAt_map]
  rfl

theorem mergeStage_est (k j : Nat) (bpts : List (List Pt)) (s : Store P Path) (obs : List (BoardObs P)) (st : State G Pt P) :
    Program.mergeStage e' n' k j (bpts.map (List.map ψ)) s obs (state φ ψ st) =
      result (fun r => (state φ ψ r.1, fun i => φ (r.2 i))) (Program.mergeStage e n k j bpts s obs st) := by
  unfold Program.mergeStage
  rw [he.garbage]
  refine bind_map _ _ (estimateObjects_map φ ψ (he.search j) e.garbage st.objs st.oo) fun ps => ?_
  rw [poseAt_map]
  refine bind_map _ _ (joinObjects_map φ ψ hψ ν (withPoses_map φ ν hn fun _ => Program.poseAt ps) k bpts s obs st) fun st1 => ?_
  refine bind_map _ _ (estimateObjects_map φ ψ (he.search (j + 1)) e.garbage st1.objs st1.oo) fun qs => ?_
  refine bind_map _ _ (refineAll_map φ ψ hψ ν hn k bpts st1) fun st2 => ?_
  show Outcome.ok _ = Outcome.ok _
  rw [poseAt_map]

theorem overlapping_est (bpts : List (List Pt)) (s : Store P Path) (obs : List (BoardObs P)) :
    Program.overlapping e' n' (bpts.map (List.map ψ)) s obs =
      result (fun r => (state φ ψ r.1, fun i => φ (r.2 i))) (Program.overlapping e n bpts s obs) := by
  unfold Program.overlapping
  refine bind_map _ _ (calibrateObjects_est φ ψ hψ ν hn he bpts s obs) fun r => ?_
  refine bind_map _ _ (calibrateGroups_map φ ψ hψ ν (withPoses_map φ ν hn fun _ => r.2.2) bpts s r.1 r.2.1) fun st => ?_
  exact mergeStage_est φ ψ hψ ν hn he 2 1 bpts s obs st

omit he in
theorem finishStage_map (fix : Int) (bpts : List (List Pt)) (st : State G Pt P) :
    Finish.finalStage n' fix (bpts.map (List.map ψ)) (state φ ψ st) =
      result (fun r => (state φ ψ r.1, values (values ν) r.2)) (Finish.finalStage n fix bpts st) := by
  unfold Finish.finalStage
  refine bind_map _ _ (refineAll_map φ ψ hψ ν hn 5 bpts st) fun st1 => ?_
  have ep : n'.objPose 5 = fun i => φ (n.objPose 5 i) := funext (hn.objPose 5)
  have eo : objectPoses n'.toVec n'.avgV (state φ ψ st).t (state φ ψ st).oo (n'.objPose 5) =
      values (values ν) (objectPoses n.toVec n.avgV st.t st.oo (n.objPose 5)) := by
    rw [ep]
    exact objectPoses_map φ ν hn.toVec hn.avgV _ _ _
  rw [eo, refinePoses_map ν (hn.inGroup 5)]
  unfold Finish.lastRefine
  split
  · refine bind_map _ _ (refineAll_map φ ψ hψ ν hn 6 bpts st1) fun st2 => ?_
    show Outcome.ok _ = Outcome.ok _
    rw [refinePoses_map ν (hn.inGroup 6)]
  · rfl

theorem finalStage_est (fix : Int) (bpts : List (List Pt)) (st : State G Pt P) :
    Program.finalStage e' n' fix (bpts.map (List.map ψ)) (state φ ψ st) =
      result (fun r => (state φ ψ r.1, values (values ν) r.2)) (Program.finalStage e n fix bpts st) := by
  unfold Program.finalStage
  rw [he.garbage]
  refine bind_map _ _ (estimateObjects_map φ ψ (he.search 5) e.garbage st.objs st.oo) fun ps => ?_
  rw [poseAt_map]
  exact finishStage_map φ ψ hψ ν (withPoses_map φ ν hn fun _ => Program.poseAt ps) fix bpts st

theorem run_map (fix : Int) (bpts : List (List Pt)) (s : Store P Path) (obs : List (BoardObs P)) :
    Program.run e' n' fix (bpts.map (List.map ψ)) s obs =
      result (fun r => (state φ ψ r.1, values (values ν) r.2)) (Program.run e n fix bpts s obs) := by
  unfold Program.run
  refine bind_map _ _ (overlapping_est φ ψ hψ ν hn he bpts s obs) fun r => ?_
  unfold Program.merging
  refine bind_map _ _ (nonOverlapping_map φ ψ ν (withPoses_map φ ν hn fun _ => r.2) r.1) fun pp => ?_
  refine bind_map _ _ (mergeGroups1_map φ ψ ν hn s pp r.1) fun st => ?_
  refine bind_map _ _ (mergeStage_est φ ψ hψ ν hn he 4 3 bpts s obs st) fun q => ?_
  refine bind_map _ _ (mergeGroups2_map φ ψ ν hn s pp q.1) fun st => ?_
  exact finalStage_est φ ψ hψ ν hn he fix bpts st

end Run

/-! ### From the detections -/

theorem obsError_map [Field K] {p : ReproErr.Projection P G Pt K} {p' : ReproErr.Projection P H Q K} (hp : SameProjection φ ψ p p')
    (m : List Pt) (c : Nat) (g : G) (ids : List Nat) (px : List P) :
    ReproErr.obsError p' (m.map ψ) c (φ g) ids px = ReproErr.obsError p m c g ids px := by
  unfold ReproErr.obsError
  rw [scenePoints_map, result_bind]
  refine bind_congr' fun sc => ?_
  have e1 : ReproErr.project p' c (φ g) (sc.map ψ) = ReproErr.project p c g sc := by
    unfold ReproErr.project
    rw [hp.model, hp.brown, hp.kannala]
  rw [e1]
  refine bind_congr' fun r => ?_
  unfold ReproErr.errorSum ReproErr.errorStep
  rw [hp.dist]

theorem boardErrors_map [Field K] [LinearOrder K] {p : ReproErr.Projection P G Pt K} {p' : ReproErr.Projection P H Q K}
    (hp : SameProjection φ ψ p p') (bpts : List (List Pt)) (l : List (Estimated P G)) :
    ReproErr.computeReproErrAllBoard p' (bpts.map (List.map ψ)) (l.map (estimated φ)) =
      ReproErr.computeReproErrAllBoard p bpts l := by
  unfold ReproErr.computeReproErrAllBoard
  have h := foldlM_result (f := ReproErr.boardErrorStep p bpts) (f' := ReproErr.boardErrorStep p' (bpts.map (List.map ψ))) id
    (estimated φ) (fun acc x => ?_) l []
  · rw [result_id] at h
    exact h
  · rw [result_id]
    unfold ReproErr.boardErrorStep
    show (Outcome.idx _ x.obs.board >>= _) = _
    rw [idx_map, result_bind]
    refine bind_congr' fun m => ?_
    show (ReproErr.obsError p' (m.map ψ) x.obs.cam (φ x.pose) x.obs.ids x.obs.pts >>= _) = _
    rw [obsError_map φ ψ hp]
    rfl

theorem initIntrinsic_map [Field K] [LinearOrder K] {s : Search Pt P G} {s' : Search Q P H} (hs : SameSearch φ ψ s s')
    {r : Option (List (Estimated P G) → Outcome (List (Estimated P G) × ReproErr.Projection P G Pt K))}
    {r' : Option (List (Estimated P H) → Outcome (List (Estimated P H) × ReproErr.Projection P H Q K))}
    (hr : SameRefine φ ψ r r') {p : ReproErr.Projection P G Pt K} {p' : ReproErr.Projection P H Q K} (hp : SameProjection φ ψ p p')
    (x : G) (bpts : List (List Pt)) (obs : List (BoardObs P)) :
    ReproErr.initIntrinsic s' (φ x) (bpts.map (List.map ψ)) obs r' p' =
      result (fun y => (y.1.map (estimated φ), y.2)) (ReproErr.initIntrinsic s x bpts obs r p) := by
  unfold ReproErr.initIntrinsic
  refine bind_map _ _ (estimateBoards_map φ ψ hs x bpts obs) fun est => ?_
  cases hr with
  | fixed =>
    show (ReproErr.computeReproErrAllBoard p' _ _ >>= _) = result _ (ReproErr.computeReproErrAllBoard p bpts est >>= _)
    rw [boardErrors_map φ ψ hp, bind_result]
    exact bind_congr' fun w => rfl
  | refined f hf h =>
    refine bind_map _ _ (h est) fun y => ?_
    dsimp only
    rw [boardErrors_map φ ψ (hf y.2), bind_result]
    exact bind_congr' fun w => rfl

include hψ in
theorem calibrate_map [Field K] [LinearOrder K] (hn : SameNumerics φ ν n n') (he : SameEstimator φ ψ e e')
    {s : Search Pt P G} {s' : Search Q P H} (hs : SameSearch φ ψ s s')
    {r : Option (List (Estimated P G) → Outcome (List (Estimated P G) × ReproErr.Projection P G Pt K))}
    {r' : Option (List (Estimated P H) → Outcome (List (Estimated P H) × ReproErr.Projection P H Q K))}
    (hr : SameRefine φ ψ r r') {p : ReproErr.Projection P G Pt K} {p' : ReproErr.Projection P H Q K} (hp : SameProjection φ ψ p p')
    (fix : Int) (bpts : List (List Pt)) (st : Store P Path) :
    Program.calibrate s' r' p' e' n' fix (bpts.map (List.map ψ)) st =
      result (fun r => (state φ ψ r.1, values (values ν) r.2)) (Program.calibrate s r p e n fix bpts st) := by
  unfold Program.calibrate
  rw [he.garbage]
  refine bind_map _ _ (initIntrinsic_map φ ψ hs hr hp e.garbage bpts st.obs) fun x => ?_
  have e1 : (x.1.map (estimated φ)).map (·.obs) = x.1.map (·.obs) := by rw [List.map_map]; rfl
  have e2 : (x.1.map (estimated φ)).map (·.pose) = (x.1.map (·.pose)).map φ := by rw [List.map_map, List.map_map]; rfl
  dsimp only
  rw [e1, e2, poseAt_map]
  exact run_map φ ψ hψ ν (n := { n with boardPose := Program.poseAt (x.1.map (·.pose)) })
    (n' := { n' with boardPose := fun i => φ (Program.poseAt (x.1.map (·.pose)) i) })
    { hn with boardPose := fun _ => rfl } he fix bpts st _

end Verif.Lemmas.Units
