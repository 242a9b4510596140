import Verif.Lemmas.UnitsProgram

/-! The reports commute with a change of units. -/
namespace Verif.Lemmas.Units
open Verif Verif.Structure Verif.Objects Verif.Groups Verif.GroupPose Verif.NonOverlap Verif.Pipeline Verif.Spec.Units
open Verif.Output Verif.Images Verif.Finish

set_option linter.unusedSectionVars false

variable {V W G H Pt Q Path K Img : Type}
variable [Group G] [Group H] (φ : G →* H) [SMul G Pt] [SMul H Q] (ψ : Pt → Q) (hψ : ∀ (g : G) (p : Pt), ψ (g • p) = φ g • ψ p)
  (ν : V → W)

/-- Scenes that differ in their units. -/
structure SameScene (sc : Scene V G Pt) (sc' : Scene W H Q) : Prop where
  objs : sc'.objs = values (object φ ψ) sc.objs
  oo : sc'.oo = sc.oo
  t : sc'.t = tables φ sc.t
  op : sc'.op = values (values ν) sc.op
  ofVec : ∀ v, sc'.ofVec (ν v) = φ (sc.ofVec v)
  model : sc'.model = sc.model
  brown : ∀ c g pts, sc'.projBrown c (φ g) (pts.map ψ) = sc.projBrown c g pts
  kannala : ∀ c g pts, sc'.projKannala c (φ g) (pts.map ψ) = sc.projKannala c g pts

variable {sc : Scene V G Pt} {sc' : Scene W H Q} (hs : SameScene φ ψ ν sc sc')

section
include hs

theorem project_map (c : Nat) (g : G) (pts : List Pt) : project sc' c (φ g) (pts.map ψ) = project sc c g pts := by
  unfold project
  rw [hs.model, hs.brown, hs.kannala]

theorem groupOf_pose (g : CamGroup G) (c : Nat) :
    (OMap.get? (group φ g).poses c).getD 1 = φ ((OMap.get? g.poses c).getD 1) := by
  show (OMap.get? (values φ g.poses) c).getD 1 = _
  rw [get_values]
  cases OMap.get? g.poses c with
  | none => exact (map_one φ).symm
  | some x => rfl

theorem objectOf_pose (k : Nat × Nat) (o : Nat) :
    (((OMap.get? sc'.op k).bind fun m => OMap.get? m o).map sc'.ofVec).getD 1 =
      φ ((((OMap.get? sc.op k).bind fun m => OMap.get? m o).map sc.ofVec).getD 1) := by
  rw [hs.op, get_values]
  cases OMap.get? sc.op k with
  | none => exact (map_one φ).symm
  | some m =>
    show ((OMap.get? (values ν m) o).map sc'.ofVec).getD 1 = φ (((OMap.get? m o).map sc.ofVec).getD 1)
    rw [get_values]
    cases OMap.get? m o with
    | none => exact (map_one φ).symm
    | some v => exact hs.ofVec v

theorem reported_map (g : CamGroup G) (f : Nat) : reported sc' (group φ g) f = reported sc g f := by
  unfold reported
  rw [hs.t]
  rfl

end

theorem pointsOf_map (o : Object G Pt) (ids : List Nat) :
    Outcome.foldlM (pointStep (object φ ψ o)) [] ids = result (List.map ψ) (Outcome.foldlM (pointStep o) [] ids) := by
  refine foldlM_result' (List.map ψ) (fun acc i => ?_) ids []
  unfold pointStep
  show (Outcome.idx (o.pts.map ψ) i >>= _) = _
  rw [idx_map]
  refine bind_map ψ _ rfl fun p => ?_
  show Outcome.ok _ = Outcome.ok _
  rw [List.map_append]
  rfl

theorem moved_map (hψ : ∀ (g : G) (p : Pt), ψ (g • p) = φ g • ψ p) (g : G) (pts : List Pt) :
    ((pts.map ψ).map (φ g • ·)) = (pts.map (g • ·)).map ψ := by
  rw [List.map_map, List.map_map]
  exact List.map_congr_left fun p _ => (hψ g p).symm

section
include hψ hs

theorem repro_map {B : Type} (g : CamGroup G) (f : Nat) (oo : ObjObs (ℝ × ℝ)) (k : List (ℝ × ℝ) → Outcome B) :
    (do let obj ← Outcome.deref (OMap.get? sc'.objs oo.obj)
        let pts ← Outcome.foldlM (pointStep obj) [] oo.ids
        let pose := (((OMap.get? sc'.op ((group φ g).id, f)).bind fun m => OMap.get? m oo.obj).map sc'.ofVec).getD 1
        let repro ← project sc' oo.cam ((OMap.get? (group φ g).poses oo.cam).getD 1) (pts.map (pose • ·))
        k repro) =
    (do let obj ← Outcome.deref (OMap.get? sc.objs oo.obj)
        let pts ← Outcome.foldlM (pointStep obj) [] oo.ids
        let pose := (((OMap.get? sc.op (g.id, f)).bind fun m => OMap.get? m oo.obj).map sc.ofVec).getD 1
        let repro ← project sc oo.cam ((OMap.get? g.poses oo.cam).getD 1) (pts.map (pose • ·))
        k repro) := by
  rw [hs.objs, get_values, deref_map, result_bind]
  refine bind_congr' fun obj => ?_
  rw [pointsOf_map, result_bind]
  refine bind_congr' fun pts => ?_
  dsimp only
  rw [groupOf_pose φ ψ ν hs, objectOf_pose φ ψ ν hs, moved_map φ ψ hψ, project_map φ ψ ν hs]
  rfl

theorem obsErrors_map (g : CamGroup G) (f i : Nat) : obsErrors sc' (group φ g) f i = obsErrors sc g f i := by
  unfold obsErrors
  rw [hs.oo]
  refine bind_congr' fun oo => ?_
  exact repro_map φ ψ hψ ν hs g f oo _

theorem log_map : reproErrorAllCamGroup sc' = reproErrorAllCamGroup sc := by
  have h1 : ∀ (g : CamGroup G) f acc i, ReproErr.logObs sc' (group φ g) f acc i = ReproErr.logObs sc g f acc i := by
    intro g f acc i
    unfold ReproErr.logObs
    rw [hs.oo]
    refine bind_congr' fun oo => ?_
    exact repro_map φ ψ hψ ν hs g f oo _
  have h2 : ∀ g : CamGroup G, ReproErr.reproErrorCameraGroup sc' (group φ g) = ReproErr.reproErrorCameraGroup sc g := by
    intro g
    unfold ReproErr.reproErrorCameraGroup
    congr 1
    funext acc f
    unfold ReproErr.logFrame
    rw [reported_map φ ψ ν hs]
    congr 1
    funext acc i
    exact h1 _ _ _ _
  unfold reproErrorAllCamGroup
  rw [hs.t]
  have h := foldlM_result (f := logGroup sc) (f' := logGroup sc') id (fun e : Nat × CamGroup G => (e.1, group φ e.2))
    (fun acc x => by
      rw [result_id]
      unfold logGroup
      show (ReproErr.reproErrorCameraGroup sc' (group φ x.2) >>= _) = _
      rw [h2]
      rfl) sc.t.groups []
  rw [result_id] at h
  exact h

theorem errors_map : saveReprojectionError sc' = saveReprojectionError sc := by
  have h1 : ∀ (g : CamGroup G), reportFrame sc' (group φ g) = reportFrame sc g := by
    intro g
    funext st x
    unfold reportFrame
    rw [reported_map φ ψ ν hs]
    have e : reportObs sc' (group φ g) x.1 = reportObs sc g x.1 := by
      funext m i
      unfold reportObs
      rw [obsErrors_map φ ψ hψ ν hs]
    rw [e]
  unfold saveReprojectionError
  rw [hs.t]
  have h := foldlM_result (f := reportGroup sc) (f' := reportGroup sc') id (fun e : Nat × CamGroup G => (e.1, group φ e.2))
    (fun acc x => by
      rw [result_id]
      unfold reportGroup
      rw [h1]
      rfl) sc.t.groups ([], [])
  rw [result_id] at h
  have hl : (tables φ sc.t).groups.length = sc.t.groups.length := List.length_map _
  rw [hl]
  exact congrArg (· >>= _) h

theorem average_map : computeAvgReprojectionError sc' = computeAvgReprojectionError sc := by
  have h1 : ∀ (g : CamGroup G), avgFrame sc' (group φ g) = avgFrame sc g := by
    intro g
    funext st x
    unfold avgFrame
    rw [reported_map φ ψ ν hs]
    have e : avgObs sc' (group φ g) x.1 = avgObs sc g x.1 := by
      funext m i
      unfold avgObs
      rw [obsErrors_map φ ψ hψ ν hs]
    rw [e]
  unfold computeAvgReprojectionError
  rw [hs.t]
  have h := foldlM_result (f := avgGroup sc) (f' := avgGroup sc') id (fun e : Nat × CamGroup G => (e.1, group φ e.2))
    (fun acc x => by
      rw [result_id]
      unfold avgGroup
      rw [h1]
      rfl) sc.t.groups (0, 0)
  rw [result_id] at h
  exact congrArg (· >>= _) h

end

section
include hs

theorem detection_map (colour : Nat → Int × Int × Int) (imread : Path → Option Img) (emptyPath : Path) (save : Folders.Str)
    (frames : OMap Nat (FrameRec Path)) (c : Nat) :
    saveDetectionImages sc' colour imread emptyPath save frames c = saveDetectionImages sc colour imread emptyPath save frames c := by
  have h1 : drawDetection sc' colour c = drawDetection sc colour c := by
    funext acc i
    unfold drawDetection
    rw [hs.oo]
    refine bind_congr' fun x => ?_
    rw [hs.objs, get_values]
    cases OMap.get? sc.objs x.obj <;> rfl
  unfold saveDetectionImages
  congr 1
  funext out x
  unfold detectionFrame
  have h2 : detectGroup sc' colour c x.1 = detectGroup sc colour c x.1 := by
    funext acc gi
    unfold detectGroup
    rw [h1, hs.t]
    rfl
  rw [h2, hs.t]
  rfl

theorem updateAll_map (zero : V) {gp : Nat → V} :
    updateAll sc' (ν zero) (fun i => ν (gp i)) = result (fun g i => ν (g i)) (updateAll sc zero gp) := by
  unfold updateAll
  have et : sc'.t.groupObs = sc.t.groupObs := by rw [hs.t]; rfl
  rw [et]
  refine foldlM_result' (fun (g : Nat → V) i => ν (g i)) (fun gp x => ?_) sc.t.groupObs gp
  unfold updateObjObsPose
  refine foldlM_result' (fun (g : Nat → V) i => ν (g i)) (fun gp i => ?_) x.2 gp
  unfold updateObs
  rw [hs.oo, bind_result]
  refine bind_congr' fun y => ?_
  show Outcome.ok _ = Outcome.ok _
  congr 1
  funext j
  dsimp only
  by_cases hj : j = i
  · rw [if_pos hj, if_pos hj, hs.op, get_values]
    cases OMap.get? sc.op x.1 with
    | none => rfl
    | some m =>
      show (OMap.get? (values ν m) y.obj).getD (ν zero) = ν ((OMap.get? m y.obj).getD zero)
      rw [get_values]
      cases OMap.get? m y.obj <;> rfl
  · rw [if_neg hj, if_neg hj]

theorem reprojection_map (gp : Nat → V) (imread : Path → Option Img) (emptyPath : Path) (save : Folders.Str)
    (frames : OMap Nat (FrameRec Path)) (c : Nat) :
    saveReprojectionImages sc' (fun i => ν (gp i)) imread emptyPath save frames c =
      saveReprojectionImages sc gp imread emptyPath save frames c := by
  have h1 : ∀ gi, drawReprojection sc' (fun i => ν (gp i)) c gi = drawReprojection sc gp c gi := by
    intro gi
    funext acc i
    unfold drawReprojection
    rw [hs.oo]
    refine bind_congr' fun x => ?_
    have eg : OMap.get? sc'.t.groups gi = (OMap.get? sc.t.groups gi).map (group φ) := by
      rw [hs.t]
      exact get_values _ _ _
    rw [hs.objs, get_values, eg]
    cases OMap.get? sc.t.groups gi with
    | none => rfl
    | some g =>
      cases OMap.get? sc.objs x.obj with
      | none => rfl
      | some o =>
        simp only [Option.map_some]
        split
        · rw [pointsOf_map, result_bind]
          refine bind_congr' fun pts => ?_
          rw [groupOf_pose φ ψ ν hs, hs.ofVec, ← map_mul, project_map φ ψ ν hs]
        · rfl
  unfold saveReprojectionImages
  congr 1
  funext out x
  unfold reprojectionFrame
  have h2 : drawGroup sc' (fun i => ν (gp i)) c x.1 = drawGroup sc gp c x.1 := by
    funext acc gi
    unfold drawGroup
    rw [h1, hs.t]
    rfl
  rw [h2, hs.t]
  rfl

end

/-! ### Files -/

/-- A storage with its entries changed. -/
def storage {A B : Type} (f : A → B) (s : Storage A) : Storage B := ⟨s.isOpen, s.out.map f⟩

theorem put_map {A B : Type} (f : A → B) (s : Storage A) (x : A) : (storage f s).put (f x) = storage f (s.put x) := by
  unfold Storage.put
  show (if s.isOpen then _ else _) = _
  split
  · unfold storage
    simp
  · rfl

theorem cameras_map [Zero K] [One K] (cams : List (CamData K)) (gs : OMap Nat (CamGroup G)) :
    saveCamerasParams cams (values (group φ) gs) = result (List.map (camEntry φ)) (saveCamerasParams cams gs) := by
  unfold saveCamerasParams
  refine bind_map (storage (camEntry φ)) _ ?_ fun fs => rfl
  refine foldlM_result (storage (camEntry φ)) (fun e : Nat × CamGroup G => (e.1, group φ e.2)) (fun fs x => ?_) gs {}
  unfold saveGroup
  refine bind_map (storage (camEntry φ)) _ ?_ fun fs => rfl
  have e1 : (storage (camEntry φ) fs).put (.nbCamera cams.length) = storage (camEntry φ) (fs.put (.nbCamera cams.length)) :=
    put_map (camEntry φ) fs (.nbCamera cams.length)
  rw [e1]
  refine foldlM_result' (storage (camEntry φ)) (fun fs y => ?_) x.2.cameras _
  unfold saveCamera
  cases cams[y.1]? with
  | none => rfl
  | some cam =>
    show (if fs.isOpen then _ else _) = _
    dsimp only
    split
    · cases cam.size with
      | none => rfl
      | some sz =>
        show Outcome.ok _ = Outcome.ok _
        rw [← put_map]
        have ep : (OMap.get? (group φ x.2).poses y.1).getD 1 = φ ((OMap.get? x.2.poses y.1).getD 1) := by
          show (OMap.get? (values φ x.2.poses) y.1).getD 1 = _
          rw [get_values]
          cases OMap.get? x.2.poses y.1 with
          | none => exact (map_one φ).symm
          | some z => rfl
        show Outcome.ok (Storage.put _ (CamEntry.camera y.1 ⟨_, _, _, _, _, _, ((OMap.get? (group φ x.2).poses y.1).getD 1)⁻¹⟩)) = _
        rw [ep, ← map_inv]
        rfl
    · rfl

theorem objects_map (bpts : List (List Pt)) (objs : OMap Nat (Object G Pt)) :
    save3DObj (bpts.map (List.map ψ)) (values (object φ ψ) objs) =
      result (List.map fun e => (e.1, e.2.map (Option.map (column ψ)))) (save3DObj bpts objs) := by
  have h1 : ∀ (o : Object G Pt), saveObject (bpts.map (List.map ψ)) (object φ ψ o) =
      result (List.map (Option.map (column ψ))) (saveObject bpts o) := by
    intro o
    unfold saveObject
    have e0 : (List.replicate (object φ ψ o).nbPts (none : Option (Column Q)), 0) =
        (fun st : List (Option (Column Pt)) × Nat => (st.1.map (Option.map (column ψ)), st.2)) (List.replicate o.nbPts none, 0) := by
      simp only [List.map_replicate]
      rfl
    rw [e0]
    refine bind_map (fun st : List (Option (Column Pt)) × Nat => (st.1.map (Option.map (column ψ)), st.2)) _ ?_ fun st => rfl
    refine foldlM_result' (fun st : List (Option (Column Pt)) × Nat => (st.1.map (Option.map (column ψ)), st.2))
      (fun st x => ?_) o.boards (List.replicate o.nbPts none, 0)
    unfold saveBoard
    rw [List.getElem?_map]
    cases bpts[x.1]? with
    | none => rfl
    | some ps =>
      simp only [Option.map_some, List.length_map]
      refine foldlM_result' (fun st : List (Option (Column Pt)) × Nat => (st.1.map (Option.map (column ψ)), st.2)) (fun st k => ?_) _ st
      unfold saveCorner
      show (Outcome.idx (o.pts.map ψ) ((OMap.get? o.b2o (x.1, k)).getD 0) >>= _) = _
      rw [idx_map]
      refine bind_map ψ _ rfl fun p => ?_
      dsimp only
      rw [idx_map]
      refine bind_map _ _ rfl fun _ => ?_
      show Outcome.ok _ = Outcome.ok _
      dsimp only
      rw [List.map_set]
      rfl
  unfold save3DObj
  refine bind_map (storage fun e : Nat × List (Option (Column Pt)) => (e.1, e.2.map (Option.map (column ψ)))) _ ?_ fun fs => rfl
  refine foldlM_result (storage fun e : Nat × List (Option (Column Pt)) => (e.1, e.2.map (Option.map (column ψ))))
    (fun e : Nat × Object G Pt => (e.1, object φ ψ e.2)) (fun fs x => ?_) objs {}
  unfold saveObjectStep
  refine bind_map _ _ (h1 x.2) fun m => ?_
  show Outcome.ok _ = Outcome.ok _
  rw [← put_map]
  rfl

theorem poses_map {P : Type} (objs : OMap Nat (Object G Pt)) (oo : List (ObjObs P)) (pose : Nat → V) :
    save3DObjPose (values (object φ ψ) objs) oo (fun i => ν (pose i)) =
      (save3DObjPose objs oo pose).map fun e => (e.1, e.2.map ν) := by
  unfold save3DObjPose values objectPoseColumns
  rw [List.map_map, List.map_map]
  apply List.map_congr_left
  intro x _
  simp only [Function.comp_apply, List.map_map]
  rfl

include hψ in
theorem report_map [Zero K] [One K] {en : Env V G Pt K Path Img} {en' : Env W H Q K Path Img} (he : SameEnv φ ψ ν en en')
    (bpts : List (List Pt)) (frames : OMap Nat (FrameRec Path)) (r : State G Pt (ℝ × ℝ) × OMap (Nat × Nat) (OMap Nat V)) :
    report en' (bpts.map (List.map ψ)) frames (state φ ψ r.1, values (values ν) r.2) =
      result (reports φ ψ ν) (report en bpts frames r) := by
  have hsc : SameScene φ ψ ν (scene en r) (scene en' (state φ ψ r.1, values (values ν) r.2)) :=
    ⟨rfl, rfl, rfl, rfl, he.ofVec, he.model, he.brown, he.kannala⟩
  unfold report
  dsimp only
  have eg : en'.gp = fun i => ν (en.gp i) := funext he.gp
  have ec : en'.camPose = fun i => ν (en.camPose i) := funext he.camPose
  rw [he.zero, eg]
  refine bind_map _ _ (updateAll_map φ ψ ν hsc en.zero) fun gp => ?_
  rw [log_map φ ψ hψ ν hsc, bind_result]
  refine bind_congr' fun log => ?_
  have e1 : detectAll en' (scene en' (state φ ψ r.1, values (values ν) r.2)) frames = detectAll en (scene en r) frames := by
    unfold detectAll
    rw [he.saveDetect, he.cams]
    have : detectCam en' (scene en' (state φ ψ r.1, values (values ν) r.2)) frames = detectCam en (scene en r) frames := by
      funext acc c
      unfold detectCam
      rw [he.colour, he.imread, he.emptyPath, he.save, detection_map φ ψ ν hsc]
    rw [this]
  rw [e1, bind_result]
  refine bind_congr' fun det => ?_
  have e2 : reproAll en' (scene en' (state φ ψ r.1, values (values ν) r.2)) (fun i => ν (gp i)) frames =
      reproAll en (scene en r) gp frames := by
    unfold reproAll
    rw [he.saveRepro, he.cams]
    have : reproCam en' (scene en' (state φ ψ r.1, values (values ν) r.2)) (fun i => ν (gp i)) frames =
        reproCam en (scene en r) gp frames := by
      funext acc c
      unfold reproCam
      rw [he.imread, he.emptyPath, he.save, reprojection_map φ ψ ν hsc]
    rw [this]
  rw [e2, bind_result]
  refine bind_congr' fun rep => ?_
  rw [he.cams]
  refine bind_map _ _ (cameras_map φ en.cams r.1.t.groups) fun cams => ?_
  refine bind_map _ _ (objects_map φ ψ bpts r.1.objs) fun objs => ?_
  rw [errors_map φ ψ hψ ν hsc, bind_result]
  refine bind_congr' fun errs => ?_
  rw [average_map φ ψ hψ ν hsc, bind_result]
  refine bind_congr' fun avg => ?_
  show Outcome.ok _ = Outcome.ok _
  rw [ec]
  have ep : save3DObjPose (state φ ψ r.1).objs (state φ ψ r.1).oo (fun i => ν (en.camPose i)) =
      (save3DObjPose r.1.objs r.1.oo en.camPose).map fun e => (e.1, e.2.map ν) := poses_map φ ψ ν _ _ _
  rw [ep]
  rfl

end Verif.Lemmas.Units
