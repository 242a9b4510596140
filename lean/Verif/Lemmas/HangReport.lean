import Verif.Lemmas.HangRun
import Verif.Model.Whole
import Verif.Spec.Steady

set_option linter.unusedSectionVars false
namespace Verif.Hang
open Spec.Hang Verif.Structure Objects Groups GroupPose NonOverlap Pipeline Ransac Program

variable {V G Pt K K' P Path Img Q : Type} [Group G] [SMul G Pt]

/-! ### Pose estimation -/

theorem scenePoints_ends {P3 : Type} (m : List P3) (ids : List Nat) : Ends (scenePoints m ids) :=
  fold (fun _ _ _ => bind (idx _ _) fun _ _ => pure' _) _

theorem estimateAllBoards_ends {P2 P3 Pose : Type} {search : Search P3 P2 Pose} (hs : ∀ n c ps qs, Ends (search n c ps qs))
    (g : Pose) (bpts : List (List P3)) (obs : List (BoardObs P2)) : Ends (estimateAllBoards search g bpts obs) :=
  fold (fun _ _ _ => bind (idx _ _) fun _ _ => bind
    (bind (scenePoints_ends _ _) fun _ _ => bind (hs _ _ _ _) fun _ _ =>
      bind (fold (fun _ _ _ => bind (idx _ _) fun _ _ => bind (idx _ _) fun _ _ => pure' _) _) fun _ _ => pure' _)
    fun _ _ => pure' _) _

theorem estimateAllObjects_ends {P2 P3 Pose : Type} {search : Search P3 P2 Pose}
    (hs : ∀ n c ps qs, Ends (search n c ps qs)) (g : Pose) (objs : OMap Nat (Object G P3)) (oo : List (ObjObs P2)) :
    Ends (estimateAllObjects search g objs oo) :=
  fold (fun _ _ _ => bind (deref _) fun _ _ => bind
    (bind (scenePoints_ends _ _) fun _ _ => bind (hs _ _ _ _) fun _ _ => pure' _) fun _ _ => pure' _) _

theorem initIntrinsic_ends [Field K] [LinearOrder K] {P2 Pose : Type} {search : Search Pt P2 Pose}
    (hs : ∀ n c ps qs, Ends (search n c ps qs)) (g : Pose) (bpts : List (List Pt)) (obs : List (BoardObs P2))
    {refine' : Option (List (Estimated P2 Pose) → Outcome (List (Estimated P2 Pose) × ReproErr.Projection P2 Pose Pt K))}
    (hr : ∀ f, refine' = some f → ∀ l, Ends (f l) ∧ ∀ x, f l = .ok x → Projects x.2)
    {pr : ReproErr.Projection P2 Pose Pt K} (hp : Projects pr) :
    Ends (ReproErr.initIntrinsic search g bpts obs refine' pr) := by
  unfold ReproErr.initIntrinsic
  refine bind (estimateAllBoards_ends hs _ _ _) fun est _ => ?_
  have h1 : Ends (ReproErr.refineStep refine' est pr) ∧ ∀ x, ReproErr.refineStep refine' est pr = .ok x → Projects x.2 := by
    unfold ReproErr.refineStep
    cases refine' with
    | none => exact ⟨ok _, fun x hx => by cases hx; exact hp⟩
    | some f => exact hr f rfl est
  refine bind h1.1 fun x hx => bind ?_ fun _ _ => pure' _
  unfold ReproErr.computeReproErrAllBoard
  refine fold (fun acc e _ => ?_) _
  unfold ReproErr.boardErrorStep ReproErr.obsError
  refine bind (idx _ _) fun _ _ => bind (bind (scenePoints_ends _ _) fun _ _ => bind ?_ fun _ _ => ?_) fun _ _ => pure' _
  · unfold ReproErr.project
    have := h1.2 x hx
    split
    · exact this.brown ..
    · split
      · exact this.kannala ..
      · exact ok _
  · unfold ReproErr.errorSum
    refine fold (fun _ _ _ => ?_) _
    unfold ReproErr.errorStep
    ends

/-! ### The whole calibration with its pose estimations -/

theorem mergeStage_all_ends {e : Estimator Pt P G} (he : ∀ j n c ps qs, Ends (e.search j n c ps qs)) (n : Numerics V G)
    (k j : Nat) (bpts : List (List Pt)) (s : Store P Path) (obs : List (BoardObs P)) (st : State G Pt P) :
    Ends (Program.mergeStage e n k j bpts s obs st) := by
  unfold Program.mergeStage
  exact bind (estimateAllObjects_ends (he _) ..) fun _ _ => bind (joinObjects_ends ..) fun _ _ =>
      bind (estimateAllObjects_ends (he _) ..) fun _ _ => bind (refineAll_ends ..) fun _ _ => pure' _

theorem overlapping_all_ends {e : Estimator Pt P G} (he : ∀ j n c ps qs, Ends (e.search j n c ps qs)) (n : Numerics V G)
    (bpts : List (List Pt)) (s : Store P Path) (obs : List (BoardObs P)) :
    Ends (Program.overlapping e n bpts s obs) := by
  unfold Program.overlapping
  refine bind ?_ fun _ _ => bind (calibrateGroups_ends ..) fun _ _ => mergeStage_all_ends he ..
  unfold Program.calibrateObjects
  exact bind (buildObjects_ends ..) fun _ _ => bind (initAllObjectObs_ends ..) fun _ _ =>
    bind (estimateAllObjects_ends (he _) ..) fun _ _ => bind (refineObjects_ends ..) fun _ _ => pure' _

theorem merging_all_ends {e : Estimator Pt P G} (he : ∀ j n c ps qs, Ends (e.search j n c ps qs)) {n : Numerics V G}
    (hhe : ∀ l, Ends (n.he l)) (fix : Int) (bpts : List (List Pt)) (s : Store P Path) (obs : List (BoardObs P))
    (st : State G Pt P) (pose : Nat → G) : Ends (Program.merging e n fix bpts s obs st pose) := by
  unfold Program.merging
  refine bind (nonOverlapping_ends (withPoses n fun _ => pose) hhe _) fun pp hpp => ?_
  have h2 : Two pp := findPoses_two hpp
  refine bind (mergeGroups1_ends n s h2 _) fun _ _ => bind (mergeStage_all_ends he ..) fun _ _ =>
    bind (mergeGroups2_ends n s h2 _) fun _ _ => ?_
  unfold Program.finalStage
  exact bind (estimateAllObjects_ends (he _) ..) fun _ _ => finalStage_ends ..

theorem run_all_ends {e : Estimator Pt P G} (he : ∀ j n c ps qs, Ends (e.search j n c ps qs)) {n : Numerics V G}
    (hhe : ∀ l, Ends (n.he l)) (fix : Int) (bpts : List (List Pt)) (s : Store P Path) (obs : List (BoardObs P)) :
    Ends (Program.run e n fix bpts s obs) := by
  unfold Program.run
  exact bind (overlapping_all_ends he ..) fun _ _ => merging_all_ends he hhe ..

/-! ### The reports -/

section
variable {sc : Output.Scene V G Pt}

/-- Projections of the reports that end. -/
structure Shows (sc : Output.Scene V G Pt) : Prop where
  brown : ∀ c p l, Ends (sc.projBrown c p l)
  kannala : ∀ c p l, Ends (sc.projKannala c p l)

theorem project_ends (h : Shows sc) (c : Nat) (p : G) (l : List Pt) : Ends (Output.project sc c p l) := by
  unfold Output.project
  split
  · exact h.brown ..
  · split
    · exact h.kannala ..
    · exact ok _

theorem points_ends (o : Object G Pt) (acc : List Pt) (ids : List Nat) :
    Ends (Outcome.foldlM (Output.pointStep o) acc ids) :=
  fold (fun _ _ _ => bind (idx _ _) fun _ _ => pure' _) _

theorem obsErrors_ends (h : Shows sc) (g : CamGroup G) (f i : Nat) : Ends (Output.obsErrors sc g f i) :=
  bind (idx _ _) fun _ _ => bind (deref _) fun _ _ => bind (points_ends ..) fun _ _ =>
    bind (project_ends h ..) fun _ _ => bind
      (fold (fun _ _ _ => bind (idx _ _) fun _ _ => bind (idx _ _) fun _ _ => pure' _) _) fun _ _ => pure' _

theorem updateAll_ends (zero : V) (gp : Nat → V) : Ends (Images.updateAll sc zero gp) :=
  fold (fun _ _ _ => fold (fun _ _ _ => bind (idx _ _) fun _ _ => pure' _) _) _

theorem log_ends (h : Shows sc) : Ends (Finish.reproErrorAllCamGroup sc) :=
  fold (fun _ _ _ => bind (fold (fun _ _ _ => fold (fun _ _ _ =>
    bind (idx _ _) fun _ _ => bind (deref _) fun _ _ => bind (points_ends ..) fun _ _ =>
      bind (project_ends h ..) fun _ _ => bind
        (fold (fun _ _ _ => bind (idx _ _) fun _ _ => bind (idx _ _) fun _ _ => pure' _) _) fun _ _ => pure' _) _) _)
    fun _ _ => pure' _) _

theorem drawDetection_ends (colour : Nat → Int × Int × Int) (c : Nat) (acc) (i : Nat) :
    Ends (Images.drawDetection sc colour c acc i) := by
  unfold Images.drawDetection
  refine bind (idx _ _) fun _ _ => ?_
  ends

theorem detectAll_ends (en : Finish.Env V G Pt K Path Img) (frames : OMap Nat (FrameRec Path)) :
    Ends (Finish.detectAll en sc frames) := by
  unfold Finish.detectAll
  split
  · exact fold (fun _ _ _ => bind (fold (fun _ _ _ => bind (fold (fun _ _ _ => fold (fun _ _ _ =>
      drawDetection_ends ..) _) _) fun _ _ => pure' _) _) fun _ _ => pure' _) _
  · exact ok _

theorem drawReprojection_ends (h : Shows sc) (gp : Nat → V) (c gi : Nat) (acc) (i : Nat) :
    Ends (Images.drawReprojection sc gp c gi acc i) := by
  unfold Images.drawReprojection
  refine bind (idx _ _) fun _ _ => ?_
  split
  · split
    · exact bind (points_ends ..) fun _ _ => bind (project_ends h ..) fun _ _ => fold (fun _ _ _ =>
        bind (idx _ _) fun _ _ => bind (idx _ _) fun _ _ => pure' _) _
    · exact pure' _
  · exact pure' _

theorem reproAll_ends (h : Shows sc) (en : Finish.Env V G Pt K Path Img) (gp : Nat → V) (frames : OMap Nat (FrameRec Path)) :
    Ends (Finish.reproAll en sc gp frames) := by
  unfold Finish.reproAll
  split
  · exact fold (fun _ _ _ => bind (fold (fun _ _ _ => bind (fold (fun _ _ _ => fold (fun _ _ _ =>
      drawReprojection_ends h ..) _) _) fun _ _ => pure' _) _) fun _ _ => pure' _) _
  · exact ok _

theorem saveCamerasParams_ends [Zero K] [One K] (cams : List (Output.CamData K)) (gs : OMap Nat (CamGroup G)) :
    Ends (Output.saveCamerasParams cams gs) := by
  refine bind (fold (fun _ _ _ => bind (fold (fun _ _ _ => ?_) _) fun _ _ => pure' _) _) fun _ _ => pure' _
  unfold Output.saveCamera
  ends

theorem save3DObj_ends (bpts : List (List Pt)) (objs : OMap Nat (Object G Pt)) : Ends (Output.save3DObj bpts objs) := by
  refine bind (fold (fun _ _ _ => bind (bind (fold (fun _ _ _ => ?_) _) fun _ _ => pure' _) fun _ _ => pure' _) _)
    fun _ _ => pure' _
  unfold Output.saveBoard
  split
  · exact ok _
  · exact fold (fun _ _ _ => bind (idx _ _) fun _ _ => bind (idx _ _) fun _ _ => pure' _) _

theorem errors_ends (h : Shows sc) : Ends (Output.saveReprojectionError sc) :=
  bind (fold (fun _ _ _ => bind (fold (fun _ _ _ => bind (fold (fun _ _ _ => bind (obsErrors_ends h ..) fun _ _ =>
    pure' _) _) fun _ _ => pure' _) _) fun _ _ => pure' _) _) fun _ _ => pure' _

theorem average_ends (h : Shows sc) : Ends (Output.computeAvgReprojectionError sc) :=
  bind (fold (fun _ _ _ => fold (fun _ _ _ => fold (fun _ _ _ => bind (obsErrors_ends h ..) fun _ _ => pure' _) _) _) _)
    fun _ _ => pure' _

end

theorem shows {en : Finish.Env V G Pt K Path Img} (h : Draws en) (r) : Shows (Finish.scene en r) := ⟨h.brown, h.kannala⟩

theorem report_ends [Zero K] [One K] {en : Finish.Env V G Pt K Path Img} (h : Draws en) (bpts : List (List Pt))
    (frames : OMap Nat (FrameRec Path)) (r) : Ends (Finish.report en bpts frames r) :=
  bind (updateAll_ends ..) fun _ _ => bind (log_ends (shows h r)) fun _ _ => bind (detectAll_ends ..) fun _ _ =>
    bind (reproAll_ends (shows h r) ..) fun _ _ => bind (saveCamerasParams_ends ..) fun _ _ =>
    bind (save3DObj_ends ..) fun _ _ => bind (errors_ends (shows h r)) fun _ _ =>
    bind (average_ends (shows h r)) fun _ _ => pure' _

end Verif.Hang
