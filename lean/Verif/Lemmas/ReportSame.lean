import Verif.Lemmas.ProgramSame
import Verif.Model.Finish

/-! The reports do not look at the numbers of board observations; of frames they read the paths of the images. -/
set_option linter.unusedSectionVars false
set_option linter.unusedSimpArgs false
namespace Verif.Lemmas.ReportSame
open Verif Verif.Objects Verif.Groups Verif.Pipeline Verif.Output Verif.Images
open Verif.Spec.Schedule Verif.Lemmas.Schedule Verif.Lemmas.ProgramSame

variable {V G Pt K Path Img : Type}

theorem idx_map {α β γ : Type} (k : α → β) (l : List α) (i : Nat) (f : β → Outcome γ) :
    (Outcome.idx (l.map k) i >>= f) = Outcome.idx l i >>= fun x => f (k x) := by
  unfold Outcome.idx
  rw [List.getElem?_map]
  cases l[i]? <;> rfl

/-- The scene without these numbers. -/
def un (sc : Scene V G Pt) : Scene V G Pt := { sc with oo := sc.oo.map unnumbered }

/-- What is read of a frame. -/
def key (e : Nat × FrameRec Path) : Nat × (Nat → Option Path) := (e.1, OMap.get? e.2.paths)

variable (sc : Scene V G Pt)

theorem updateAll_un (zero : V) (gp : Nat → V) : updateAll (un sc) zero gp = updateAll sc zero gp := by
  have h : updateObs (un sc) zero = updateObs sc zero := by
    funext k gp i
    exact idx_map _ _ _ _
  have h' : updateObjObsPose (un sc) zero = updateObjObsPose sc zero := by
    funext gp e
    unfold updateObjObsPose
    rw [h]
  unfold updateAll
  rw [h']
  rfl

theorem obsErrors_un [Group G] [SMul G Pt] : obsErrors (un sc) = obsErrors sc := by
  funext g f i
  exact idx_map _ _ _ _

theorem saveReprojectionError_un [Group G] [SMul G Pt] : saveReprojectionError (un sc) = saveReprojectionError sc := by
  have h1 : reportObs (un sc) = reportObs sc := by
    funext g f n i
    unfold reportObs
    rw [obsErrors_un]
  have h2 : reportFrame (un sc) = reportFrame sc := by
    funext g st e
    unfold reportFrame
    rw [h1]
    rfl
  have h3 : reportGroup (un sc) = reportGroup sc := by
    funext st e
    unfold reportGroup
    rw [h2]
  unfold saveReprojectionError
  rw [h3]
  rfl

theorem computeAvg_un [Group G] [SMul G Pt] : computeAvgReprojectionError (un sc) = computeAvgReprojectionError sc := by
  have h1 : avgObs (un sc) = avgObs sc := by
    funext g f n i
    unfold avgObs
    rw [obsErrors_un]
  have h2 : avgFrame (un sc) = avgFrame sc := by
    funext g st e
    unfold avgFrame
    rw [h1]
    rfl
  have h3 : avgGroup (un sc) = avgGroup sc := by
    funext st e
    unfold avgGroup
    rw [h2]
  unfold computeAvgReprojectionError
  rw [h3]
  rfl

theorem logAll_un [Group G] [SMul G Pt] : Finish.reproErrorAllCamGroup (un sc) = Finish.reproErrorAllCamGroup sc := by
  have h1 : ReproErr.logObs (un sc) = ReproErr.logObs sc := by
    funext g f acc i
    exact idx_map _ _ _ _
  have h2 : ReproErr.logFrame (un sc) = ReproErr.logFrame sc := by
    funext g acc f
    unfold ReproErr.logFrame
    rw [h1]
    rfl
  have h3 : ReproErr.reproErrorCameraGroup (un sc) = ReproErr.reproErrorCameraGroup sc := by
    funext g
    unfold ReproErr.reproErrorCameraGroup
    rw [h2]
  have h4 : Finish.logGroup (un sc) = Finish.logGroup sc := by
    funext acc e
    unfold Finish.logGroup
    rw [h3]
  unfold Finish.reproErrorAllCamGroup
  rw [h4]
  rfl

variable (en : Finish.Env V G Pt K Path Img) {frames₁ frames₂ : OMap Nat (FrameRec Path)}
  (hf : frames₁.map key = frames₂.map key)

include hf in
theorem foldlM_frames {σ : Type} (f : σ → Nat × FrameRec Path → Outcome σ) (g : σ → Nat × (Nat → Option Path) → Outcome σ)
    (h : ∀ s e, f s e = g s (key e)) (s : σ) : Outcome.foldlM f s frames₁ = Outcome.foldlM f s frames₂ := by
  have : f = fun s e => g s (key e) := by
    funext s e
    exact h s e
  rw [this, ← foldlM_map g key, ← foldlM_map g key]
  exact congrArg (Outcome.foldlM g s) hf

include hf in
theorem detectAll_same : Finish.detectAll en (un sc) frames₁ = Finish.detectAll en sc frames₂ := by
  have h1 : ∀ colour, drawDetection (un sc) colour = drawDetection sc colour := by
    intro colour
    funext c acc i
    exact idx_map _ _ _ _
  have h2 : ∀ colour, detectGroup (un sc) colour = detectGroup sc colour := by
    intro colour
    funext c f acc gi
    unfold detectGroup
    rw [h1]
    rfl
  have h3 : Finish.detectCam en (un sc) frames₁ = Finish.detectCam en sc frames₂ := by
    funext acc c
    unfold Finish.detectCam saveDetectionImages
    congr 1
    have : detectionFrame (un sc) en.colour en.imread en.emptyPath en.save c =
        detectionFrame sc en.colour en.imread en.emptyPath en.save c := by
      funext out e
      unfold detectionFrame
      rw [h2]
      rfl
    rw [this]
    exact foldlM_frames hf _ (fun out e => do
      let circles ← Outcome.foldlM (detectGroup sc en.colour c e.1) [] ((OMap.get? sc.t.frameGroups e.1).getD [])
      pure (write en.save "Detection".toList c e.1 (en.imread ((e.2 c).getD en.emptyPath)) circles out)) (fun _ _ => rfl) _
  unfold Finish.detectAll
  rw [h3]

include hf in
theorem reproAll_same [Group G] (gp : Nat → V) : Finish.reproAll en (un sc) gp frames₁ = Finish.reproAll en sc gp frames₂ := by
  have h1 : drawReprojection (un sc) gp = drawReprojection sc gp := by
    funext c gi acc i
    exact idx_map _ _ _ _
  have h2 : drawGroup (un sc) gp = drawGroup sc gp := by
    funext c f acc gi
    unfold drawGroup
    rw [h1]
    rfl
  have h3 : Finish.reproCam en (un sc) gp frames₁ = Finish.reproCam en sc gp frames₂ := by
    funext acc c
    unfold Finish.reproCam saveReprojectionImages
    congr 1
    have : reprojectionFrame (un sc) gp en.imread en.emptyPath en.save c =
        reprojectionFrame sc gp en.imread en.emptyPath en.save c := by
      funext out e
      unfold reprojectionFrame
      rw [h2]
      rfl
    rw [this]
    exact foldlM_frames hf _ (fun out e => do
      let circles ← Outcome.foldlM (drawGroup sc gp c e.1) [] ((OMap.get? sc.t.frameGroups e.1).getD [])
      pure (write en.save "Reprojection".toList c e.1 (en.imread ((e.2 c).getD en.emptyPath)) circles out)) (fun _ _ => rfl) _
  unfold Finish.reproAll
  rw [h3]

theorem save3DObjPose_un (objs : OMap Nat (Object G Pt)) (oo : List (ObjObs (ℝ × ℝ))) (p : Nat → V) :
    save3DObjPose objs (oo.map unnumbered) p = save3DObjPose objs oo p := by
  unfold save3DObjPose objectPoseColumns
  simp only [List.getElem?_map, List.length_map, Option.any_map]
  rfl

include hf in
theorem report_un [Zero K] [One K] [Group G] [SMul G Pt] (bpts : List (List Pt))
    (r : State G Pt (ℝ × ℝ) × OMap (Nat × Nat) (OMap Nat V)) :
    Finish.report en bpts frames₁ (shownPoses r) = Finish.report en bpts frames₂ r := by
  have hs : Finish.scene en (shownPoses r) = un (Finish.scene en r) := rfl
  unfold Finish.report
  simp only [hs, updateAll_un, logAll_un, detectAll_same _ _ hf, reproAll_same _ _ hf, saveReprojectionError_un, computeAvg_un]
  have : save3DObjPose (shownPoses r).1.objs (shownPoses r).1.oo en.camPose = save3DObjPose r.1.objs r.1.oo en.camPose :=
    save3DObjPose_un _ _ _
  rw [this]
  rfl

include hf in
/-- Reports on tables that are shown alike are the same. -/
theorem report_same [Zero K] [One K] [Group G] [SMul G Pt] (bpts : List (List Pt))
    {r₁ r₂ : State G Pt (ℝ × ℝ) × OMap (Nat × Nat) (OMap Nat V)} (h : shownPoses r₁ = shownPoses r₂) :
    Finish.report en bpts frames₁ r₁ = Finish.report en bpts frames₂ r₂ := by
  rw [← report_un en (frames₁ := frames₂) rfl bpts r₂, ← h, report_un en hf.symm]

end Verif.Lemmas.ReportSame
