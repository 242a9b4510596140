import Verif.Props.IdleReport
import Verif.Props.Agree

/-! C108: where results are saved, and whether images are, does not matter. -/
namespace Verif.Props.Place
open Verif Verif.Structure Verif.Objects Verif.Groups Verif.Pipeline Verif.Folders Verif.Disk Verif.Output Verif.Program
open Verif.Spec.Groups Verif.Spec.Disk Verif.Spec.Objects Verif.Spec.Whole Verif.Spec.Agree Verif.Whole
open Verif.Props.Agree Verif.Lemmas.Agree Verif.Keypoints Verif.Start

variable {V G Pt K K' Q Img : Type} [Group G] [MulAction G Pt] [Inhabited Pt] [Zero K] [One K] [Field K'] [LinearOrder K']
  (u : Setup V G Pt K K' Q Img) (pix : Nat → Pt → ℝ × ℝ)

/-- The configuration with another directory and file name, and other choices of the images to save. -/
def savedTo (save name : Str) (det rp : Int) : Setup V G Pt K K' Q Img :=
  { u with name := name, en := { u.en with save := save, saveDetect := det, saveRepro := rp } }

/-- The images of all cameras, if asked for: for each camera, a file for every frame in which it has a readable image. -/
def imagesOf (u : Setup V G Pt K K' Q Img) (frames : OMap Nat (FrameRec Str)) (kind : Str) (flag : Int)
    (draw : Nat → Nat → List Images.Circle) : List (List (Images.Written Img)) :=
  if flag = 1 then (List.range u.nbCam).map fun c => Spec.Images.files u.en.imread u.en.emptyPath u.en.save kind frames c (draw c)
  else []

/-- C108: if a run ends, so does the run with another directory for the results, another name for the file of cameras and other
choices of the images to save.  It leaves the same files of cameras, objects, object poses, errors and keypoints in the other place,
and in the images the same circles. -/
theorem C108_place (hu : Parts u pix) (l : List (Insertion (ℝ × ℝ) Str)) (d d' : Files V G Pt K Img)
    (hready : Ready u.en.save u.name d)
    (hdet : ∀ k, extract u l d = .ok k → ∀ o ∈ k.store.obs, Usable u.bpts o)
    (hrun : Verif.Whole.run u l d = .ok d') (save' name' : Str) (det rp : Int) (hready' : Ready save' name' d) :
    ∃ rep rep' kp d'', ∃ (frames : OMap Nat (FrameRec Str)) (seen expected : Nat → Nat → List Images.Circle),
      Props.Disk.Written u.en.save u.name rep kp d d' ∧
      Verif.Whole.run (savedTo u save' name' det rp) l d = .ok d'' ∧ Props.Disk.Written save' name' rep' kp d d'' ∧
      rep' = { rep with detections := rep'.detections, reprojections := rep'.reprojections } ∧
      rep.detections = imagesOf u frames "Detection".toList u.en.saveDetect seen ∧
      rep'.detections = imagesOf (savedTo u save' name' det rp) frames "Detection".toList det seen ∧
      rep.reprojections = imagesOf u frames "Reprojection".toList u.en.saveRepro expected ∧
      rep'.reprojections = imagesOf (savedTo u save' name' det rp) frames "Reprojection".toList rp expected := by
  unfold Verif.Whole.run at hrun
  obtain ⟨k, h1, h⟩ := Outcome.bind_eq_ok.1 hrun
  obtain ⟨m, hm⟩ := Verif.Props.WholeSame.extract_history u h1
  have D := (Lemmas.Schedule.describes_of_run hm).1
  have hl := (Props.Store.C06_run_ok_iff u.nbCam u.geoms.length m).1 ⟨_, hm⟩
  obtain ⟨x, r, rep, kp, a1, a2, a3, a4, w, -⟩ := Verif.Props.WholeSame.conclude_written u D hready h
  have hm4 : ∀ a ∈ m, a.obs.pts.length = a.obs.ids.length ∧ 4 ≤ a.obs.pts.length ∧
      ∀ k ∈ a.obs.ids, k < cornerCount u.bpts a.obs.board := by
    intro a ha
    have hU := hdet k h1 a.obs (by rw [D.obs]; exact List.mem_map.2 ⟨a, ha, rfl⟩)
    refine ⟨hU.aligned, hU.four, fun j hj => ?_⟩
    obtain ⟨b, b1, b2⟩ := hU.corners j hj
    unfold cornerCount
    rw [b1]
    exact b2
  obtain ⟨est, e1, e2⟩ := first_obs u hu.refine a1
  obtain ⟨est', f1, f2, f3⟩ := Program.filtered u.nbCam u.geoms.length m hl k.store hm u.bpts hu.boards hm4 u.search hu.search u.e
  rw [e1] at f1
  cases f1
  rw [e2] at a2 a4
  have hS := fun k => (hu.searches k).1
  have hF := fun k => (hu.searches k).2
  by_cases hT : Spec.Program.Thin m (est.map (·.obs))
  · rw [Program.C83_thin u.nbCam u.geoms.length m hl k.store hm _ f2 u.bpts hu.boards f3 u.e hS hF _ hT] at a2
    cases a2
  obtain ⟨poses, -, p1⟩ := Program.C83_run u.nbCam u.geoms.length m hl k.store hm _ f2 u.bpts hu.boards f3 u.e hS hF
    { u.n with boardPose := Program.poseAt (x.1.map (·.pose)) } hT u.fix
  have a2' := a2
  rw [p1] at a2
  obtain ⟨sz, s1, -⟩ := save_inv a4
  have s2 : ∀ c < u.nbCam, (k.sizes[c]?).join = some (sz c) := by
    intro c hc
    exact s1 c (by show c < k.store.cams.length; rw [D.cams_length]; exact hc)
  have hsz : ∀ c < u.nbCam, k.sizes[c]? = some (some (sz c)) := by
    intro c hc
    have := s2 c hc
    cases hx : k.sizes[c]? with
    | none => rw [hx] at this; cases this
    | some y => rw [hx] at this; exact congrArg some this
  have hget : ∀ c < u.nbCam, ∃ cam, (withSizes u.en k.sizes).cams[c]? = some cam ∧ cam.size = some (sz c) := by
    intro c hc
    have h1 : c < u.en.cams.length := by rw [hu.cams]; exact hc
    refine ⟨{ u.en.cams[c] with size := some (sz c) }, ?_, rfl⟩
    show (List.zipWith _ _ _)[c]? = _
    rw [List.getElem?_zipWith, List.getElem?_eq_getElem h1, hsz c hc]
  have hlen : (withSizes u.en k.sizes).cams.length = u.nbCam := by
    show (List.zipWith _ _ _).length = _
    rw [List.length_zipWith, hu.cams, min_eq_left]
    by_contra hlt
    push Not at hlt
    have := hsz k.sizes.length hlt
    rw [List.getElem?_eq_none (Nat.le_refl _)] at this
    cases this
  have hm' : ∀ c < u.nbCam, (withSizes u.en k.sizes).model c = 0 ∨ (withSizes u.en k.sizes).model c = 1 := hu.models
  have hH := Finish.C76_holds u.nbCam u.geoms.length m hl k.store hm _ f2 u.bpts hu.boards _ u.fix r a2 f3 (withSizes u.en k.sizes)
    hm' pix hu.brown hu.kannala
  generalize hrd : Finish.readingOf r (withSizes u.en k.sizes).ofVec pix = rd at hH
  have hdetect : ∀ (sv : Str) (a b : Int),
      Finish.detectAll { withSizes u.en k.sizes with save := sv, saveDetect := a, saveRepro := b } (Finish.scene (withSizes u.en k.sizes) r) k.store.frames =
      .ok (imagesOf (savedTo u sv name' a b) k.store.frames "Detection".toList a fun c => Spec.Images.detections u.en.colour r.1.oo c) := by
    intro sv a b
    unfold Finish.detectAll imagesOf
    by_cases ha : a = 1
    · rw [if_pos ha, if_pos ha]
      show Outcome.foldlM _ [] (List.range (withSizes u.en k.sizes).cams.length) = _
      rw [hlen, Lemmas.Collect.foldlM_append_ok (v := fun c => Spec.Images.files u.en.imread u.en.emptyPath sv "Detection".toList
        k.store.frames c (Spec.Images.detections u.en.colour r.1.oo c))]
      · rfl
      · intro acc c _
        unfold Finish.detectCam
        show (Images.saveDetectionImages _ u.en.colour u.en.imread u.en.emptyPath sv k.store.frames c).bind _ = _
        rw [Images.C65_images hH]
        rfl
    · rw [if_neg ha, if_neg ha]
  unfold Finish.report at a3
  obtain ⟨gp, b1, a3⟩ := Outcome.bind_eq_ok.1 a3
  obtain ⟨log, b2, a3⟩ := Outcome.bind_eq_ok.1 a3
  obtain ⟨dt, b3, a3⟩ := Outcome.bind_eq_ok.1 a3
  obtain ⟨rr, b4, a3⟩ := Outcome.bind_eq_ok.1 a3
  obtain ⟨cams, b5, a3⟩ := Outcome.bind_eq_ok.1 a3
  obtain ⟨objs, b6, a3⟩ := Outcome.bind_eq_ok.1 a3
  obtain ⟨errs, b7, a3⟩ := Outcome.bind_eq_ok.1 a3
  obtain ⟨avg, b8, a3⟩ := Outcome.bind_eq_ok.1 a3
  simp only [Outcome.pure_eq, Outcome.ok.injEq] at a3
  subst a3
  obtain ⟨gp', g1, g2⟩ := Images.C64_poses hH u.en.zero u.en.gp
  have hgp : gp' = gp := Outcome.ok.inj (g1.symm.trans b1)
  subst hgp
  have hrepro : ∀ (sv : Str) (a b : Int),
      Finish.reproAll { withSizes u.en k.sizes with save := sv, saveDetect := a, saveRepro := b } (Finish.scene (withSizes u.en k.sizes) r) gp' k.store.frames =
      .ok (imagesOf (savedTo u sv name' a b) k.store.frames "Reprojection".toList b fun c => Spec.Images.reprojections rd r.1.oo c) := by
    intro sv a b
    unfold Finish.reproAll imagesOf
    by_cases hb : b = 1
    · rw [if_pos hb, if_pos hb]
      show Outcome.foldlM _ [] (List.range (withSizes u.en k.sizes).cams.length) = _
      rw [hlen, Lemmas.Collect.foldlM_append_ok (v := fun c => Spec.Images.files u.en.imread u.en.emptyPath sv "Reprojection".toList
        k.store.frames c (Spec.Images.reprojections rd r.1.oo c))]
      · rfl
      · intro acc c _
        unfold Finish.reproCam
        show (Images.saveReprojectionImages _ gp' u.en.imread u.en.emptyPath sv k.store.frames c).bind _ = _
        rw [Images.C64_images hH g2]
        rfl
    · rw [if_neg hb, if_neg hb]
  have o3 := hdetect u.en.save u.en.saveDetect u.en.saveRepro
  have o4 := hrepro u.en.save u.en.saveDetect u.en.saveRepro
  have hdt := Outcome.ok.inj (b3.symm.trans o3)
  have hrr := Outcome.ok.inj (b4.symm.trans o4)
  have hrep' : Finish.report (withSizes (savedTo u save' name' det rp).en k.sizes) u.bpts k.store.frames r = .ok
      { log := log, detections := imagesOf (savedTo u save' name' det rp) k.store.frames "Detection".toList det fun c => Spec.Images.detections u.en.colour r.1.oo c
        reprojections := imagesOf (savedTo u save' name' det rp) k.store.frames "Reprojection".toList rp fun c => Spec.Images.reprojections rd r.1.oo c
        cameras := cams, objects := objs, poses := Output.save3DObjPose r.1.objs r.1.oo u.en.camPose, errors := errs, average := avg } := by
    unfold Finish.report
    show (Images.updateAll (Finish.scene (withSizes u.en k.sizes) r) u.en.zero u.en.gp).bind _ = _
    rw [g1]
    show (Finish.reproErrorAllCamGroup (Finish.scene (withSizes u.en k.sizes) r)).bind _ = _
    rw [b2]
    show (Finish.detectAll { withSizes u.en k.sizes with save := save', saveDetect := det, saveRepro := rp } (Finish.scene (withSizes u.en k.sizes) r) k.store.frames).bind _ = _
    rw [hdetect]
    show (Finish.reproAll { withSizes u.en k.sizes with save := save', saveDetect := det, saveRepro := rp } (Finish.scene (withSizes u.en k.sizes) r) gp' k.store.frames).bind _ = _
    rw [hrepro]
    show (Output.saveCamerasParams (withSizes u.en k.sizes).cams r.1.t.groups).bind _ = _
    rw [b5]
    show (Output.save3DObj u.bpts r.1.objs).bind _ = _
    rw [b6]
    show (Output.saveReprojectionError (Finish.scene (withSizes u.en k.sizes) r)).bind _ = _
    rw [b7]
    show (Output.computeAvgReprojectionError (Finish.scene (withSizes u.en k.sizes) r)).bind _ = _
    rw [b8]
    rfl
  obtain ⟨q1, q2⟩ := Lemmas.ReportShaped.report_shaped (OMap.keys_nodup D.frames_sorted) hrep'
  obtain ⟨d'', e3, e4⟩ := Props.Disk.C82_written (name := name') kp hready'.sound hready'.clear q1 q2 hready'.free hready'.name
    (hready'.place.imp_right Or.inl)
  refine ⟨_, _, kp, d'', k.store.frames, _, _, w, ?_, e4, rfl, hdt, rfl, hrr, rfl⟩
  unfold Verif.Whole.run
  show (extract u l d).bind _ = _
  rw [h1]
  show (ReproErr.initIntrinsic u.search u.e.garbage u.bpts k.store.obs u.refine u.pr).bind _ = _
  rw [a1]
  show (Program.run u.e { u.n with boardPose := poseAt (x.1.map (·.pose)) } u.fix u.bpts k.store (x.1.map (·.obs))).bind _ = _
  rw [e2, a2']
  show (Finish.report (withSizes (savedTo u save' name' det rp).en k.sizes) u.bpts k.store.frames r).bind _ = _
  rw [hrep']
  show (save ⟨{ k.store with obs := est.map (·.obs) }, k.sizes⟩).bind _ = _
  rw [a4]
  exact e3

end Verif.Props.Place
