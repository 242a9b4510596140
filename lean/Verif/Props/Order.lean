import Verif.Lemmas.Order

/-! C90: a run in the order of the code, and what it leaves when it fails. -/
namespace Verif.Props.Order
open Verif Verif.Folders Verif.Start Verif.Disk Verif.Crash Verif.Order Verif.Order.Act Verif.Whole Verif.Spec.Disk Verif.Spec.Order
open Verif.Spec.Whole Verif.Spec.Crash
open Verif.Props.Crash Verif.Lemmas.Disk Verif.Lemmas.Order

variable {V G Pt K Img K' Q : Type} [Group G] [SMul G Pt] [Field K'] [LinearOrder K'] [Zero K] [One K]
    (u : Setup V G Pt K K' Q Img) (half : Str → Content V G Pt K Img (KeyFile (ℝ × ℝ) Str)) (l : List (Insertion (ℝ × ℝ) Str))

/-! ### What is read does not depend on the output directory -/

omit [Group G] [SMul G Pt] [Field K'] [LinearOrder K'] [Zero K] [One K] in
theorem extract_within {D F : Loc → Prop} {d dk : Files V G Pt K Img} (h : Within D F d dk)
    (hkey : u.keypoints = [] ∨ u.keypoints = "None".toList ∨ ¬ F (loc u.keypoints) ∧ ¬ D (loc u.keypoints)) :
    extract u l dk = extract u l d := by
  unfold extract boardExtraction
  rcases hkey with hkey | hkey | ⟨h1, h2⟩
  · rw [if_neg (fun h => h.1 hkey), if_neg (fun h => h.1 hkey)]
  · rw [if_neg (fun h => h.2.1 hkey), if_neg (fun h => h.2.1 hkey)]
  · have hd : dk.dir (loc u.keypoints) = d.dir (loc u.keypoints) := by
      rw [Bool.eq_iff_iff]
      exact ⟨fun hx => (h.newDirs _ hx).resolve_right h2, h.dirs _⟩
    have hf := h.others _ h1
    have hh : dk.has u.keypoints = d.has u.keypoints := by
      unfold Disk.has
      rw [hd, hf]
    have hl : Whole.load u dk u.keypoints = Whole.load u d u.keypoints := by
      unfold Whole.load readKeypoints
      rw [hf]
    rw [hh, hl]

/-- The output directory and those on the way to it. -/
def Way (save : Str) (x : Loc) : Prop := ∃ k, x = ⟨(loc save).abs, (loc save).names.take k⟩

theorem stays_save {C : Type} (save : Str) : Stays (Way save) (fun _ => False) (ensure save : Act (Disk C) Unit) :=
  Stays.ensure fun k => ⟨k, rfl⟩

omit [Group G] [SMul G Pt] [Field K'] [LinearOrder K'] [Zero K] [One K] in
theorem extract_ensure (hkey : Apart u.en.save u.keypoints) {d : Files V G Pt K Img} (hs : Sound d) :
    extract u l (ensure u.en.save d).1 = extract u l d := by
  refine extract_within u l (stays_save u.en.save d hs) ?_
  rcases hkey with h | h | h
  · exact .inl h
  · exact .inr (.inl h)
  · exact .inr (.inr ⟨id, fun ⟨k, hk⟩ => h k hk⟩)

/-! ### Complete runs -/

theorem saveImages_iff (k : KStore (ℝ × ℝ) Str) (s : Found V G Pt) {d d' : Files V G Pt K Img} :
    Order.saveImages u k s d = (d', .ok ()) ↔ ∃ det rep dm,
      Finish.detectAll (withSizes u.en k.sizes) (Finish.scene (withSizes u.en k.sizes) s.r) k.store.frames = .ok det ∧
      Finish.reproAll (withSizes u.en k.sizes) (Finish.scene (withSizes u.en k.sizes) s.r) s.gp k.store.frames = .ok rep ∧
      Disk.saveImages u.en.save "Detection".toList d det = .ok dm ∧ Disk.saveImages u.en.save "Reprojection".toList dm rep = .ok d' := by
  unfold Order.saveImages
  rw [bind_ok]
  constructor
  · rintro ⟨dm, _, h1, h2⟩
    obtain ⟨det, h3, h4⟩ := (detections_ok _ _ _).1 h1
    obtain ⟨rep, h5, h6⟩ := (reprojections_ok _ _ _ _).1 h2
    exact ⟨det, rep, dm, h3, h5, h4, h6⟩
  · rintro ⟨det, rep, dm, h3, h5, h4, h6⟩
    exact ⟨dm, (), (detections_ok _ _ _).2 ⟨det, h3, h4⟩, (reprojections_ok _ _ _ _).2 ⟨rep, h5, h6⟩⟩

theorem saveReports_iff (k : KStore (ℝ × ℝ) Str) (s : Found V G Pt) {d d' : Files V G Pt K Img} :
    saveReports u half k s d = (d', .ok ()) ↔ ∃ cams objs errs,
      Output.saveCamerasParams (withSizes u.en k.sizes).cams s.r.1.t.groups = .ok cams ∧
      Output.save3DObj u.bpts s.r.1.objs = .ok objs ∧
      Output.saveReprojectionError (Finish.scene (withSizes u.en k.sizes) s.r) = .ok errs ∧
      d' = write (write (write (write d (cameraFile u.en.save u.name) (.cameras cams)) (objectFile u.en.save) (.objects objs))
        (poseFile u.en.save) (.poses (Output.save3DObjPose s.r.1.objs s.r.1.oo u.en.camPose))) (errorFile u.en.save) (.errors errs) := by
  unfold saveReports
  constructor
  · intro h
    obtain ⟨d1, _, h1, h⟩ := bind_ok.1 h
    obtain ⟨d2, _, h2, h⟩ := bind_ok.1 h
    obtain ⟨d3, _, h3, h⟩ := bind_ok.1 h
    obtain ⟨c1, e1, rfl⟩ := saveFile_ok.1 h1
    obtain ⟨c2, e2, rfl⟩ := saveFile_ok.1 h2
    obtain ⟨c3, e3, rfl⟩ := saveFile_ok.1 h3
    obtain ⟨c4, e4, rfl⟩ := saveFile_ok.1 h
    obtain ⟨cams, a1, e1⟩ := Outcome.bind_eq_ok.1 e1
    obtain ⟨objs, a2, e2⟩ := Outcome.bind_eq_ok.1 e2
    obtain ⟨errs, a3, e4⟩ := Outcome.bind_eq_ok.1 e4
    cases e1
    cases e2
    cases e3
    cases e4
    exact ⟨cams, objs, errs, a1, a2, a3, rfl⟩
  · rintro ⟨cams, objs, errs, a1, a2, a3, rfl⟩
    refine bind_ok.2 ⟨_, (), saveFile_ok.2 ⟨.cameras cams, ?_, rfl⟩, bind_ok.2 ⟨_, (), saveFile_ok.2 ⟨.objects objs, ?_, rfl⟩,
      bind_ok.2 ⟨_, (), saveFile_ok.2 ⟨_, rfl, rfl⟩, saveFile_ok.2 ⟨.errors errs, ?_, rfl⟩⟩⟩⟩
    · rw [a1]; rfl
    · rw [a2]; rfl
    · rw [a3]; rfl

theorem saveLast_iff (k : KStore (ℝ × ℝ) Str) (s : Found V G Pt) {d d' : Files V G Pt K Img} :
    saveLast u half k s d = (d', .ok ()) ↔ ∃ avg kp,
      Output.computeAvgReprojectionError (Finish.scene (withSizes u.en k.sizes) s.r) = .ok avg ∧
      keyFile k s.obs = .ok kp ∧ d' = write d (keypointFile u.en.save) (.keypoints kp) := by
  unfold saveLast
  constructor
  · intro h
    obtain ⟨d1, avg, h1, h⟩ := bind_ok.1 h
    obtain ⟨h2, e1⟩ := compute_ok.1 h1
    rw [e1] at h
    obtain ⟨c, e, rfl⟩ := saveFile_ok.1 h
    obtain ⟨kp, a, e⟩ := Outcome.bind_eq_ok.1 e
    cases e
    exact ⟨avg, kp, h2, a, rfl⟩
  · rintro ⟨avg, kp, h1, h2, rfl⟩
    refine bind_ok.2 ⟨d, avg, compute_ok.2 ⟨h1, rfl⟩, saveFile_ok.2 ⟨.keypoints kp, ?_, rfl⟩⟩
    rw [h2]
    rfl

/-- The reports. -/
theorem report_iff (en : Finish.Env V G Pt K Str Img) (bpts : List (List Pt)) (frames : OMap Nat (FrameRec Str))
    (r : Pipeline.State G Pt (ℝ × ℝ) × OMap (Nat × Nat) (OMap Nat V)) (rp : Finish.Reports V G Pt K Img) :
    Finish.report en bpts frames r = .ok rp ↔ ∃ gp log det rep cams objs errs avg,
      Images.updateAll (Finish.scene en r) en.zero en.gp = .ok gp ∧ Finish.reproErrorAllCamGroup (Finish.scene en r) = .ok log ∧
      Finish.detectAll en (Finish.scene en r) frames = .ok det ∧ Finish.reproAll en (Finish.scene en r) gp frames = .ok rep ∧
      Output.saveCamerasParams en.cams r.1.t.groups = .ok cams ∧ Output.save3DObj bpts r.1.objs = .ok objs ∧
      Output.saveReprojectionError (Finish.scene en r) = .ok errs ∧
      Output.computeAvgReprojectionError (Finish.scene en r) = .ok avg ∧
      rp = ⟨log, det, rep, cams, objs, Output.save3DObjPose r.1.objs r.1.oo en.camPose, errs, avg⟩ := by
  unfold Finish.report
  constructor
  · intro h'
    obtain ⟨gp, a3, h'⟩ := Outcome.bind_eq_ok.1 h'
    obtain ⟨log, a4, h'⟩ := Outcome.bind_eq_ok.1 h'
    obtain ⟨det, a5, h'⟩ := Outcome.bind_eq_ok.1 h'
    obtain ⟨rep, a6, h'⟩ := Outcome.bind_eq_ok.1 h'
    obtain ⟨cams, a7, h'⟩ := Outcome.bind_eq_ok.1 h'
    obtain ⟨objs, a8, h'⟩ := Outcome.bind_eq_ok.1 h'
    obtain ⟨errs, a9, h'⟩ := Outcome.bind_eq_ok.1 h'
    obtain ⟨avg, a10, h'⟩ := Outcome.bind_eq_ok.1 h'
    exact ⟨gp, log, det, rep, cams, objs, errs, avg, a3, a4, a5, a6, a7, a8, a9, a10, (Outcome.ok.inj h').symm⟩
  · rintro ⟨gp, log, det, rep, cams, objs, errs, avg, a3, a4, a5, a6, a7, a8, a9, a10, e⟩
    exact Outcome.bind_eq_ok.2 ⟨gp, a3, Outcome.bind_eq_ok.2 ⟨log, a4, Outcome.bind_eq_ok.2 ⟨det, a5,
      Outcome.bind_eq_ok.2 ⟨rep, a6, Outcome.bind_eq_ok.2 ⟨cams, a7, Outcome.bind_eq_ok.2 ⟨objs, a8, Outcome.bind_eq_ok.2 ⟨errs, a9,
      Outcome.bind_eq_ok.2 ⟨avg, a10, congrArg Outcome.ok e.symm⟩⟩⟩⟩⟩⟩⟩⟩

theorem results_bind (k : KStore (ℝ × ℝ) Str) (q : Finish.Reports V G Pt K Img × KeyFile (ℝ × ℝ) Str) :
    results u k = .ok q ↔ ∃ x r,
      ReproErr.initIntrinsic u.search u.e.garbage u.bpts k.store.obs u.refine u.pr = .ok x ∧
      Program.run u.e { u.n with boardPose := Program.poseAt (x.1.map (·.pose)) } u.fix u.bpts k.store (x.1.map (·.obs)) = .ok r ∧
      Finish.report (withSizes u.en k.sizes) u.bpts k.store.frames r = .ok q.1 ∧
      keyFile k (x.1.map (·.obs)) = .ok q.2 := by
  unfold results
  constructor
  · intro h
    obtain ⟨x, a1, h⟩ := Outcome.bind_eq_ok.1 h
    obtain ⟨r, a2, h⟩ := Outcome.bind_eq_ok.1 h
    obtain ⟨rp, a3, h⟩ := Outcome.bind_eq_ok.1 h
    obtain ⟨kp, a4, h⟩ := Outcome.bind_eq_ok.1 h
    have e := Outcome.ok.inj h
    exact ⟨x, r, a1, a2, by rw [a3, ← e], by unfold keyFile; rw [a4, ← e]⟩
  · rintro ⟨x, r, a1, a2, a3, a4⟩
    exact Outcome.bind_eq_ok.2 ⟨x, a1, Outcome.bind_eq_ok.2 ⟨r, a2, Outcome.bind_eq_ok.2 ⟨q.1, a3, Outcome.bind_eq_ok.2 ⟨q.2, a4, rfl⟩⟩⟩⟩

theorem calibrate_iff (k : KStore (ℝ × ℝ) Str) (s : Found V G Pt) :
    calibrate u k = .ok s ↔ ∃ x,
      ReproErr.initIntrinsic u.search u.e.garbage u.bpts k.store.obs u.refine u.pr = .ok x ∧
      Program.run u.e { u.n with boardPose := Program.poseAt (x.1.map (·.pose)) } u.fix u.bpts k.store (x.1.map (·.obs)) = .ok s.r ∧
      Images.updateAll (Finish.scene (withSizes u.en k.sizes) s.r) u.en.zero u.en.gp = .ok s.gp ∧
      Finish.reproErrorAllCamGroup (Finish.scene (withSizes u.en k.sizes) s.r) = .ok s.log ∧ s.obs = x.1.map (·.obs) := by
  unfold calibrate
  constructor
  · intro h
    obtain ⟨x, a1, h⟩ := Outcome.bind_eq_ok.1 h
    obtain ⟨r, a2, h⟩ := Outcome.bind_eq_ok.1 h
    obtain ⟨gp, a3, h⟩ := Outcome.bind_eq_ok.1 h
    obtain ⟨log, a4, h⟩ := Outcome.bind_eq_ok.1 h
    have e := Outcome.ok.inj h
    rw [← e]
    exact ⟨x, a1, a2, a3, a4, rfl⟩
  · rintro ⟨x, a1, a2, a3, a4, e⟩
    refine Outcome.bind_eq_ok.2 ⟨x, a1, Outcome.bind_eq_ok.2 ⟨s.r, a2, Outcome.bind_eq_ok.2 ⟨s.gp, a3, Outcome.bind_eq_ok.2 ⟨s.log, a4, ?_⟩⟩⟩⟩
    rw [← e]
    rfl

/-- What there is to write, after calibration. -/
structure Computed (k : KStore (ℝ × ℝ) Str) (s : Found V G Pt) (q : Finish.Reports V G Pt K Img × KeyFile (ℝ × ℝ) Str) : Prop where
  detections : Finish.detectAll (withSizes u.en k.sizes) (Finish.scene (withSizes u.en k.sizes) s.r) k.store.frames = .ok q.1.detections
  reprojections : Finish.reproAll (withSizes u.en k.sizes) (Finish.scene (withSizes u.en k.sizes) s.r) s.gp k.store.frames =
    .ok q.1.reprojections
  cameras : Output.saveCamerasParams (withSizes u.en k.sizes).cams s.r.1.t.groups = .ok q.1.cameras
  objects : Output.save3DObj u.bpts s.r.1.objs = .ok q.1.objects
  poses : q.1.poses = Output.save3DObjPose s.r.1.objs s.r.1.oo u.en.camPose
  errors : Output.saveReprojectionError (Finish.scene (withSizes u.en k.sizes) s.r) = .ok q.1.errors
  average : Output.computeAvgReprojectionError (Finish.scene (withSizes u.en k.sizes) s.r) = .ok q.1.average
  keypoints : keyFile k s.obs = .ok q.2

set_option maxHeartbeats 2000000 in
theorem computed_of_results {k : KStore (ℝ × ℝ) Str} {q : Finish.Reports V G Pt K Img × KeyFile (ℝ × ℝ) Str}
    (h : results u k = .ok q) : ∃ s, calibrate u k = .ok s ∧ s.log = q.1.log ∧ Computed u k s q := by
  obtain ⟨x, r, a1, a2, h, a11⟩ := (results_bind u k q).1 h
  obtain ⟨gp, log, det, rep, cams, objs, errs, avg, a3, a4, a5, a6, a7, a8, a9, a10, e⟩ := (report_iff _ _ _ _ _).1 h
  exact ⟨⟨x.1.map (·.obs), r, gp, log⟩, (calibrate_iff u k _).2 ⟨x, a1, a2, a3, a4, rfl⟩, by rw [e],
    by rw [e]; exact a5, by rw [e]; exact a6, by rw [e]; exact a7, by rw [e]; exact a8, by rw [e]; rfl, by rw [e]; exact a9,
    by rw [e]; exact a10, a11⟩

theorem results_of_computed {k : KStore (ℝ × ℝ) Str} {q : Finish.Reports V G Pt K Img × KeyFile (ℝ × ℝ) Str} {s : Found V G Pt}
    (h : calibrate u k = .ok s) (hl : s.log = q.1.log) (hc : Computed u k s q) : results u k = .ok q := by
  obtain ⟨x, a1, a2, a3, a4, e⟩ := (calibrate_iff u k s).1 h
  have hk := hc.keypoints
  rw [e] at hk
  refine (results_bind u k q).2 ⟨x, s.r, a1, a2, (report_iff _ _ _ _ _).2 ⟨s.gp, s.log, q.1.detections, q.1.reprojections, q.1.cameras,
    q.1.objects, q.1.errors, q.1.average, a3, a4, hc.detections, hc.reprojections, hc.cameras, hc.objects, hc.errors, hc.average, ?_⟩, hk⟩
  rw [hl]
  rw [show (withSizes u.en k.sizes).camPose = u.en.camPose from rfl, ← hc.poses]

/-- C90: a run in the order of the code ends normally just when computing everything first and then writing it does, and
then it leaves the same files. -/
theorem C90_complete (hkey : Apart u.en.save u.keypoints) {d d' : Files V G Pt K Img} (hs : Sound d) :
    workflow u half l d = (d', .ok ()) ↔ Verif.Whole.run u l d = .ok d' := by
  unfold workflow Verif.Whole.run
  constructor
  · intro h
    obtain ⟨d1, _, h1, h⟩ := bind_ok.1 h
    obtain ⟨d2, k, h2, h⟩ := bind_ok.1 h
    obtain ⟨d3, s, h3, h⟩ := bind_ok.1 h
    obtain ⟨d4, _, h4, h⟩ := bind_ok.1 h
    obtain ⟨d5, _, h5, h⟩ := bind_ok.1 h
    have e1 : (ensure u.en.save d).1 = d1 := by rw [h1]
    have hk : extract u l d = .ok k ∧ d2 = d1 := by
      unfold Act.read at h2
      rw [Prod.mk.injEq, ← e1, extract_ensure u l hkey hs] at h2
      exact ⟨h2.2, by rw [← h2.1, e1]⟩
    obtain ⟨hk, rfl⟩ := hk
    obtain ⟨hc, rfl⟩ := compute_ok.1 h3
    obtain ⟨det, rep, dm, b1, b2, b3, b4⟩ := (saveImages_iff u k s).1 h4
    obtain ⟨cams, objs, errs, b5, b6, b7, rfl⟩ := (saveReports_iff u half k s).1 h5
    obtain ⟨avg, kp, b8, b9, rfl⟩ := (saveLast_iff u half k s).1 h
    rw [hk, Outcome.bind_ok, conclude_eq, results_of_computed u (q := (⟨s.log, det, rep, cams, objs,
      Output.save3DObjPose s.r.1.objs s.r.1.oo u.en.camPose, errs, avg⟩, kp)) hc rfl ⟨b1, b2, b5, b6, rfl, b7, b8, b9⟩,
      Outcome.bind_ok]
    unfold saveAll
    rw [ensure_save.1 h1, Outcome.bind_ok, b3, Outcome.bind_ok, b4]
    rfl
  · intro h
    obtain ⟨k, hk, h⟩ := Outcome.bind_eq_ok.1 h
    rw [conclude_eq] at h
    obtain ⟨q, hq, h⟩ := Outcome.bind_eq_ok.1 h
    obtain ⟨s, hc, -, b⟩ := computed_of_results u hq
    unfold saveAll at h
    obtain ⟨d1, h1, h⟩ := Outcome.bind_eq_ok.1 h
    obtain ⟨d2, h2, h⟩ := Outcome.bind_eq_ok.1 h
    obtain ⟨d3, h3, h⟩ := Outcome.bind_eq_ok.1 h
    cases h
    have h1' := ensure_save.2 h1
    have e1 : (ensure u.en.save d).1 = d1 := by rw [h1']
    refine bind_ok.2 ⟨d1, (), h1', bind_ok.2 ⟨d1, k, ?_, bind_ok.2 ⟨d1, s, compute_ok.2 ⟨hc, rfl⟩,
      bind_ok.2 ⟨d3, (), (saveImages_iff u k s).2 ⟨_, _, d2, b.detections, b.reprojections, h2, h3⟩, bind_ok.2 ⟨_, (),
      (saveReports_iff u half k s).2 ⟨_, _, _, b.cameras, b.objects, b.errors, rfl⟩,
      (saveLast_iff u half k s).2 ⟨_, _, b.average, b.keypoints, ?_⟩⟩⟩⟩⟩⟩
    · unfold Act.read
      rw [← e1, extract_ensure u l hkey hs, hk]
    · rw [← b.poses]
      rfl

end Verif.Props.Order
