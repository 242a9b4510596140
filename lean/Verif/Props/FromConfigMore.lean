import Verif.Props.FromConfig
import Verif.Props.WholeSame
import Verif.Props.Config

/-!
C92, continued: what single options do.
-/
namespace Verif.Props.FromConfig
open Verif Verif.Folders Verif.Start Verif.Disk Verif.Order Verif.Order.Act Verif.Whole Verif.FromConfig Verif.Spec.FromConfig
open Verif.Spec.Disk Verif.Spec.Order Verif.Spec.Whole Verif.Lemmas.FromConfig Verif.Lemmas.Order Verif.Lemmas.Disk
open Verif.Props.Order (stays_save stays_workflow remains_of_within Way name_place camera_place report_place stays_reports stays_last)
open Verif.Props.Crash (Within)
open Verif.Program (poseAt)
open Verif.Config (File)

variable {V G Pt K K' Q Img : Type} [Group G] [SMul G Pt] [Field K'] [LinearOrder K'] [Zero K] [One K]

/-! ### The images are saved only if asked for -/

section
variable {KP : Type}

omit [SMul G Pt] [Zero K] [One K] in
theorem stays_only_detection (en : Finish.Env V G Pt K Str Img) (sc : Output.Scene V G Pt) (frames : OMap Nat (FrameRec Str)) :
    Stays (Made en.save) (fun y => en.saveDetect = 1 ∧ InFolder en.save "Detection".toList y)
      (allDetectionImages en sc frames : Act (Disk (Content V G Pt K Img KP)) Unit) := by
  unfold allDetectionImages
  split
  · next h1 =>
    refine Stays.forEach fun c _ => Stays.bind (folders_made (by decide) c) fun _ => Stays.forEach fun e _ => Stays.frame ?_
    intro ws hws w hw
    rw [detection_files hws w hw, loc_image _ (by decide)]
    exact ⟨h1, _, rfl⟩
  · exact Stays.compute _

omit [SMul G Pt] [Zero K] [One K] in
theorem stays_only_reprojection (en : Finish.Env V G Pt K Str Img) (sc : Output.Scene V G Pt) (gp : Nat → V)
    (frames : OMap Nat (FrameRec Str)) :
    Stays (Made en.save) (fun y => en.saveRepro = 1 ∧ InFolder en.save "Reprojection".toList y)
      (allReprojectionImages en sc gp frames : Act (Disk (Content V G Pt K Img KP)) Unit) := by
  unfold allReprojectionImages
  split
  · next h1 =>
    refine Stays.forEach fun c _ => Stays.bind (folders_made (by decide) c) fun _ => Stays.forEach fun e _ => Stays.frame ?_
    intro ws hws w hw
    rw [reprojection_files hws w hw, loc_image _ (by decide)]
    exact ⟨h1, _, rfl⟩
  · exact Stays.compute _

end

/-- The places a run may write to, given which images are asked for. -/
def Asked (save name : Str) (detect repro : Int) (y : Loc) : Prop :=
  (∃ b ∈ cameraName name :: reportNames, y = below save [b]) ∨ (detect = 1 ∧ InFolder save "Detection".toList y) ∨
    (repro = 1 ∧ InFolder save "Reprojection".toList y)

theorem stays_asked (u : Setup V G Pt K K' Q Img) (half : Str → Content V G Pt K Img (KeyFile (ℝ × ℝ) Str))
    (l : List (Insertion (ℝ × ℝ) Str)) (hname : u.name = [] ∨ Plain u.name) :
    Stays (Made u.en.save) (Asked u.en.save u.name u.en.saveDetect u.en.saveRepro)
      (workflow u half l : Act (Files V G Pt K Img) Unit) := by
  have h1 : ∀ b ∈ reportNames, Asked u.en.save u.name u.en.saveDetect u.en.saveRepro (loc (join u.en.save b)) := fun b hb => by
    rw [report_place hb]
    exact .inl ⟨b, List.mem_cons_of_mem _ hb, rfl⟩
  refine Stays.bind (Stays.mono (stays_save _) (fun x h => .inl h) (fun _ h => h.elim)) fun _ => Stays.bind (Stays.read _) fun k =>
    Stays.bind (Stays.compute _) fun s => Stays.bind ?_ fun _ =>
    Stays.bind (stays_reports u half ?_ (fun b hb _ => h1 b hb) k s) fun _ => stays_last u half (h1 _ (by decide)) k s
  · exact Stays.bind
      (Stays.mono (stays_only_detection (withSizes u.en k.sizes) _ _) (fun _ h => h) fun _ h => .inr (.inl h)) fun _ =>
      Stays.mono (stays_only_reprojection (withSizes u.en k.sizes) _ _ _) (fun _ h => h) fun _ h => .inr (.inr h)
  · rw [camera_place hname]
    exact .inl ⟨_, List.mem_cons_self .., rfl⟩

variable (x : Parts V G Pt K K' Q Img) (half : Str → Content V G Pt K Img (KeyFile (ℝ × ℝ) Str)) (l : List (Insertion (ℝ × ℝ) Str))

/-- C92: detection images are saved only with `save_detection: 1`, reprojection images only with `save_reprojection: 1`:
otherwise no file in the folder is touched, however the run ends. -/
theorem C92_images {f : File}
    (hname : str f "camera_params_file_name" = [] ∨
      Plain (str f "camera_params_file_name") ∧ str f "camera_params_file_name" ∉ kinds) {d : Files V G Pt K Img} (hs : Sound d) :
    (Config.int f "save_detection" ≠ 1 → ∀ y, InFolder (str f "save_path") "Detection".toList y →
      (program x half l f d).1.file y = d.file y) ∧
    (Config.int f "save_reprojection" ≠ 1 → ∀ y, InFolder (str f "save_path") "Reprojection".toList y →
      (program x half l f d).1.file y = d.file y) := by
  have hcam : cameraName (str f "camera_params_file_name") ∉ kinds := by
    unfold cameraName
    split
    · decide
    · next h => exact (hname.resolve_left h).2
  have hnames : ∀ b ∈ cameraName (str f "camera_params_file_name") :: reportNames, b ∉ kinds := by
    intro b hb
    rcases List.mem_cons.1 hb with rfl | hb
    · exact hcam
    · have hk : ∀ b ∈ reportNames, b ∉ kinds := by decide
      exact hk b hb
  by_cases h : ∃ s, Config.calibration x.version f = .ok s
  · obtain ⟨s, h⟩ := h
    rw [C92_runs x half l h hs]
    have hw := stays_asked (setup x f s (initial d (str f "cam_params_path"))) half l (hname.imp_right And.left) d hs
    have hdiff : ∀ {a b : Str} {bs bs' : List Str}, below (str f "save_path") (a :: bs) = below (str f "save_path") (b :: bs') → a = b := by
      intro a b bs bs' e
      have := congrArg Loc.names e
      simp only [below, List.append_cancel_left_eq, List.cons.injEq] at this
      exact this.1
    refine ⟨fun hd y hy => hw.others y ?_, fun hd y hy => hw.others y ?_⟩
    all_goals
      obtain ⟨bs, rfl⟩ := hy
      rintro (⟨b, hb, e⟩ | ⟨h1, bs', e⟩ | ⟨h1, bs', e⟩)
    · exact hnames b hb (by rw [← hdiff e]; decide)
    · exact hd h1
    · exact absurd (hdiff e) (by decide)
    · exact hnames b hb (by rw [← hdiff e]; decide)
    · exact absurd (hdiff e) (by decide)
    · exact hd h1
  · have h' := (C92_rejected x half l (fun s hx => h ⟨s, hx⟩) hs).2.1
    exact ⟨fun _ y _ => by rw [h'.files], fun _ y _ => by rw [h'.files]⟩

/-! ### Flags -/

omit [Zero K] [One K] [Field K'] [LinearOrder K'] in
theorem run_fix {P Path : Type} (e : Program.Estimator Pt P G) (n : Pipeline.Numerics V G) {a b : Int} (h : a = 0 ↔ b = 0) (bpts : List (List Pt))
    (s : Store P Path) (obs : List (BoardObs P)) : Program.run e n a bpts s obs = Program.run e n b bpts s obs := by
  have hf : ∀ (m : Pipeline.Numerics V G) st, Finish.finalStage (P := P) m a bpts st = Finish.finalStage m b bpts st := by
    intro m st
    unfold Finish.finalStage Finish.lastRefine
    simp only [h]
  unfold Program.run Program.merging Program.finalStage
  simp only [hf]

/-- Two setups that differ in flags with the same meaning run alike. -/
theorem workflow_flags (u : Setup V G Pt K K' Q Img) {a b c : Int} (ha : a = 0 ↔ u.fix = 0)
    (hb : b = 1 ↔ u.en.saveDetect = 1) (hc : c = 1 ↔ u.en.saveRepro = 1) :
    workflow { u with fix := a, en := { u.en with saveDetect := b, saveRepro := c } } half l = workflow u half l := by
  have h1 : ∀ k, Order.calibrate { u with fix := a, en := { u.en with saveDetect := b, saveRepro := c } } k = Order.calibrate u k := by
    intro k
    unfold Order.calibrate
    simp only [run_fix u.e _ ha]
    rfl
  have h2 : ∀ k s, Order.saveImages { u with fix := a, en := { u.en with saveDetect := b, saveRepro := c } } k s =
      Order.saveImages u k s := by
    intro k s
    unfold Order.saveImages allDetectionImages allReprojectionImages
    simp only [withSizes, hb, hc]
    rfl
  unfold workflow
  simp only [h1, h2]
  rfl

/-- C92: of `fix_intrinsic` and `he_approach` it matters only whether they are 0, of `save_detection` and
`save_reprojection` only whether they are 1. -/
theorem C92_flags {f g : File}
    (h : ∀ k ∈ keys, k ∉ ["fix_intrinsic", "he_approach", "save_detection", "save_reprojection"] → Alike f g k)
    (hfix : Config.int f "fix_intrinsic" = 0 ↔ Config.int g "fix_intrinsic" = 0)
    (hhe : Config.int f "he_approach" = 0 ↔ Config.int g "he_approach" = 0)
    (hdet : Config.int f "save_detection" = 1 ↔ Config.int g "save_detection" = 1)
    (hrep : Config.int f "save_reprojection" = 1 ↔ Config.int g "save_reprojection" = 1) :
    program x half l f = program x half l g := by
  have hrig : ∀ k ∈ rigKeys, Alike f g k := fun k hk => h k (by
      unfold keys; simp only [List.mem_append]; exact .inl (.inl (.inl hk))) (by revert k; decide)
  have hk : ∀ k, k ∈ keys → k ∉ ["fix_intrinsic", "he_approach", "save_detection", "save_reprojection"] → Alike f g k := h
  have ht : ∀ s, tuning f s = tuning g s := by
    intro s
    unfold tuning
    rw [(hk "ransac_threshold" (by decide) (by decide)).real, (hk "number_iterations" (by decide) (by decide)).int,
      show (Config.int f "he_approach" == 0) = (Config.int g "he_approach" == 0) by rw [Bool.eq_iff_iff]; simpa using hhe,
      show (Config.int f "fix_intrinsic" == 0) = (Config.int g "fix_intrinsic" == 0) by rw [Bool.eq_iff_iff]; simpa using hfix]
  have hsetup : ∀ s ini, workflow (setup x f s ini) half l = workflow (setup x g s ini) half l := by
    intro s ini
    rw [← workflow_flags half l (setup x g s ini) (a := Config.int f "fix_intrinsic") (b := Config.int f "save_detection")
      (c := Config.int f "save_reprojection") hfix hdet hrep]
    unfold setup
    rw [ht, (hrig "number_camera" (by decide)).int, (hk "refine_corner" (by decide) (by decide)).bool,
      (hk "min_perc_pts" (by decide) (by decide)).real, (hk "root_path" (by decide) (by decide)).str,
      (hk "cam_prefix" (by decide) (by decide)).str, (hk "keypoints_path" (by decide) (by decide)).str,
      (hk "save_path" (by decide) (by decide)).str, (hk "camera_params_file_name" (by decide) (by decide)).str]
    simp only [hfix]
  funext d
  unfold program construct
  rw [checks_congr hrig, calibration_congr hrig, (hk "save_path" (by decide) (by decide)).str,
    (hk "cam_params_path" (by decide) (by decide)).str]
  simp only [Bind.bind, Act.bind, Act.compute, Act.read]
  cases checks g with
  | ok _ =>
    simp only
    rcases ensure (str g "save_path") d with ⟨d1, o⟩
    cases o with
    | ok _ =>
      simp only
      cases Config.calibration x.version g with
      | ok s => exact congrFun (hsetup s _) d1
      | _ => rfl
    | _ => rfl
  | _ => rfl

/-! ### With a keypoint file the images do not matter -/

/-- Two setups that differ in what concerns the images only. -/
theorem workflow_images (u : Setup V G Pt K K' Q Img) (cfg) (raw) (root pre : Str) (l' : List (Insertion (ℝ × ℝ) Str))
    {d : Files V G Pt K Img} (hs : Sound d) (h0 : u.keypoints ≠ []) (h1 : u.keypoints ≠ "None".toList) (h2 : d.has u.keypoints = true) :
    workflow { u with cfg := cfg, raw := raw, root := root, pre := pre } half l' d = workflow u half l d := by
  have hw := stays_save u.en.save d hs
  have hhas : (ensure u.en.save d).1.has u.keypoints = true := by
    unfold Disk.has at h2 ⊢
    rw [hw.others _ id]
    simp only [Bool.and_eq_true, Bool.or_eq_true] at h2 ⊢
    exact ⟨h2.1, h2.2.imp_left (hw.dirs _)⟩
  have he : extract { u with cfg := cfg, raw := raw, root := root, pre := pre } l' (ensure u.en.save d).1 =
      extract u l (ensure u.en.save d).1 := by
    unfold extract boardExtraction
    rw [if_pos ⟨h0, h1, hhas⟩, if_pos ⟨h0, h1, hhas⟩]
    rfl
  unfold workflow
  simp only [Bind.bind, Act.bind, Act.read]
  rcases hx : ensure u.en.save d with ⟨d1, o⟩
  rw [hx] at he
  cases o with
  | ok _ => simp only at he ⊢; rw [he]; rfl
  | _ => rfl

/-- C92: when the keypoint file exists, the images and the options of their detection (`root_path`, `cam_prefix`,
`refine_corner`, `min_perc_pts`), and whatever the detection would have found, do not matter. -/
theorem C92_from_keypoints {f g : File} (h : ∀ k ∈ keys, k ∉ imageKeys → Alike f g k) (l' : List (Insertion (ℝ × ℝ) Str))
    {d : Files V G Pt K Img} (hs : Sound d) (h0 : str f "keypoints_path" ≠ []) (h1 : str f "keypoints_path" ≠ "None".toList)
    (h2 : d.has (str f "keypoints_path") = true) : program x half l' f d = program x half l g d := by
  have hrig : ∀ k ∈ rigKeys, Alike f g k := fun k hk => h k (by
      unfold keys; simp only [List.mem_append]; exact .inl (.inl (.inl hk))) (by revert k; decide)
  have hs' : ∀ k ∈ saveKeys, Alike f g k := fun k hk => h k (mem_save hk) (by revert k; decide)
  have ht : ∀ k ∈ tuningKeys, Alike f g k := fun k hk => h k (mem_tuning hk) (by revert k; decide)
  have hcal := calibration_congr hrig x.version
  by_cases hc : ∃ s, Config.calibration x.version f = .ok s
  · obtain ⟨s, hc⟩ := hc
    have hc' := hc
    rw [hcal] at hc'
    rw [C92_runs x half l' hc hs, C92_runs x half l hc' hs, ← workflow_images half l' _
      (setup x g s (initial d (str g "cam_params_path"))).cfg (setup x g s (initial d (str g "cam_params_path"))).raw
      (str g "root_path") (str g "cam_prefix") l hs h0 h1 h2]
    congr 1
    unfold setup
    rw [tuning_congr ht, (hrig "number_camera" (by decide)).int,
      (ht "keypoints_path" (by decide)).str, (ht "fix_intrinsic" (by decide)).int, (hs' "save_path" (by decide)).str,
      (hs' "save_detection" (by decide)).int, (hs' "save_reprojection" (by decide)).int,
      (hs' "camera_params_file_name" (by decide)).str, (ht "cam_params_path" (by decide)).str]
  · have hc' : ∀ s, Config.calibration x.version g ≠ .ok s := fun s e => hc ⟨s, by rw [hcal]; exact e⟩
    have hsame : ∀ l, program x half l f d = program x half l g d := by
      intro l
      unfold program construct
      rw [checks_congr hrig, hcal, (hs' "save_path" (by decide)).str]
      simp only [Bind.bind, Act.bind, Act.compute]
      cases checks g with
      | ok _ =>
        simp only
        rcases ensure (str g "save_path") d with ⟨d1, o⟩
        cases o with
        | ok _ =>
          simp only
          cases hg : Config.calibration x.version g with
          | ok s => exact absurd hg (hc' s)
          | _ => rfl
        | _ => rfl
      | _ => rfl
    rw [← hsame]
    unfold program construct
    simp only [Bind.bind, Act.bind, Act.compute]
    cases checks f with
    | ok _ =>
      simp only
      rcases ensure (str f "save_path") d with ⟨d1, o⟩
      cases o with
      | ok _ =>
        simp only
        cases hg : Config.calibration x.version f with
        | ok s => exact absurd ⟨s, hg⟩ hc
        | _ => rfl
      | _ => rfl
    | _ => rfl

/-! ### Where results are saved does not change them -/

/-- The contents of the five result files. -/
def contents (save name : Str) (d : Files V G Pt K Img) : List (Option (Content V G Pt K Img (KeyFile (ℝ × ℝ) Str))) :=
  (cameraName name :: reportNames).map fun b => d.file (below save [b])

theorem contents_run (u : Setup V G Pt K K' Q Img) {d d' : Files V G Pt K Img} (hr : Ready u.en.save u.name d)
    (hrun : Verif.Whole.run u l d = .ok d') :
    ∃ k y r rep kp, extract u l d = .ok k ∧ ReproErr.initIntrinsic u.search u.e.garbage u.bpts k.store.obs u.refine u.pr = .ok y ∧
      Program.run u.e { u.n with boardPose := poseAt (y.1.map (·.pose)) } u.fix u.bpts k.store (y.1.map (·.obs)) = .ok r ∧
      Finish.report (withSizes u.en k.sizes) u.bpts k.store.frames r = .ok rep ∧
      Keypoints.save ⟨{ k.store with obs := y.1.map (·.obs) }, k.sizes⟩ = .ok kp ∧
      contents u.en.save u.name d' = [some (.cameras rep.cameras), some (.objects rep.objects), some (.poses rep.poses),
        some (.errors rep.errors), some (.keypoints kp)] := by
  unfold Verif.Whole.run at hrun
  obtain ⟨k, h1, h⟩ := Outcome.bind_eq_ok.1 hrun
  obtain ⟨m, hm⟩ := Props.WholeSame.extract_history u h1
  obtain ⟨y, r, rep, kp, a1, a2, a3, a4, w, -⟩ := Props.WholeSame.conclude_written u (Lemmas.Schedule.describes_of_run hm).1 hr h
  refine ⟨k, y, r, rep, kp, h1, a1, a2, a3, a4, ?_⟩
  unfold contents reportNames
  simp only [List.map_cons, List.map_nil, w.cameras, w.objects, w.poses, w.errors, w.keypoints]

/-- C92: the options about saving (`save_path`, `camera_params_file_name`, `save_detection`, `save_reprojection`) do not change
the results: two successful runs that differ in them only leave the same contents in their camera, object, pose, error
and keypoint files. -/
theorem C92_same_results {f g : File} (h : ∀ k ∈ keys, k ∉ saveKeys → Alike f g k) {d df dg : Files V G Pt K Img}
    (hrf : Ready (str f "save_path") (str f "camera_params_file_name") d)
    (hrg : Ready (str g "save_path") (str g "camera_params_file_name") d)
    (haf : Apart (str f "save_path") (str f "keypoints_path")) (hag : Apart (str g "save_path") (str g "keypoints_path"))
    (hf : program x half l f d = (df, .ok ())) (hg : program x half l g d = (dg, .ok ())) :
    contents (str f "save_path") (str f "camera_params_file_name") df =
      contents (str g "save_path") (str g "camera_params_file_name") dg := by
  have hs := hrf.sound
  have hrig : ∀ k ∈ rigKeys, Alike f g k := fun k hk => h k (by
      unfold keys; simp only [List.mem_append]; exact .inl (.inl (.inl hk))) (by revert k; decide)
  have hi : ∀ k ∈ imageKeys, Alike f g k := fun k hk => h k (mem_image hk) (by revert k; decide)
  have ht : ∀ k ∈ tuningKeys, Alike f g k := fun k hk => h k (mem_tuning hk) (by revert k; decide)
  have hcal := calibration_congr hrig x.version
  have hacc : ∃ s, Config.calibration x.version f = .ok s := by
    by_contra hn
    exact (C92_rejected x half l (fun s e => hn ⟨s, e⟩) hs).1 () (by rw [hf])
  obtain ⟨s, hc⟩ := hacc
  have hc' := hc
  rw [hcal] at hc'
  rw [C92_runs x half l hc hs] at hf
  rw [C92_runs x half l hc' hs] at hg
  have rf := (Props.Order.C90_complete (setup x f s (initial d (str f "cam_params_path"))) half l haf hs).1 hf
  have rg := (Props.Order.C90_complete (setup x g s (initial d (str g "cam_params_path"))) half l hag hs).1 hg
  have hsetup : setup x g s (initial d (str g "cam_params_path")) =
      { setup x f s (initial d (str f "cam_params_path")) with
        name := str g "camera_params_file_name"
        en := { (setup x f s (initial d (str f "cam_params_path"))).en with
          save := str g "save_path", saveDetect := Config.int g "save_detection", saveRepro := Config.int g "save_reprojection" } } := by
    unfold setup
    rw [tuning_congr ht, (hrig "number_camera" (by decide)).int, (hi "refine_corner" (by decide)).bool,
      (hi "min_perc_pts" (by decide)).real, (hi "root_path" (by decide)).str, (hi "cam_prefix" (by decide)).str,
      (ht "keypoints_path" (by decide)).str, (ht "fix_intrinsic" (by decide)).int, (ht "cam_params_path" (by decide)).str]
  obtain ⟨k, y, r, rep, kp, a1, a2, a3, a4, a5, a6⟩ := contents_run l (setup x f s (initial d (str f "cam_params_path"))) hrf rf
  obtain ⟨k', y', r', rep', kp', b1, b2, b3, b4, b5, b6⟩ := contents_run l (setup x g s (initial d (str g "cam_params_path"))) hrg rg
  rw [hsetup] at b1 b2 b3 b4
  have e1 : k' = k := Outcome.ok.inj (b1.symm.trans a1)
  subst e1
  have e2 : y' = y := Outcome.ok.inj (b2.symm.trans a2)
  subst e2
  have e3 : r' = r := Outcome.ok.inj (b3.symm.trans a3)
  subst e3
  have e5 : kp' = kp := Outcome.ok.inj (b5.symm.trans a5)
  subst e5
  rw [show contents (str f "save_path") (str f "camera_params_file_name") df = _ from a6,
    show contents (str g "save_path") (str g "camera_params_file_name") dg = _ from b6]
  have hrep : rep'.cameras = rep.cameras ∧ rep'.objects = rep.objects ∧ rep'.poses = rep.poses ∧ rep'.errors = rep.errors := by
    unfold Finish.report at a4 b4
    obtain ⟨_, _, a4⟩ := Outcome.bind_eq_ok.1 a4
    obtain ⟨_, _, a4⟩ := Outcome.bind_eq_ok.1 a4
    obtain ⟨_, _, a4⟩ := Outcome.bind_eq_ok.1 a4
    obtain ⟨_, _, a4⟩ := Outcome.bind_eq_ok.1 a4
    obtain ⟨cs, c1, a4⟩ := Outcome.bind_eq_ok.1 a4
    obtain ⟨os, o1, a4⟩ := Outcome.bind_eq_ok.1 a4
    obtain ⟨es, q1, a4⟩ := Outcome.bind_eq_ok.1 a4
    obtain ⟨_, _, a4⟩ := Outcome.bind_eq_ok.1 a4
    obtain ⟨_, _, b4⟩ := Outcome.bind_eq_ok.1 b4
    obtain ⟨_, _, b4⟩ := Outcome.bind_eq_ok.1 b4
    obtain ⟨_, _, b4⟩ := Outcome.bind_eq_ok.1 b4
    obtain ⟨_, _, b4⟩ := Outcome.bind_eq_ok.1 b4
    obtain ⟨cs', c2, b4⟩ := Outcome.bind_eq_ok.1 b4
    obtain ⟨os', o2, b4⟩ := Outcome.bind_eq_ok.1 b4
    obtain ⟨es', q2, b4⟩ := Outcome.bind_eq_ok.1 b4
    obtain ⟨_, _, b4⟩ := Outcome.bind_eq_ok.1 b4
    cases a4
    cases b4
    refine ⟨Outcome.ok.inj (c2.symm.trans c1), Outcome.ok.inj (o2.symm.trans o1), rfl, Outcome.ok.inj (q2.symm.trans q1)⟩
  rw [hrep.1, hrep.2.1, hrep.2.2.1, hrep.2.2.2]

/-! ### The exit status -/

/-- C92: the status is -1, with nothing touched, when the argument is not an existing `.yml` file; it is 0 only when the
run on the configuration in that file succeeded, and then the files are those the run left. -/
theorem C92_exit (parse : Content V G Pt K Img (KeyFile (ℝ × ℝ) Str) → Outcome File) (argv : List Str) {d d' : Files V G Pt K Img}
    {r : Int} (h : FromConfig.main x parse half l argv d = (d', .ok r)) :
    (r = -1 ∧ d' = d ∧ ∃ p, argv[1]? = some p ∧ available d.has p = false) ∨
    (r = 0 ∧ ∃ p c f, argv[1]? = some p ∧ available d.has p = true ∧ d.file (loc p) = some c ∧ parse c = .ok f ∧
      program x half l f d = (d', .ok ())) := by
  unfold FromConfig.main at h
  split at h
  · cases h
  · next p hp =>
    split at h
    · next ha =>
      obtain ⟨d1, f, h1, h⟩ := bind_ok.1 h
      obtain ⟨d2, _, h2, h⟩ := bind_ok.1 h
      obtain ⟨h3, rfl⟩ := compute_ok.1 h
      cases h3
      unfold Act.read at h1
      rw [Prod.mk.injEq] at h1
      obtain ⟨rfl, h1⟩ := h1
      cases hc : d.file (loc p) with
      | none => simp only at h1; rw [hc] at h1; cases h1
      | some c =>
        simp only at h1
        rw [hc] at h1
        exact .inr ⟨rfl, p, c, f, hp, ha, hc, h1, h2⟩
    · next ha =>
      cases h
      exact .inl ⟨rfl, rfl, p, hp, by simpa using ha⟩

theorem searches_unread (garbage : G) (bpts : List (List Pt)) {obs : List (BoardObs (ℝ × ℝ))}
    (h : obs ≠ []) (r : List (Ransac.Estimated (ℝ × ℝ) G)) :
    Ransac.estimateAllBoards (fun _ _ _ _ => .ub) garbage bpts obs ≠ .ok r := by
  cases obs with
  | nil => exact absurd rfl h
  | cons o os =>
    intro hr
    unfold Ransac.estimateAllBoards at hr
    rw [Outcome.foldlM_cons] at hr
    obtain ⟨t, h1, -⟩ := Outcome.bind_eq_ok.1 hr
    obtain ⟨m, -, h1⟩ := Outcome.bind_eq_ok.1 h1
    obtain ⟨v, h1, -⟩ := Outcome.bind_eq_ok.1 h1
    obtain ⟨sc, -, h1⟩ := Outcome.bind_eq_ok.1 h1
    obtain ⟨q, h1, -⟩ := Outcome.bind_eq_ok.1 h1
    cases h1

/-- C92: a file of intrinsics that is asked for but not there, or whose name does not end in `.yml`, is only logged; if a
board is detected the run does not end well and leaves no file. -/
theorem C92_params {f : File} {d : Files V G Pt K Img} (hs : Sound d) (h0 : str f "cam_params_path" ≠ [])
    (h1 : str f "cam_params_path" ≠ "None".toList)
    (h2 : d.has (str f "cam_params_path") = false ∨ pathExtension (str f "cam_params_path") ≠ ".yml".toList)
    (hkey : str f "keypoints_path" = [] ∨ str f "keypoints_path" = "None".toList ∨
      d.has (str f "keypoints_path") = false ∧ NotAbove (str f "save_path") (str f "keypoints_path")) (hl : l ≠ []) :
    OnlySaveDir (str f "save_path") d (program x half l f d).1 ∧ (program x half l f d).2 ≠ .ok () := by
  by_cases h : ∃ s, Config.calibration x.version f = .ok s
  · obtain ⟨s, h⟩ := h
    have hi : initial d (str f "cam_params_path") = .unread := by
      unfold initial
      rw [if_pos ⟨h0, h1⟩, if_neg]
      unfold available
      intro ha
      simp only [Bool.and_eq_true, decide_eq_true_eq] at ha
      rcases h2 with h2 | h2
      · rw [h2] at ha
        cases ha.1.1
      · exact h2 ha.2
    rw [C92_runs x half l h hs, hi]
    refine Props.Order.C90_early (setup x f s .unread) half l (hkey.imp_right fun h => h.imp_right And.right) hs fun k y hk hc => ?_
    obtain ⟨z, hz, -⟩ := (Props.Order.calibrate_iff _ k y).1 hc
    obtain ⟨e, he, -⟩ := Outcome.bind_eq_ok.1 hz
    refine searches_unread _ _ ?_ e he
    unfold Whole.extract boardExtraction at hk
    rw [if_neg] at hk
    · obtain ⟨sz, -, hk⟩ := Outcome.bind_eq_ok.1 hk
      obtain ⟨st, hst, hk⟩ := Outcome.bind_eq_ok.1 hk
      cases hk
      show st.obs ≠ []
      rw [(Lemmas.Schedule.describes_of_run hst).1.obs]
      simpa using hl
    · rintro ⟨a, b, c⟩
      rcases hkey with e | e | ⟨e, -⟩
      · exact a e
      · exact b e
      · exact absurd (c.symm.trans e) (by decide)
  · have := C92_rejected x half l (fun s hx => h ⟨s, hx⟩) hs
    exact ⟨this.2.1, this.1 ()⟩

/-! ### The boards are those of the file -/

omit [Group G] [SMul G Pt] [Zero K] [One K] in
/-- C92: the boards the run looks for, and those it calibrates, have the size and the corners that the file gives them:
corner `(a, b)` is `a` squares to the right and `b` down. -/
theorem C92_boards (x : Parts V G Pt K K' Q Img) {f : File} {s : Config.Setup} (h : Config.calibration x.version f = .ok s)
    (ini : Initial (Content V G Pt K Img (KeyFile (ℝ × ℝ) Str))) :
    (setup x f s ini).geoms.length = (setup x f s ini).bpts.length ∧
    ∀ (i : Nat) g ps, (setup x f s ini).geoms[i]? = some g → (setup x f s ini).bpts[i]? = some ps →
      ∃ nx ny sq, Sized f i nx ny sq ∧ g.square = x.num sq ∧ (g.nbPts : Int) = (nx - 1) * (ny - 1) % 2 ^ 32 ∧
        g.pts.length = (nx - 1).toNat * (ny - 1).toNat ∧ ps.length = (nx - 1).toNat * (ny - 1).toNat ∧
        ∀ a b : Nat, a < (nx - 1).toNat → b < (ny - 1).toNat →
          g.pts[b * (nx - 1).toNat + a]? = some (x.num (a * sq), x.num (b * sq)) ∧
          ps[b * (nx - 1).toNat + a]? = some (x.point (a * sq, b * sq, 0)) := by
  refine ⟨by simp [setup], fun i g ps hg hp => ?_⟩
  obtain ⟨_, _, xs, ys, _, pats, _, _, hall, _⟩ := Props.Config.setup_boards h
  simp only [setup, List.getElem?_map, Option.map_eq_some_iff] at hg hp
  obtain ⟨B, hB, rfl⟩ := hg
  obtain ⟨B', hB', rfl⟩ := hp
  rw [hB] at hB'
  simp only [Option.some.injEq] at hB'
  subst hB'
  obtain ⟨hm, -⟩ := hall i B hB
  have hgrid := Props.Config.C43_grid f i B.pattern B hm.made
  refine ⟨B.nx, B.ny, B.square, ?_, rfl, ?_, ?_, ?_, fun a b ha hb => ?_⟩
  · obtain ⟨j, hj, -⟩ := hm.index
    have hs := hm.size
    unfold Config.boardSize at hs
    unfold Sized
    split at hs
    · next h0 =>
      simp only [Outcome.ok.injEq, Prod.mk.injEq] at hs
      rw [if_pos h0]
      exact ⟨hs.1.symm, hs.2.1.symm, hs.2.2.symm⟩
    · next h0 =>
      rw [if_neg h0]
      obtain ⟨j', e1, hs⟩ := Outcome.bind_eq_ok.1 hs
      obtain ⟨nx, e2, hs⟩ := Outcome.bind_eq_ok.1 hs
      obtain ⟨ny, e3, hs⟩ := Outcome.bind_eq_ok.1 hs
      obtain ⟨sq, e4, hs⟩ := Outcome.bind_eq_ok.1 hs
      simp only [Outcome.pure_eq, Outcome.ok.injEq, Prod.mk.injEq] at hs
      obtain ⟨rfl, rfl, rfl⟩ := hs
      have e1 := Outcome.idx_ok_iff.1 e1
      rw [hj] at e1
      simp only [Option.some.injEq] at e1
      subst e1
      have key : ∀ {α : Type} {l : List α} {y : α}, Config.idxInt l (j : Int) = .ok y → l[j]? = some y := by
        intro α l y hy
        unfold Config.idxInt at hy
        rw [if_neg (by omega)] at hy
        exact Outcome.idx_ok_iff.1 hy
      refine ⟨j, ?_, key e2, key e3, key e4⟩
      unfold Named
      unfold Config.boardIndexes at hj
      split at hj
      · next h1 =>
        rw [if_pos h1]
        rw [List.getElem?_map, Option.map_eq_some_iff] at hj
        obtain ⟨k, hk, e⟩ := hj
        obtain ⟨_, hk⟩ := List.getElem?_eq_some_iff.1 hk
        rw [List.getElem_range] at hk
        omega
      · next h1 => rw [if_neg h1]; exact hj
  · obtain ⟨⟨nx, ny, sq⟩, _, e⟩ := Outcome.bind_eq_ok.1 hm.made
    simp only [Outcome.pure_eq, Outcome.ok.injEq] at e
    rw [← e]
    exact Int.toNat_of_nonneg (Int.emod_nonneg _ (by norm_num))
  · show (B.pts.map _).length = _
    rw [List.length_map]
    exact hgrid.count
  · rw [List.length_map]
    exact hgrid.count
  · have hp := hgrid.point a b ha hb
    constructor
    · show (B.pts.map _)[_]? = _
      rw [List.getElem?_map, hp]
      rfl
    · rw [List.getElem?_map, hp]
      rfl

omit [Group G] [SMul G Pt] [Zero K] [One K] in
/-- C92: each value of the file is used for what its key says. -/
theorem C92_values (x : Parts V G Pt K K' Q Img) {f : File} {s : Config.Setup} (h : Config.calibration x.version f = .ok s)
    (ini : Initial (Content V G Pt K Img (KeyFile (ℝ × ℝ) Str))) :
    Uses f (setup x f s ini) ∧ ∃ t, Tuned f t ∧ t.models.length = (setup x f s ini).nbCam ∧
      (∀ c < (setup x f s ini).nbCam, (Config.distortions f)[c]? = t.models[c]?) ∧
      (setup x f s ini).n = (x.numeric t ini).n ∧ (setup x f s ini).e = (x.numeric t ini).e ∧
      (setup x f s ini).pr = (x.numeric t ini).pr := by
  obtain ⟨h1, _, xs, ys, _, pats, _, _, _, h2, h3, h4⟩ := Props.Config.setup_boards h
  constructor
  · refine ⟨?_, rfl, rfl, rfl, rfl, rfl, rfl, rfl, rfl, ?_, rfl, rfl, fun c hc => ?_⟩
    · exact Int.toNat_of_nonneg (by omega)
    · show (if Config.int f "fix_intrinsic" = 0 then some _ else none).isSome = true ↔ _
      split <;> simp_all
    · obtain ⟨m, e1, e2⟩ := h3 c hc
      show _ = some (s.models.getD c 0)
      rw [e1, List.getD_eq_getElem?_getD, e2]
      rfl
  · refine ⟨tuning f s, ⟨rfl, rfl, ?_, ?_, h2⟩, h4, fun c hc => ?_, rfl, rfl, rfl⟩
    · exact beq_iff_eq
    · exact beq_iff_eq
    · obtain ⟨m, e1, e2⟩ := h3 c hc
      exact e1.trans e2.symm

end Verif.Props.FromConfig
