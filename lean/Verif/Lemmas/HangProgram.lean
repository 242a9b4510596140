import Verif.Lemmas.HangReport
import Verif.Model.FromConfig
import Verif.Model.HandEye

set_option linter.unusedSectionVars false
namespace Verif.Hang
open Spec.Hang Verif.Structure Objects Groups GroupPose NonOverlap Pipeline Ransac Program Folders Start Verif.Disk

/-! ### Parts that work on files -/

/-- Whatever files there are. -/
structure Stops {D α : Type} (a : Order.Act D α) : Prop where
  ends : ∀ d, Ends (a d).2

section
variable {D α β : Type}

theorem abind {a : Order.Act D α} {f : α → Order.Act D β} (ha : Stops a) (hf : ∀ x, Stops (f x)) :
    Stops (Order.Act.bind a f) := by
  refine ⟨fun d => ?_⟩
  unfold Order.Act.bind
  have := (ha.ends d).back
  split
  · exact (hf _).ends _
  · exact throw
  · exact ub
  · rename_i h; exact absurd h this

theorem abind_of {a : Order.Act D α} {f : α → Order.Act D β} (P : α → Prop) (ha : Stops a)
    (hp : ∀ d x, (a d).2 = .ok x → P x) (hf : ∀ x, P x → Stops (f x)) : Stops (Order.Act.bind a f) := by
  refine ⟨fun d => ?_⟩
  unfold Order.Act.bind
  have := (ha.ends d).back
  split
  · rename_i h; exact (hf _ (hp _ _ h)).ends _
  · exact throw
  · exact ub
  · rename_i h; exact absurd h this

theorem gives {a : Order.Act D α} {f : α → Order.Act D β} {P : β → Prop} (hf : ∀ y d x, (f y d).2 = .ok x → P x) :
    ∀ d x, ((a >>= f) d).2 = .ok x → P x := by
  intro d x h
  have h' : (Order.Act.bind a f d).2 = .ok x := h
  unfold Order.Act.bind at h'
  split at h'
  · exact hf _ _ _ h'
  · cases h'
  · cases h'
  · cases h'

theorem abind' {a : Order.Act D α} {f : α → Order.Act D β} (ha : Stops a) (hf : ∀ x, Stops (f x)) :
    Stops (a >>= f) := abind ha hf

theorem compute {o : Outcome α} (h : Ends o) : Stops (Order.Act.compute o : Order.Act D α) := ⟨fun _ => h⟩

theorem aread {o : D → Outcome α} (h : ∀ d, Ends (o d)) : Stops (Order.Act.read o) := ⟨h⟩

theorem call {f : D → Outcome D} (h : ∀ d, Ends (f d)) : Stops (Order.Act.call f) := by
  refine ⟨fun d => ?_⟩
  unfold Order.Act.call
  have := (h d).back
  split
  · exact ok _
  · exact throw
  · exact ub
  · rename_i h; exact absurd h this

theorem forEach {f : α → Order.Act D Unit} (h : ∀ x, Stops (f x)) (l : List α) : Stops (Order.Act.forEach f l) := by
  induction l with
  | nil => exact ⟨fun _ => ok ()⟩
  | cons x l ih => exact abind (h x) fun _ => ih

theorem saveFile {V G Pt K Img KP : Type} (half : Str → Content V G Pt K Img KP) (p : Str)
    {o : Outcome (Content V G Pt K Img KP)} (h : Ends o) : Stops (Order.saveFile half p o) := by
  refine ⟨fun d => ?_⟩
  unfold Order.saveFile
  have := h.back
  split
  · exact ok _
  · exact throw
  · exact ub
  · exact absurd rfl this

end

theorem mkdir_ends {C : Type} (d : Disk C) (l : Loc) : Ends (mkdir d l) := by
  unfold mkdir; ends

theorem ensure_stops {C : Type} (p : Str) : Stops (Order.ensure p : Order.Act (Disk C) Unit) := by
  refine ⟨fun d => ?_⟩
  unfold Order.ensure
  split
  · exact (forEach (fun l => call fun d => mkdir_ends d l) _).ends d
  · exact ok _

theorem folders_stops {C : Type} (save kind : Str) (c : Nat) : Stops (Order.folders save kind c : Order.Act (Disk C) Unit) := by
  unfold Order.folders
  refine abind' (ensure_stops _) fun _ => call fun d => ?_
  unfold Disk.camDir
  split
  · exact mkdir_ends _ _
  · exact ok _

theorem frame_stops {V G Pt K Img KP : Type} {ws : Outcome (List (Images.Written Img))} (h : Ends ws) :
    Stops (Order.frame ws : Order.Act (Disk (Content V G Pt K Img KP)) Unit) := by
  unfold Order.frame
  exact abind' (compute h) fun _ => forEach (fun _ => ⟨fun _ => ok ()⟩) _

variable {V G Pt K K' Img Q : Type} [Group G] [SMul G Pt]

/-- The parts of a run that are not modelled end. -/
structure Steady (u : Whole.Setup V G Pt K K' Q Img) : Prop where
  search : ∀ n c ps qs, Ends (u.search n c ps qs)
  refine : ∀ f, u.refine = some f → ∀ l, Ends (f l) ∧ ∀ x, f l = .ok x → Projects x.2
  pr : Projects u.pr
  later : ∀ j n c ps qs, Ends (u.e.search j n c ps qs)
  he : ∀ l, Ends (u.n.he l)
  en : Draws u.en
  other : ∀ c, Ends (u.other c)

theorem store_ends {P Path : Type} (s : Store P Path) (a : Insertion P Path) : Ends (s.insertNewBoard a) := by
  unfold Store.insertNewBoard
  simp only
  ends

theorem load_ends {P Path : Type} (b : Bool) (n m : Nat) (f : KeyFile P Path) : Ends (Keypoints.load b n m f) := by
  unfold Keypoints.load
  refine fold (fun k c _ => ?_) _
  unfold Keypoints.loadCam
  simp only
  split
  · exact throw
  · refine bind (fold (fun s i _ => ?_) _) fun _ _ => pure' _
    unfold Keypoints.insertRow
    exact bind (idx _ _) fun _ _ => bind (idx _ _) fun _ _ => bind (idx _ _) fun _ _ => bind (idx _ _) fun _ _ =>
      bind (idx _ _) fun _ _ => store_ends _ _

theorem save_ends {P Path : Type} [Inhabited Path] (k : KStore P Path) : Ends (Keypoints.save k) := by
  unfold Keypoints.save
  refine bind (fold (fun m c _ => ?_) _) fun _ _ => pure' _
  unfold Keypoints.saveCam
  ends

theorem sizes_ends (debug : Bool) (imread : Str → Option (Nat × Nat)) (glob : Str → List Str) (root pre : Str) (n : Nat) :
    Ends (imageSizes debug imread glob root pre n) := by
  unfold imageSizes
  refine fold (fun acc c _ => ?_) _
  unfold sizeStep
  refine bind ?_ fun _ _ => pure' _
  unfold firstSize
  ends

theorem extract_ends {u : Whole.Setup V G Pt K K' Q Img} (hu : Steady u) (l : List (Insertion (ℝ × ℝ) Str))
    (d : Whole.Files V G Pt K Img) : Ends (Whole.extract u l d) := by
  unfold Whole.extract boardExtraction
  split
  · unfold Whole.load
    refine bind ?_ fun _ _ => load_ends ..
    unfold Whole.readKeypoints
    split
    · exact ok _
    · exact hu.other _
    · exact throw
  · unfold Whole.detect
    exact bind (sizes_ends ..) fun _ _ => bind (fold (fun _ _ _ => store_ends _ _) _) fun _ _ => pure' _

theorem sized {u : Whole.Setup V G Pt K K' Q Img} (hu : Steady u) (sz) : Draws (Whole.withSizes u.en sz) :=
  ⟨hu.en.brown, hu.en.kannala⟩

theorem calibrate_ends [Field K'] [LinearOrder K'] {u : Whole.Setup V G Pt K K' Q Img} (hu : Steady u)
    (k : KStore (ℝ × ℝ) Str) : Ends (Order.calibrate u k) := by
  unfold Order.calibrate
  refine bind (initIntrinsic_ends hu.search _ _ _ hu.refine hu.pr) fun x _ => bind
    (run_all_ends (n := { u.n with boardPose := poseAt (x.1.map (·.pose)) }) hu.later hu.he _ _ _ _) fun r _ => ?_
  exact bind (updateAll_ends ..) fun _ _ => bind (log_ends (shows (sized hu _) r)) fun _ _ => pure' _

theorem saveImages_stops {u : Whole.Setup V G Pt K K' Q Img} (hu : Steady u) (k : KStore (ℝ × ℝ) Str)
    (s : Order.Found V G Pt) : Stops (Order.saveImages u k s) := by
  unfold Order.saveImages
  refine abind' ?_ fun _ => ?_
  · unfold Order.allDetectionImages
    split
    · refine forEach (fun c => ?_) _
      unfold Order.detectionImages
      refine abind' (folders_stops ..) fun _ => forEach (fun e => frame_stops ?_) _
      exact bind (fold (fun _ _ _ => fold (fun _ _ _ => drawDetection_ends ..) _) _) fun _ _ => pure' _
    · exact compute (ok _)
  · unfold Order.allReprojectionImages
    split
    · refine forEach (fun c => ?_) _
      unfold Order.reprojectionImages
      refine abind' (folders_stops ..) fun _ => forEach (fun e => frame_stops ?_) _
      exact bind (fold (fun _ _ _ => fold (fun _ _ _ => drawReprojection_ends (shows (sized hu _) s.r) ..) _) _)
        fun _ _ => pure' _
    · exact compute (ok _)

theorem saveReports_stops [Zero K] [One K] {u : Whole.Setup V G Pt K K' Q Img} (hu : Steady u)
    (half : Str → Content V G Pt K Img (KeyFile (ℝ × ℝ) Str)) (k : KStore (ℝ × ℝ) Str) (s : Order.Found V G Pt) :
    Stops (Order.saveReports u half k s) := by
  unfold Order.saveReports
  exact abind' (saveFile _ _ (bind (saveCamerasParams_ends ..) fun _ _ => pure' _)) fun _ =>
    abind' (saveFile _ _ (bind (save3DObj_ends ..) fun _ _ => pure' _)) fun _ =>
    abind' (saveFile _ _ (pure' _)) fun _ =>
    saveFile _ _ (bind (errors_ends (shows (sized hu _) s.r)) fun _ _ => pure' _)

theorem saveLast_stops {u : Whole.Setup V G Pt K K' Q Img} (hu : Steady u)
    (half : Str → Content V G Pt K Img (KeyFile (ℝ × ℝ) Str)) (k : KStore (ℝ × ℝ) Str) (s : Order.Found V G Pt) :
    Stops (Order.saveLast u half k s) := by
  unfold Order.saveLast
  exact abind' (compute (average_ends (shows (sized hu _) s.r))) fun _ =>
    saveFile _ _ (bind (save_ends _) fun _ _ => pure' _)

theorem workflow_stops [Zero K] [One K] [Field K'] [LinearOrder K'] {u : Whole.Setup V G Pt K K' Q Img} (hu : Steady u)
    (half : Str → Content V G Pt K Img (KeyFile (ℝ × ℝ) Str)) (l : List (Insertion (ℝ × ℝ) Str)) :
    Stops (Order.workflow u half l) := by
  unfold Order.workflow
  exact abind' (ensure_stops _) fun _ => abind' (aread fun d => extract_ends hu l d) fun k =>
    abind' (compute (calibrate_ends hu k)) fun s => abind' (saveImages_stops hu k s) fun _ =>
    abind' (saveReports_stops hu half k s) fun _ => saveLast_stops hu half k s

/-! ### The configuration -/

theorem squares_ends (f : Config.File) : Ends (Config.squares f) := by
  unfold Config.squares; ends

theorem checks_ends (f : Config.File) : Ends (FromConfig.checks f) := by
  unfold FromConfig.checks
  split
  · exact throw
  · split
    · exact throw
    · exact bind' (squares_ends f) fun _ _ => ok _

theorem idxInt_ends {α : Type} (l : List α) (i : Int) : Ends (Config.idxInt l i) := by
  unfold Config.idxInt; ends

theorem create_ends (nx ny : Int) (s m : Rat) : Ends (Config.create nx ny s m) := by
  unfold Config.create; ends

theorem createIds_ends (b : Bool) (nx ny : Int) (s m : Rat) (ids) : Ends (Config.createIds b nx ny s m ids) := by
  unfold Config.createIds; ends

theorem step_ends (v : Config.Version) (xs ys : List Int) (s m : Rat) (st) (i : Nat) :
    Ends (Config.step v xs ys s m st i) := by
  cases v with
  | legacy =>
    show Ends (Config.legacyStep ..)
    unfold Config.legacyStep
    refine bind (idx _ _) fun _ _ => bind (idx _ _) fun _ _ => bind (create_ends ..) fun _ _ => ?_
    ends
  | modern b =>
    show Ends (Config.modernStep ..)
    unfold Config.modernStep
    split
    · exact bind (idx _ _) fun _ _ => bind (idx _ _) fun _ _ => bind (create_ends ..) fun _ _ => pure' _
    · exact bind (deref _) fun _ _ => bind (idx _ _) fun _ _ => bind (idx _ _) fun _ _ =>
        bind (createIds_ends ..) fun _ _ => pure' _

theorem boardStep_ends (f : Config.File) (ps : List Config.Pattern) (acc) (b : Nat) :
    Ends (Config.boardStep f ps acc b) := by
  unfold Config.boardStep
  refine bind (idx _ _) fun i _ => bind ?_ fun p _ => bind ?_ fun _ _ => pure' _
  · unfold Config.patternAt; ends
  · unfold Config.board
    refine bind ?_ fun _ _ => pure' _
    unfold Config.boardSize
    split
    · exact ok _
    · exact bind (idx _ _) fun _ _ => bind (idxInt_ends ..) fun _ _ => bind (idxInt_ends ..) fun _ _ =>
        bind (idxInt_ends ..) fun _ _ => pure' _

theorem calibration_ends (v : Config.Version) (f : Config.File) : Ends (Config.calibration v f) := by
  unfold Config.calibration
  split
  · exact throw
  · split
    · exact throw
    · refine bind (squares_ends f) fun _ _ => bind (fold (fun _ _ _ => ?_) _) fun _ _ => bind ?_ fun _ _ =>
        bind (fold (fun _ _ _ => boardStep_ends ..) _) fun _ _ => pure' _
      · unfold Config.cameraStep; exact bind (idx _ _) fun _ _ => pure' _
      · unfold Config.createCharucoBoards
        exact bind (fold (fun _ _ _ => step_ends ..) _) fun _ _ => pure' _

theorem steady (x : FromConfig.Parts V G Pt K K' Q Img) (hx : ∀ t i, SteadyNumeric (x.numeric t i))
    (ho : ∀ c, Ends (x.other c)) (f : Config.File) (s : Config.Setup) (ini) : Steady (FromConfig.setup x f s ini) := by
  have h := hx (FromConfig.tuning f s) ini
  refine ⟨?_, ?_, h.pr, h.later, h.he, ⟨h.en.brown, h.en.kannala⟩, ho⟩
  · intro n c ps qs
    show Ends (FromConfig.searchFrom ini _ n c ps qs)
    unfold FromConfig.searchFrom
    split
    · exact ub
    · exact h.search ..
  · intro g hg
    have hg' : (if Config.int f "fix_intrinsic" = 0 then some (x.numeric (FromConfig.tuning f s) ini).refine else none)
      = some g := hg
    split at hg'
    · cases hg'; exact h.refine
    · cases hg'

theorem program_stops [Zero K] [One K] [Field K'] [LinearOrder K'] {x : FromConfig.Parts V G Pt K K' Q Img}
    (hx : ∀ t i, SteadyNumeric (x.numeric t i)) (ho : ∀ c, Ends (x.other c))
    (half : Str → Content V G Pt K Img (KeyFile (ℝ × ℝ) Str)) (l : List (Insertion (ℝ × ℝ) Str)) (f : Config.File) :
    Stops (FromConfig.program x half l f) := by
  unfold FromConfig.program
  refine abind_of Steady ?_ ?_ fun u hu => workflow_stops hu half l
  · unfold FromConfig.construct
    exact abind' (compute (checks_ends f)) fun _ => abind' (ensure_stops _) fun _ =>
      abind' (compute (calibration_ends ..)) fun _ => abind' (aread fun _ => ok _) fun _ => ⟨fun _ => ok _⟩
  · unfold FromConfig.construct
    refine gives fun _ => gives fun _ => gives fun s => gives fun ini d u h => ?_
    have h' : Outcome.ok (FromConfig.setup x f s ini) = .ok u := h
    cases h'
    exact steady x hx ho f s ini

theorem main_stops [Zero K] [One K] [Field K'] [LinearOrder K'] {x : FromConfig.Parts V G Pt K K' Q Img}
    (hx : ∀ t i, SteadyNumeric (x.numeric t i)) (ho : ∀ c, Ends (x.other c))
    {parse : Content V G Pt K Img (KeyFile (ℝ × ℝ) Str) → Outcome Config.File} (hp : ∀ c, Ends (parse c))
    (half : Str → Content V G Pt K Img (KeyFile (ℝ × ℝ) Str)) (l : List (Insertion (ℝ × ℝ) Str)) (argv : List Str) :
    Stops (FromConfig.main x parse half l argv) := by
  refine ⟨fun d => ?_⟩
  unfold FromConfig.main
  split
  · exact ub
  · split
    · refine (abind (aread fun d => ?_) fun f => abind (program_stops hx ho half l f) fun _ => compute (ok _)).ends d
      cases d.file (loc _) with
      | none => exact throw
      | some c => exact hp c
    · exact ok _

end Verif.Hang
