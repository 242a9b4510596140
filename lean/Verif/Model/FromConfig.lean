import Verif.Model.Order
import Verif.Model.Config

/-!
The program from its configuration file on: the constructor of `Calibration` (McCalib.cpp:24-135) with the keys it reads, in
the order of the code, and then the workflow of `Model/Order`.

The parts that compute with numbers (pose search, refinement, averages, projection) are parameters that see only the values
of the configuration they are given in the code.  Assertions of the constructor are taken as enabled (`Model/Config`): for
positive numbers of cameras and boards this makes no difference.  Values of `float` are exact.
-/
namespace Verif.FromConfig
open Verif Verif.Folders Verif.Start Verif.Disk Verif.Pipeline Verif.Ransac Verif.Program Verif.Whole Verif.Order
open Verif.Config (File)

/-- `fs[key] >> s` and `convertStrToPath(fs[key])` (utilities.cpp:7-10): a missing key, or a node that is not a string, gives
the empty string. -/
def str (f : File) (k : String) : Str :=
  match f k with
  | some (.str s) => s.toList
  | _ => []

/-- Where the cameras get their first intrinsics from (McCalib.cpp:662-695). -/
inductive Initial (C : Type) where
  | images
  | file (c : C)
  /-- a file is asked for but is not there: nothing is initialised -/
  | unread

/-- McCalib.cpp:663-673 -/
def initial {C : Type} (d : Disk C) (params : Str) : Initial C :=
  if params ≠ [] ∧ params ≠ "None".toList then
    if available d.has params then
      match d.file (loc params) with
      | some c => .file c
      | none => .unread
    else .unread
  else .images

/-- The values that the numerical parts depend on. -/
structure Tuning where
  /-- distortion model of each camera (McCalib.cpp:104-113) -/
  models : List Int
  /-- `quaternion_averaging_` (McCalib.cpp:812, 1159) -/
  quaternion : Bool
  /-- `ransac_thresh_` (McCalib.cpp:705, 992) -/
  ransac : Rat
  /-- `nb_iterations_` (McCalib.cpp:705, 715, 992, 1016, 1878, 2350) -/
  iterations : Int
  /-- `he_approach_ == 0` (McCalib.cpp:1462) -/
  bootstrapped : Bool
  /-- `fix_intrinsic_ == 0` (McCalib.cpp:2088, calibrate.cpp:62) -/
  free : Bool

/-- The numerical parts of a run. -/
structure Numeric (V G Pt K K' Img : Type) where
  search : Search Pt (ℝ × ℝ) G
  refine : List (Estimated (ℝ × ℝ) G) → Outcome (List (Estimated (ℝ × ℝ) G) × ReproErr.Projection (ℝ × ℝ) G Pt K')
  pr : ReproErr.Projection (ℝ × ℝ) G Pt K'
  e : Estimator Pt (ℝ × ℝ) G
  n : Numerics V G
  /-- the reports; output directory, flags and distortion models are overwritten -/
  en : Finish.Env V G Pt K Str Img

/-- What is not modelled of the program and of the machine. -/
structure Parts (V G Pt K K' Q Img : Type) where
  version : Config.Version
  debug : Bool
  fitLine : List (Q × Q) → Q × Q × Q × Q
  /-- the detector, for the patterns of the boards and with or without `refine_corner` -/
  raw : List Config.Pattern → Bool → Str → Option (Nat → Detection.Raw (ℝ × ℝ))
  glob : Str → List Str
  sizeOf : Str → Option (Nat × Nat)
  other : Content V G Pt K Img (KeyFile (ℝ × ℝ) Str) → Outcome (KeyFile (ℝ × ℝ) Str)
  /-- numbers and points of the configuration as the rest of the program sees them -/
  num : Rat → Q
  point : Rat × Rat × Rat → Pt
  numeric : Tuning → Initial (Content V G Pt K Img (KeyFile (ℝ × ℝ) Str)) → Numeric V G Pt K K' Img

variable {V G Pt K K' Q Img : Type}

/-- McCalib.cpp:57-76: the options of the numerical parts. -/
def tuning (f : File) (s : Config.Setup) : Tuning where
  models := s.models
  quaternion := s.quaternionAveraging
  ransac := Config.real f "ransac_threshold"
  iterations := Config.int f "number_iterations"
  bootstrapped := Config.int f "he_approach" == 0
  free := Config.int f "fix_intrinsic" == 0

/-- Board.cpp:62-70: the corners of a board as the detection uses them (McCalib.cpp:320-345). -/
def geom (num : Rat → Q) (b : Config.Board) : Detection.Geom Q where
  nbPts := b.nbPts
  pts := b.pts.map fun p => (num p.1, num p.2.1)
  square := num b.square

/-- McCalib.cpp:662-695 with 136-139 of BoardObs.cpp: without intrinsics a pose search reads memory that was never written
(`Start.initializeCalibrationAllCam`, `Start.searchWith`). -/
def searchFrom {C : Type} (ini : Initial C) (search : Search Pt (ℝ × ℝ) G) : Search Pt (ℝ × ℝ) G :=
  match ini with
  | .unread => fun _ _ _ _ => .ub
  | _ => search

/-- McCalib.cpp:42-76: where the values of the file go. -/
def setup (x : Parts V G Pt K K' Q Img) (f : File) (s : Config.Setup)
    (ini : Initial (Content V G Pt K Img (KeyFile (ℝ × ℝ) Str))) : Setup V G Pt K K' Q Img :=
  let y := x.numeric (tuning f s) ini
  { nbCam := (Config.int f "number_camera").toNat
    debug := x.debug
    fitLine := x.fitLine
    cfg := { refine := Config.bool f "refine_corner", minPerc := Config.real f "min_perc_pts" }
    geoms := s.boards.map (geom x.num)
    raw := x.raw (s.boards.map (·.pattern)) (Config.bool f "refine_corner")
    glob := x.glob
    root := str f "root_path"
    pre := str f "cam_prefix"
    sizeOf := x.sizeOf
    keypoints := str f "keypoints_path"
    other := x.other
    bpts := s.boards.map fun b => b.pts.map x.point
    search := searchFrom ini y.search
    refine := if Config.int f "fix_intrinsic" = 0 then some y.refine else none
    pr := y.pr
    e := y.e
    n := y.n
    fix := Config.int f "fix_intrinsic"
    en := { y.en with save := str f "save_path", saveDetect := Config.int f "save_detection"
                      saveRepro := Config.int f "save_reprojection", model := fun c => s.models.getD c 0 }
    name := str f "camera_params_file_name" }

/-- McCalib.cpp:42-92: what can fail before the output directory is made. -/
def checks (f : File) : Outcome Unit :=
  if Config.int f "number_camera" ≤ 0 then .throw
  else if Config.int f "number_board" ≤ 0 then .throw
  else (Config.squares f).bind fun _ => .ok ()

/-- McCalib.cpp:24-135 `Calibration::Calibration`, with the output directory (99-102) made where the code makes it; the
file of initial intrinsics (662-673) is looked up here, before anything but directories is written. -/
def construct (x : Parts V G Pt K K' Q Img) (f : File) : Act (Files V G Pt K Img) (Setup V G Pt K K' Q Img) := do
  Act.compute (checks f)
  ensure (str f "save_path")
  let s ← Act.compute (Config.calibration x.version f)
  let ini ← Act.read fun d => .ok (initial d (str f "cam_params_path"))
  pure (setup x f s ini)

/-- calibrate.cpp:9-85 `runCalibrationWorkflow` on a configuration; the output directory, made by the constructor, is
looked for a second time in `workflow`, without effect. -/
noncomputable def program [Zero K] [One K] [Group G] [SMul G Pt] [Field K'] [LinearOrder K'] (x : Parts V G Pt K K' Q Img)
    (half : Str → Content V G Pt K Img (KeyFile (ℝ × ℝ) Str)) (l : List (Insertion (ℝ × ℝ) Str)) (f : File) :
    Act (Files V G Pt K Img) Unit :=
  Act.bind (construct x f) fun u => workflow u half l

/-- calibrate.cpp:87-106 `main`; `parse` is `cv::FileStorage` on the contents of a file. -/
noncomputable def main [Zero K] [One K] [Group G] [SMul G Pt] [Field K'] [LinearOrder K'] (x : Parts V G Pt K K' Q Img)
    (parse : Content V G Pt K Img (KeyFile (ℝ × ℝ) Str) → Outcome File)
    (half : Str → Content V G Pt K Img (KeyFile (ℝ × ℝ) Str)) (l : List (Insertion (ℝ × ℝ) Str)) (argv : List Str) :
    Act (Files V G Pt K Img) Int := fun d =>
  match argv[1]? with
  | none => (d, .ub)
  | some p =>
    if available d.has p then
      Act.bind (Act.read fun d => (d.file (loc p)).elim .throw parse)
        (fun f => Act.bind (program x half l f) fun _ => Act.compute (.ok 0)) d
    else (d, .ok (-1))

end Verif.FromConfig
