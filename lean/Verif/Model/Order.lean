import Verif.Model.Whole

/-!
The same run as in `Model/Whole`, in the order of the code (calibrate.cpp:9-85) and with what it leaves when it fails: the
output directory is made before anything is read, images are written one by one while they are computed, and a result
file is opened before its contents are computed.  `main` (calibrate.cpp:87-106) around it.

Simplified: `cv::imread` does not see the files of `Disk` (the images of the run are never written to: `Disk` is where the
results go); after undefined behaviour the files are taken to be what they were just before.
-/
namespace Verif.Order
open Verif Verif.Folders Verif.Start Verif.Disk Verif.Pipeline Verif.Ransac Verif.Program Verif.Whole

/-- A part of the program that works on files: the files it leaves, and how it ends. -/
def Act (D α : Type) := D → D × Outcome α

namespace Act
variable {D α β : Type}

/-- Sequencing: what a failed part has left stays. -/
def bind (a : Act D α) (f : α → Act D β) : Act D β := fun d =>
  match (a d).2 with
  | .ok x => f x (a d).1
  | .throw => ((a d).1, .throw)
  | .ub => ((a d).1, .ub)
  | .diverge => ((a d).1, .diverge)

instance : Monad (Act D) where
  pure x := fun d => (d, .ok x)
  bind := bind

/-- A computation that does not touch files. -/
def compute (o : Outcome α) : Act D α := fun d => (d, o)

/-- A computation that reads files. -/
def read (o : D → Outcome α) : Act D α := fun d => (d, o d)

/-- A call to the file system that has no effect when it fails. -/
def call (f : D → Outcome D) : Act D Unit := fun d =>
  match f d with
  | .ok d' => (d', .ok ())
  | .throw => (d, .throw)
  | .ub => (d, .ub)
  | .diverge => (d, .diverge)

/-- `for (x : l) f(x);` -/
def forEach (f : α → Act D Unit) : List α → Act D Unit
  | [] => fun d => (d, .ok ())
  | x :: xs => bind (f x) fun _ => forEach f xs

end Act

open Act

variable {C V G Pt K K' Q Img KP : Type}

/-- `std::filesystem::create_directories`: one directory after the other. -/
def createDirectories (p : Str) : Act (Disk C) Unit :=
  forEach (fun l => call fun d => mkdir d l)
    ((List.range (loc p).names.length).map fun i => (⟨(loc p).abs, (loc p).names.take (i + 1)⟩ : Loc))

/-- McCalib.cpp:99-102, 1901-1903, 2013-2015: make a directory, with all directories on the way, if it does not exist. -/
def ensure (p : Str) : Act (Disk C) Unit := fun d =>
  if !d.has p && filename p ≠ [] then createDirectories p d else (d, .ok ())

/-- McCalib.cpp:1893-1906, 2005-2018: the folders of a camera. -/
def folders (save kind : Str) (c : Nat) : Act (Disk C) Unit := do
  ensure (join save kind)
  call (Disk.camDir save kind c)

/-- McCalib.cpp:1979-1988, 2060-2068: `cv::imwrite`. -/
def put (w : Images.Written Img) : Act (Disk (Content V G Pt K Img KP)) Unit := fun d => (writeImage d w, .ok ())

/-- McCalib.cpp:1911-1989, 2024-2069: one frame; `ws` is its image, if it could be read. -/
def frame (ws : Outcome (List (Images.Written Img))) : Act (Disk (Content V G Pt K Img KP)) Unit := do
  let ws ← compute ws
  forEach put ws

/-- McCalib.cpp:2005-2070 `saveDetectionImages` -/
noncomputable def detectionImages (en : Finish.Env V G Pt K Str Img) (sc : Output.Scene V G Pt) (frames : OMap Nat (FrameRec Str))
    (c : Nat) : Act (Disk (Content V G Pt K Img KP)) Unit := do
  folders en.save "Detection".toList c
  forEach (fun e => frame (Images.detectionFrame sc en.colour en.imread en.emptyPath en.save c [] e)) frames

/-- McCalib.cpp:1893-1990 `saveReprojectionImages` -/
noncomputable def reprojectionImages [Group G] (en : Finish.Env V G Pt K Str Img) (sc : Output.Scene V G Pt) (gp : Nat → V)
    (frames : OMap Nat (FrameRec Str)) (c : Nat) : Act (Disk (Content V G Pt K Img KP)) Unit := do
  folders en.save "Reprojection".toList c
  forEach (fun e => frame (Images.reprojectionFrame sc gp en.imread en.emptyPath en.save c [] e)) frames

/-- calibrate.cpp:67-68, McCalib.cpp:2075-2078 -/
noncomputable def allDetectionImages (en : Finish.Env V G Pt K Str Img) (sc : Output.Scene V G Pt)
    (frames : OMap Nat (FrameRec Str)) : Act (Disk (Content V G Pt K Img KP)) Unit :=
  if en.saveDetect = 1 then forEach (detectionImages en sc frames) (List.range en.cams.length) else compute (.ok ())

/-- calibrate.cpp:69-70, McCalib.cpp:1995-1998 -/
noncomputable def allReprojectionImages [Group G] (en : Finish.Env V G Pt K Str Img) (sc : Output.Scene V G Pt) (gp : Nat → V)
    (frames : OMap Nat (FrameRec Str)) : Act (Disk (Content V G Pt K Img KP)) Unit :=
  if en.saveRepro = 1 then forEach (reprojectionImages en sc gp frames) (List.range en.cams.length) else compute (.ok ())

/-- McCalib.cpp:376-380, 414-416, 456-458, 493-496, 2251-2255: the file is opened, then written; `half` is what it
contains if this fails. -/
def saveFile (half : Str → Content V G Pt K Img KP) (p : Str) (o : Outcome (Content V G Pt K Img KP)) :
    Act (Disk (Content V G Pt K Img KP)) Unit := fun d =>
  match o with
  | .ok c => (write d p c, .ok ())
  | .throw => (write d p (half p), .throw)
  | .ub => (write d p (half p), .ub)
  | .diverge => (write d p (half p), .diverge)

/-- What calibration has found out. -/
structure Found (V G Pt : Type) where
  /-- `board_observations_` -/
  obs : List (BoardObs (ℝ × ℝ))
  /-- the tables and the poses of the objects -/
  r : State G Pt (ℝ × ℝ) × OMap (Nat × Nat) (OMap Nat V)
  /-- `group_pose_` of the object observations -/
  gp : Nat → V
  /-- what was logged -/
  log : List (List ReproErr.GroupLine)

/-- calibrate.cpp:15-63: calibration. -/
noncomputable def calibrate [Group G] [SMul G Pt] [Field K'] [LinearOrder K'] (u : Setup V G Pt K K' Q Img)
    (k : KStore (ℝ × ℝ) Str) : Outcome (Found V G Pt) := do
  let x ← ReproErr.initIntrinsic u.search u.e.garbage u.bpts k.store.obs u.refine u.pr
  let r ← Program.run u.e { u.n with boardPose := poseAt (x.1.map (·.pose)) } u.fix u.bpts k.store (x.1.map (·.obs))
  let sc := Finish.scene (withSizes u.en k.sizes) r
  let gp ← Images.updateAll sc u.en.zero u.en.gp
  let log ← Finish.reproErrorAllCamGroup sc
  pure ⟨x.1.map (·.obs), r, gp, log⟩

/-- calibrate.cpp:66-70: the images. -/
noncomputable def saveImages [Group G] (u : Setup V G Pt K K' Q Img) (k : KStore (ℝ × ℝ) Str) (s : Found V G Pt) :
    Act (Files V G Pt K Img) Unit := do
  allDetectionImages (withSizes u.en k.sizes) (Finish.scene (withSizes u.en k.sizes) s.r) k.store.frames
  allReprojectionImages (withSizes u.en k.sizes) (Finish.scene (withSizes u.en k.sizes) s.r) s.gp k.store.frames

/-- calibrate.cpp:74-78: the parameters, the objects, their poses and the errors. -/
noncomputable def saveReports [Zero K] [One K] [Group G] [SMul G Pt] (u : Setup V G Pt K K' Q Img)
    (half : Str → Content V G Pt K Img (KeyFile (ℝ × ℝ) Str)) (k : KStore (ℝ × ℝ) Str) (s : Found V G Pt) :
    Act (Files V G Pt K Img) Unit := do
  saveFile half (cameraFile u.en.save u.name) (do
    let x ← Output.saveCamerasParams (withSizes u.en k.sizes).cams s.r.1.t.groups
    pure (.cameras x))
  saveFile half (objectFile u.en.save) (do
    let x ← Output.save3DObj u.bpts s.r.1.objs
    pure (.objects x))
  saveFile half (poseFile u.en.save) (pure (.poses (Output.save3DObjPose s.r.1.objs s.r.1.oo u.en.camPose)))
  saveFile half (errorFile u.en.save) (do
    let x ← Output.saveReprojectionError (Finish.scene (withSizes u.en k.sizes) s.r)
    pure (.errors x))

/-- McCalib.cpp:493-548 `saveDetectedKeypoints`: what is saved of the observations. -/
def keyFile (k : KStore (ℝ × ℝ) Str) (obs : List (BoardObs (ℝ × ℝ))) : Outcome (KeyFile (ℝ × ℝ) Str) :=
  Keypoints.save ⟨{ k.store with obs := obs }, k.sizes⟩

/-- calibrate.cpp:79-83: the mean error is logged, the keypoints are saved. -/
noncomputable def saveLast [Group G] [SMul G Pt] (u : Setup V G Pt K K' Q Img)
    (half : Str → Content V G Pt K Img (KeyFile (ℝ × ℝ) Str)) (k : KStore (ℝ × ℝ) Str) (s : Found V G Pt) :
    Act (Files V G Pt K Img) Unit := do
  let _ ← compute (Output.computeAvgReprojectionError (Finish.scene (withSizes u.en k.sizes) s.r))
  saveFile half (keypointFile u.en.save) (do
    let x ← keyFile k s.obs
    pure (.keypoints x))

/-- calibrate.cpp:9-85 `runCalibrationWorkflow`, with the insertions of the detection in the order `l`. -/
noncomputable def workflow [Zero K] [One K] [Group G] [SMul G Pt] [Field K'] [LinearOrder K'] (u : Setup V G Pt K K' Q Img)
    (half : Str → Content V G Pt K Img (KeyFile (ℝ × ℝ) Str)) (l : List (Insertion (ℝ × ℝ) Str)) :
    Act (Files V G Pt K Img) Unit := do
  ensure u.en.save
  let k ← read (extract u l)
  let s ← compute (calibrate u k)
  saveImages u k s
  saveReports u half k s
  saveLast u half k s

/-- calibrate.cpp:87-106 `main`: the value returned.  `setup` is what the constructor makes of a configuration file
(Model/Config); `argv[argc]` is the null pointer. -/
noncomputable def main [Zero K] [One K] [Group G] [SMul G Pt] [Field K'] [LinearOrder K']
    (setup : Content V G Pt K Img (KeyFile (ℝ × ℝ) Str) → Outcome (Setup V G Pt K K' Q Img))
    (half : Str → Content V G Pt K Img (KeyFile (ℝ × ℝ) Str)) (l : List (Insertion (ℝ × ℝ) Str)) (argv : List Str) :
    Act (Files V G Pt K Img) Int := fun d =>
  match argv[1]? with
  | none => (d, .ub)
  | some p =>
    if available d.has p then
      Act.bind (read fun d => (d.file (loc p)).elim .throw setup) (fun u => Act.bind (workflow u half l) fun _ => compute (.ok 0)) d
    else (d, .ok (-1))

end Verif.Order
