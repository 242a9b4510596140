import Verif.Model.Finish
import Verif.Model.Start

/-!
Where the results go: the output directory made by the constructor (McCalib.cpp:99-102), the folders of the images
(1893-1909, 2005-2021) and the files of results (376-380, 414-416, 456-458, 493-496, 2251-2255), on a file system that
is part of the state; and the files that post_calibration_analysis.py looks for.

Simplified: `.`, `..` and links are names like any other; permissions and the size of the disk are not modelled;
`cv::FileStorage` takes its name literally.
-/
namespace Verif.Disk
open Verif Verif.Folders Verif.Start

/-- A place in the file system: from the root or from the working directory, and the names that lead to it. -/
structure Loc where
  abs : Bool
  names : List Str
  deriving DecidableEq

/-- The pieces of a path between slashes. -/
def pieces : Str → List Str
  | [] => [[]]
  | c :: s =>
    if c = '/' then [] :: pieces s
    else match pieces s with
      | [] => [[c]]
      | w :: ws => (c :: w) :: ws

/-- The place a path names: repeated and final slashes do not count. -/
def loc (p : Str) : Loc := ⟨p.head? == some '/', (pieces p).filter (· ≠ [])⟩

/-- The directory a place is in. -/
def Loc.parent (l : Loc) : Loc := ⟨l.abs, l.names.dropLast⟩

/-- Directories, and files with their contents. -/
structure Disk (C : Type) where
  dir : Loc → Bool
  file : Loc → Option C

variable {C : Type}

/-- `std::filesystem::exists`: a path with a final slash is that of a directory; the empty path does not exist. -/
def Disk.has (d : Disk C) (p : Str) : Bool :=
  p ≠ [] && (d.dir (loc p) || (filename p ≠ [] && (d.file (loc p)).isSome))

def Disk.addDir (d : Disk C) (l : Loc) : Disk C := { d with dir := fun x => x == l || d.dir x }

/-- `mkdir`, no error if the directory exists. -/
def mkdir (d : Disk C) (l : Loc) : Outcome (Disk C) :=
  if d.dir l then .ok d else if (d.file l).isSome || !d.dir l.parent then .throw else .ok (d.addDir l)

/-- `std::filesystem::create_directories`: all directories on the way; throws where there is a file. -/
def createDirectories (d : Disk C) (p : Str) : Outcome (Disk C) :=
  Outcome.foldlM mkdir d ((List.range (loc p).names.length).map fun i => ⟨(loc p).abs, (loc p).names.take (i + 1)⟩)

/-- `std::filesystem::create_directory`. -/
def createDirectory (d : Disk C) (p : Str) : Outcome (Disk C) := mkdir d (loc p)

/-- `cv::FileStorage(p, WRITE)` with what is then written to it, and `cv::imwrite`: without a directory to put the file in,
nothing happens and no error is reported. -/
def write (d : Disk C) (p : Str) (c : C) : Disk C :=
  if filename p = [] || d.dir (loc p) || !d.dir (loc p).parent then d
  else { d with file := fun x => if x = loc p then some c else d.file x }

/-- McCalib.cpp:99-102: the output directory. -/
def makeSaveDir (d : Disk C) (save : Str) : Outcome (Disk C) :=
  if !d.has save && filename save ≠ [] then createDirectories d save else .ok d

/-- McCalib.cpp:1895-1903, 2007-2015: the folder of all images. -/
def kindDir (save kind : Str) (d : Disk C) : Outcome (Disk C) :=
  if !d.has (join save kind) && filename (join save kind) ≠ [] then createDirectories d (join save kind) else .ok d

/-- McCalib.cpp:1896-1899, 1904-1906, 2008-2011, 2016-2018: the folder of a camera. -/
def camDir (save kind : Str) (c : Nat) (d : Disk C) : Outcome (Disk C) :=
  if !d.has (join (join save kind) (Images.paddedTo 3 c)) && filename (join save kind) ≠ [] then
    createDirectory d (join (join save kind) (Images.paddedTo 3 c))
  else .ok d

/-- What a file contains. -/
inductive Content (V G Pt K Img KP : Type) where
  | cameras (l : List (Output.CamEntry K G))
  | objects (l : List (Nat × List (Option (Output.Column Pt))))
  | poses (l : List (Nat × List V))
  | errors (e : Nat × List Output.GroupNode)
  | keypoints (k : KP)
  | image (im : Img) (circles : List Images.Circle)
  | other (n : Nat)

variable {V G Pt K Img KP : Type}

/-- McCalib.cpp:1979-1988, 2060-2068: one image. -/
def writeImage (d : Disk (Content V G Pt K Img KP)) (w : Images.Written Img) : Disk (Content V G Pt K Img KP) :=
  write d w.file (.image w.image w.circles)

/-- McCalib.cpp:1893-1990, 2005-2070: the images of one camera. -/
def saveCam (save kind : Str) (d : Disk (Content V G Pt K Img KP)) (e : List (Images.Written Img) × Nat) :
    Outcome (Disk (Content V G Pt K Img KP)) := do
  let d ← kindDir save kind d
  let d ← camDir save kind e.2 d
  pure (e.1.foldl writeImage d)

/-- McCalib.cpp:1995-1998, 2075-2078: the images of all cameras. -/
def saveImages (save kind : Str) (d : Disk (Content V G Pt K Img KP)) (l : List (List (Images.Written Img))) :
    Outcome (Disk (Content V G Pt K Img KP)) :=
  Outcome.foldlM (saveCam save kind) d l.zipIdx

/-- McCalib.cpp:376-379: the file of the camera parameters. -/
def cameraFile (save name : Str) : Str :=
  if name ≠ [] then join save name else join save "calibrated_cameras_data.yml".toList

/-- McCalib.cpp:414-415 -/
def objectFile (save : Str) : Str := join save "calibrated_objects_data.yml".toList
/-- McCalib.cpp:456-457 -/
def poseFile (save : Str) : Str := join save "calibrated_objects_pose_data.yml".toList
/-- McCalib.cpp:2252-2253 -/
def errorFile (save : Str) : Str := join save "reprojection_error_data.yml".toList
/-- McCalib.cpp:494-495 -/
def keypointFile (save : Str) : Str := join save "detected_keypoints_data.yml".toList

/-- calibrate.cpp:75-83: the files, in this order. -/
def saveFiles (save name : Str) (rep : Finish.Reports V G Pt K Img) (kp : KP) (d : Disk (Content V G Pt K Img KP)) :
    Disk (Content V G Pt K Img KP) :=
  let d := write d (cameraFile save name) (.cameras rep.cameras)
  let d := write d (objectFile save) (.objects rep.objects)
  let d := write d (poseFile save) (.poses rep.poses)
  let d := write d (errorFile save) (.errors rep.errors)
  write d (keypointFile save) (.keypoints kp)

/-- calibrate.cpp:11, 66-83: what a run does to the file system, given what it has to say. -/
def saveAll (save name : Str) (rep : Finish.Reports V G Pt K Img) (kp : KP) (d : Disk (Content V G Pt K Img KP)) :
    Outcome (Disk (Content V G Pt K Img KP)) := do
  let d ← makeSaveDir d save
  let d ← saveImages save "Detection".toList d rep.detections
  let d ← saveImages save "Reprojection".toList d rep.reprojections
  pure (saveFiles save name rep kp d)

/-- `Path.exists` of pathlib, at a place. -/
def Disk.hasLoc (d : Disk C) (l : Loc) : Bool := d.dir l || (d.file l).isSome

/-- post_calibration_analysis.py:14-25: the assertions on one directory of results. -/
def analysisInputs (d : Disk C) (p : Str) : Outcome Unit :=
  let l := loc p
  if d.hasLoc l && d.hasLoc ⟨l.abs, l.names ++ ["calibrated_cameras_data.yml".toList]⟩ &&
      d.hasLoc ⟨l.abs, l.parent.names ++ ["GroundTruth.yml".toList]⟩ &&
      d.hasLoc ⟨l.abs, l.names ++ ["calibrated_objects_data.yml".toList]⟩ &&
      d.hasLoc ⟨l.abs, l.names ++ ["reprojection_error_data.yml".toList]⟩ then .ok ()
  else .throw

end Verif.Disk
