import Verif.Model.Folders
import Verif.Model.Detection
import Verif.Model.Output
import Verif.Model.Ransac

/-!
Model of where the program takes its input from: `main` (apps/calibrate/src/calibrate.cpp:87-106), `boardExtraction`
(McCalib.cpp:219-226), `detectBoards` (140-170) with `detectBoardsWithCamera` (234-261), the choice made in
`initializeCalibrationAllCam` (662-695).

The file system is a parameter: which paths exist, what `cv::glob` lists, the images, the parsed files.
-/
namespace Verif.Start
open Verif Verif.Folders

/-- `std::filesystem::path::filename` on POSIX: what follows the last slash. -/
def filename (p : Str) : Str :=
  match findLast '/' p with
  | some i => p.drop (i + 1)
  | none => p

/-- `std::filesystem::path::extension`: from the last full stop of the file name on; none if there is no full stop, if it
is the first character, and for `.` and `..`. -/
def pathExtension (p : Str) : Str :=
  if filename p = ".".toList ∨ filename p = "..".toList then []
  else match findLast '.' (filename p) with
    | none => []
    | some 0 => []
    | some (i + 1) => (filename p).drop (i + 1)

/-- calibrate.cpp:90-92, McCalib.cpp:665-667: `exists && has_filename && extension == ".yml"`. -/
def available (fileExists : Str → Bool) (p : Str) : Bool :=
  fileExists p && (filename p ≠ []) && (pathExtension p = ".yml".toList)

/-- calibrate.cpp:87-106 `main`: the value returned; `argv[argc]` is the null pointer, from which no path can be made. -/
def main (fileExists : Str → Bool) (workflow : Str → Outcome Unit) (argv : List Str) : Outcome Int :=
  match argv[1]? with
  | none => .ub
  | some p => if available fileExists p then workflow p >>= fun _ => .ok 0 else .ok (-1)

/-- McCalib.cpp:219-226 `boardExtraction`: `load` reads the keypoint file, `detect` the images. -/
def boardExtraction {α : Type} (fileExists : Str → Bool) (keypoints : Str) (load : Str → Outcome α) (detect : Outcome α) :
    Outcome α :=
  if keypoints ≠ [] ∧ keypoints ≠ "None".toList ∧ fileExists keypoints = true then load keypoints else detect

/-- McCalib.cpp:240-247: the image size of a camera, from its first image; `debug`: `assert` is compiled in.  An image
that cannot be read has no columns and no rows. -/
def firstSize (debug : Bool) (imread : Str → Option (Nat × Nat)) (old : Option (Nat × Nat)) :
    List Str → Outcome (Option (Nat × Nat))
  | [] => .ok old
  | p :: _ =>
    match imread p with
    | some sz => .ok (some sz)
    | none => if debug then .throw else .ok (some (0, 0))

/-- McCalib.cpp:145-169 with 240-247: the size of one camera. -/
def sizeStep (debug : Bool) (imread : Str → Option (Nat × Nat)) (glob : Str → List Str) (root pre : Str)
    (acc : List (Option (Nat × Nat))) (c : Nat) : Outcome (List (Option (Nat × Nat))) := do
  let sz ← firstSize debug imread none (images glob root pre c)
  pure (acc ++ [sz])

/-- McCalib.cpp:140-170: the sizes of all cameras. -/
def imageSizes (debug : Bool) (imread : Str → Option (Nat × Nat)) (glob : Str → List Str) (root pre : Str) (nbCam : Nat) :
    Outcome (List (Option (Nat × Nat))) :=
  Outcome.foldlM (sizeStep debug imread glob root pre) [] (List.range nbCam)

/-- McCalib.cpp:248-261: one posted image: what the task will insert (`raw`: the answer of the detector on this image). -/
def taskStep {K P : Type} [Field K] [LinearOrder K] (fitLine : List (K × K) → K × K × K × K) (cfg : Detection.Cfg)
    (geoms : List (Detection.Geom K)) (raw : Str → Option (Nat → Detection.Raw P)) (c : Nat)
    (acc : List (List (Insertion P Str))) (e : Str × Nat) : Outcome (List (List (Insertion P Str))) := do
  let t ← Detection.detectImage fitLine cfg geoms c e.2 e.1 (raw e.1)
  pure (acc ++ [t])

/-- McCalib.cpp:145-169: the tasks of one camera. -/
def cameraStep {K P : Type} [Field K] [LinearOrder K] (fitLine : List (K × K) → K × K × K × K) (cfg : Detection.Cfg)
    (geoms : List (Detection.Geom K)) (raw : Str → Option (Nat → Detection.Raw P)) (glob : Str → List Str) (root pre : Str)
    (acc : List (List (List (Insertion P Str)))) (c : Nat) : Outcome (List (List (List (Insertion P Str)))) := do
  let ts ← Outcome.foldlM (taskStep fitLine cfg geoms raw c) [] (images glob root pre c).zipIdx
  pure (acc ++ [ts])

/-- McCalib.cpp:140-170: the tasks of all cameras (`Detection.Schedule` says in which orders they may run). -/
def cameraTasks {K P : Type} [Field K] [LinearOrder K] (fitLine : List (K × K) → K × K × K × K) (cfg : Detection.Cfg)
    (geoms : List (Detection.Geom K)) (raw : Str → Option (Nat → Detection.Raw P)) (glob : Str → List Str) (root pre : Str)
    (nbCam : Nat) : Outcome (List (List (List (Insertion P Str)))) :=
  Outcome.foldlM (cameraStep fitLine cfg geoms raw glob root pre) [] (List.range nbCam)

/-- McCalib.cpp:662-695 `initializeCalibrationAllCam`, the intrinsics of the cameras afterwards (`none`: never written;
`intrinsics_` has no initialiser, Camera.hpp:45).  `fromFile` reads a parameter file, `fromImages` calibrates. -/
def initializeCalibrationAllCam {I : Type} (fileExists : Str → Bool) (params : Str) (nbCam : Nat)
    (fromFile : Str → Outcome (List I)) (fromImages : Outcome (List I)) : Outcome (List (Option I)) :=
  if params ≠ [] ∧ params ≠ "None".toList then
    if available fileExists params then fromFile params >>= fun l => .ok (l.map some)
    else .ok (List.replicate nbCam none)
  else fromImages >>= fun l => .ok (l.map some)

/-- BoardObs.cpp:136-139: the pose search of an observation reads the intrinsics of its camera. -/
def searchWith {I P3 P2 Pose : Type} (cams : List (Option I)) (search : I → Ransac.Search P3 P2 Pose) :
    Ransac.Search P3 P2 Pose := fun k c scene image => do
  let x ← Outcome.idx cams c
  let i ← Outcome.deref x
  search i k c scene image

end Verif.Start
