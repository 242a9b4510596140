import Verif.Model.FromConfig

/-!
The intrinsics of a run that are read from a camera parameter file (`cam_params_path`), McCalib.cpp:662-687: `Model/FromConfig`
leaves open what the program makes of the contents of the file; here `initializeCalibrationAllCam` is put in.
-/
namespace Verif.Feedback
open Verif Verif.Folders Verif.Start Verif.Disk Verif.Pipeline Verif.Ransac Verif.FromConfig

variable {V G Pt K K' Q Img : Type}

/-- McCalib.cpp:104-113 with Camera.cpp:17-18: the cameras as the constructor makes them; the array of intrinsics holds
anything (`blank`), no image has been read. -/
def cameras (blank : Nat → Camera.Intr K) (models : List Int) : List (Output.CamData K) :=
  models.zipIdx.map fun e => ⟨e.1, blank e.2, none⟩

/-- McCalib.cpp:676-687 -/
def given (blank : Nat → Camera.Intr K) (models : List Int) (F : List (Output.CamEntry K G)) : Outcome (List (Output.CamData K)) :=
  Output.loadCamerasParams F (cameras blank models)

/-- McCalib.cpp:662-687 and, with `fix_intrinsic`, the absence of any later change of the intrinsics (McCalib.cpp:2088,
calibrate.cpp:62; C38): the numerical parts of a run whose intrinsics are read from the contents of a file.  They may depend
on the contents in any way, but the cameras that are saved are those that were read.  Simplified, as in `searchFrom`: the
undefined behaviour of reading parameters that the file does not have shows at the first pose search. -/
def feed (blank : Nat → Camera.Intr K) (x : Parts V G Pt K K' Q Img) : Parts V G Pt K K' Q Img :=
  { x with numeric := fun t ini =>
      let y := x.numeric t ini
      match ini with
      | .file (.cameras F) =>
        match given blank t.models F with
        | .ok cams => if t.free then y else { y with en := { y.en with cams := cams } }
        | _ => { y with search := fun _ _ _ _ => .ub }
      | _ => y }

end Verif.Feedback
