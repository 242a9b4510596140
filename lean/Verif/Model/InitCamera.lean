import Verif.Model.Store
import Verif.Model.Camera
import Mathlib.Algebra.Order.Field.Basic

/-!
Model of the initialisation of the intrinsic parameters: `Camera::initializeCalibration`
(Camera.cpp:162-238), `Camera::checkBorderToleranceFisheye` (Camera.cpp:247-262) and the loop over the
cameras in `Calibration::initializeCalibrationAllCam` (McCalib.cpp:689-694).  The other branch of that
function is in Model/Output.lean.

`cv::calibrateCamera` and `cv::fisheye::calibrate` are parameters.  `std::shuffle` is: any list; the
theorems assume a permutation.  The weak pointers to boards and observations are alive (Calibration owns
them).  Rounding is not modelled.
-/
namespace Verif.InitCamera
open Verif Verif.Rigid

variable {K Pt : Type}

section
variable [Field K] [LinearOrder K]

/-- Camera.cpp:253-257: the test of one point. -/
def nearBorder (margin cols rows : K) (p : K × K) : Bool :=
  p.1 ≤ cols * margin || p.1 ≥ cols - cols * margin || p.2 ≤ rows * margin || p.2 ≥ rows - rows * margin

/-- Camera.cpp:247-262 `checkBorderToleranceFisheye`: the loop ends at the first point near the border. -/
def checkBorder (margin cols rows : K) : List (K × K) → Bool
  | [] => true
  | p :: ps => if nearBorder margin cols rows p then false else checkBorder margin cols rows ps

/-- Camera.hpp:31: `border_marging`. -/
def margin : K := 5 / 100

/-- Camera.cpp:182-189: the number of boards used. -/
def boardsUsed (model : Int) (n : Nat) : Nat :=
  let k := if model = 1 then 500 else 50
  if n < k then n else k

/-- Camera.cpp:211-213, body of the loop: one model point. -/
def pointStep (pts : List Pt) (acc : List Pt) (i : Nat) : Outcome (List Pt) := do
  let p ← Outcome.idx pts i
  pure (acc ++ [p])

/-- Camera.cpp:196-218, body of the loop; the state is `obj_points`, `img_points`. -/
def boardStep (bpts : List (List Pt)) (obs : List (BoardObs (K × K))) (refs : List Nat) (model : Int)
    (cols rows : K) (shuffled : List Nat) (st : List (List Pt) × List (List (K × K))) (i : Nat) :
    Outcome (List (List Pt) × List (List (K × K))) := do
  let j ← Outcome.idx shuffled i
  let r ← Outcome.idx refs j
  let o ← Outcome.idx obs r
  if (if model = 1 then checkBorder margin cols rows o.pts else true) then do
    let board ← Outcome.idx bpts o.board
    let pts ← Outcome.foldlM (pointStep board) [] o.ids
    pure (st.1 ++ [pts], st.2 ++ [o.pts])
  else pure st

/-- Camera.cpp:162-218: the correspondences passed to OpenCV. -/
def correspondences (bpts : List (List Pt)) (obs : List (BoardObs (K × K))) (refs : List Nat) (model : Int)
    (cols rows : K) (shuffled : List Nat) : Outcome (List (List Pt) × List (List (K × K))) :=
  Outcome.foldlM (boardStep bpts obs refs model cols rows shuffled) ([], [])
    (List.range (boardsUsed model refs.length))

/-- `cv::calibrateCamera` and `cv::fisheye::calibrate`. -/
structure Lib (K Pt : Type) where
  brown : List (List Pt) → List (List (K × K)) → K → K → Outcome (Mat3 K × List K)
  fisheye : List (List Pt) → List (List (K × K)) → K → K → Outcome (Mat3 K × List K)

/-- Camera.cpp:162-238 `initializeCalibration`, the new intrinsic parameters.  For another distortion
model no matrix is computed and the empty one is read. -/
def initializeCalibration (lib : Lib K Pt) (bpts : List (List Pt)) (obs : List (BoardObs (K × K)))
    (refs : List Nat) (model : Int) (cols rows : K) (I : Camera.Intr K) (shuffled : List Nat) :
    Outcome (Camera.Intr K) := do
  let (obj, img) ← correspondences bpts obs refs model cols rows shuffled
  let (M, d) ← if model = 0 then lib.brown obj img cols rows
    else if model = 1 then lib.fisheye obj img cols rows
    else .ub
  Camera.setIntrinsics model I M d

/-- What the initialisation uses of a camera. -/
structure Cam (K : Type) where
  model : Int
  cols : K
  rows : K
  intr : Camera.Intr K

/-- McCalib.cpp:692-693, body of the loop over the cameras; `shuffles` gives the shuffled list of each
camera. -/
def cameraStep (lib : Lib K Pt) (bpts : List (List Pt)) (s : Store (K × K) Path) (cams : List (Cam K))
    (shuffles : Nat → List Nat) (acc : List (Camera.Intr K)) (c : Nat) : Outcome (List (Camera.Intr K)) := do
  let cam ← Outcome.idx cams c
  let r ← Outcome.idx s.cams c
  let I ← initializeCalibration lib bpts s.obs r.boards cam.model cam.cols cam.rows cam.intr (shuffles c)
  pure (acc ++ [I])

/-- McCalib.cpp:689-694: all cameras, when no parameter file is given. -/
def initializeAll (lib : Lib K Pt) (bpts : List (List Pt)) (s : Store (K × K) Path) (cams : List (Cam K))
    (shuffles : Nat → List Nat) : Outcome (List (Camera.Intr K)) :=
  Outcome.foldlM (cameraStep lib bpts s cams shuffles) [] (List.range cams.length)

end
end Verif.InitCamera
