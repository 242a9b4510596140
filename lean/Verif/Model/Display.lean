import Verif.Model.Images

/-! `Calibration::displayBoards` (McCalib.cpp:557-583): draws detections on an image, during the detection. -/
namespace Verif.Display
open Verif Verif.Images

variable {Path : Type}

/-- McCalib.cpp:564-576: one observation of a board.  An expired observation or board is skipped. -/
noncomputable def displayObs (colour : Nat → Int × Int × Int) (s : Store (ℝ × ℝ) Path) (acc : List Circle) (i : Nat) :
    List Circle :=
  match s.obs[i]? with
  | some o => if o.board < s.boards.length then acc ++ o.pts.map (circle (colour o.board)) else acc
  | none => acc

/-- McCalib.cpp:557-583 `displayBoards`: the circles drawn on the image; `colour` gives `color_` of a board. -/
noncomputable def displayBoards (colour : Nat → Int × Int × Int) (s : Store (ℝ × ℝ) Path) (c f : Nat) : List Circle :=
  match OMap.get? s.camObs (c, f) with
  | some co => co.boards.foldl (displayObs colour s) []
  | none => []

end Verif.Display
