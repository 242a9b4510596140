import Verif.Model.Images
import Verif.Spec.Report

/-! What the images written at the end must show. -/
namespace Verif.Spec.Images
open Verif Verif.Images Verif.Objects Verif.Spec.Report

variable {V G Pt Path Img : Type}

/-- Where the corners of an observation are expected in the image of the camera that made it, with the pixel where
each was seen. -/
noncomputable def expected [Group G] [SMul G Pt] (r : Reading G Pt) (o : ObjObs (ℝ × ℝ)) : List ((ℝ × ℝ) × (ℝ × ℝ)) :=
  (o.pts.zip o.ids).map fun e =>
    (r.pix o.cam (r.camPose o.cam • r.objPose (r.group o.cam) o.frame o.obj • r.pt o.obj e.2), e.1)

/-- The observations of a camera in a frame. -/
def seenBy (oo : List (ObjObs (ℝ × ℝ))) (c f : Nat) : List (ObjObs (ℝ × ℝ)) :=
  oo.filter fun o => o.frame == f && o.cam == c

/-- Fractions of a pixel are dropped. -/
noncomputable def cut (x : ℝ) : Int := if 0 ≤ x then ⌊x⌋ else -⌊-x⌋

/-- A circle centred at a pixel. -/
noncomputable def mark (colour : Int × Int × Int) (q : ℝ × ℝ) : Circle := { x := cut q.1, y := cut q.2, colour := colour }

/-- A reprojection image (colours in the order blue, green, red): for each corner seen by the camera in the frame a red circle where it is expected and a green
one where it was seen. -/
noncomputable def reprojections [Group G] [SMul G Pt] (r : Reading G Pt) (oo : List (ObjObs (ℝ × ℝ))) (c f : Nat) :
    List Circle :=
  (seenBy oo c f).flatMap fun o => (expected r o).flatMap fun e => [mark (0, 0, 255) e.1, mark (0, 255, 0) e.2]

/-- A detection image: for each corner seen by the camera in the frame a circle, in the colour of its object. -/
noncomputable def detections (colour : Nat → Int × Int × Int) (oo : List (ObjObs (ℝ × ℝ))) (c f : Nat) : List Circle :=
  (seenBy oo c f).flatMap fun o => o.pts.map (mark (colour o.obj))

/-- One file per frame in which the camera has an image that can be read. -/
def files (imread : Path → Option Img) (emptyPath : Path) (save kind : Folders.Str) (frames : OMap Nat (FrameRec Path))
    (c : Nat) (draw : Nat → List Circle) : List (Written Img) :=
  frames.filterMap fun e => (imread ((OMap.get? e.2.paths c).getD emptyPath)).map fun im =>
    ⟨imageFile save kind c e.1, im, draw e.1⟩

end Verif.Spec.Images
