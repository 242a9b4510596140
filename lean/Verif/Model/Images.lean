import Verif.Model.Output
import Verif.Model.Folders
import Verif.Model.Store
import Mathlib.Algebra.Order.Floor.Ring
import Mathlib.Data.Real.Archimedean

/-!
Model of the images written at the end of the workflow: `saveReprojectionImages` (McCalib.cpp:1893-1990),
`saveDetectionImages` (McCalib.cpp:2005-2070), and of `CameraGroupObs::updateObjObsPose`
(CameraGroupObs.cpp:208-218), which prepares the poses that the first one reads.

An image is kept as what `cv::imread` returned plus the list of the circles drawn on it; an empty image (file
absent, path empty) is `none`.  Drawing on an empty image has no effect.
-/
namespace Verif.Images
open Verif.Objects Verif.Groups Verif.Folders Verif.Output

variable {V G Pt Path Img : Type}

/-- `ss << std::setw(w) << std::setfill('0') << n`. -/
def paddedTo (w n : Nat) : Str := List.replicate (w - (decimal n).length) '0' ++ decimal n

/-- McCalib.cpp:1893-1900, 1980-1983 (2007-2012, 2061-2064): the file of camera `cam` and frame `f`. -/
def imageFile (save kind : Str) (cam f : Nat) : Str :=
  join (join (join save kind) (paddedTo 3 cam)) (paddedTo 6 f ++ ".jpg".toList)

/-- Conversion of a coordinate to `int` in `cv::Point(x, y)`: towards zero. -/
noncomputable def toInt (x : ℝ) : Int := if 0 ≤ x then ⌊x⌋ else ⌈x⌉

/-- A filled circle of radius 4: centre and colour. -/
structure Circle where
  x : Int
  y : Int
  colour : Int × Int × Int
  deriving DecidableEq

/-- The circle at a pixel. -/
noncomputable def circle (colour : Int × Int × Int) (q : ℝ × ℝ) : Circle := ⟨toInt q.1, toInt q.2, colour⟩

/-- McCalib.cpp:1961-1962. -/
def red : Int × Int × Int := (0, 0, 255)
def green : Int × Int × Int := (0, 255, 0)

/-! ### CameraGroupObs::updateObjObsPose -/

/-- CameraGroupObs.cpp:209-216: one object observation of the observation `k` of a group in a frame; `gp i` is
`group_pose_` of the object observation `i`, a missing pose is six zeros (map `operator[]`). -/
def updateObs (sc : Scene V G Pt) (zero : V) (k : Nat × Nat) (gp : Nat → V) (i : Nat) : Outcome (Nat → V) := do
  let x ← Outcome.idx sc.oo i
  pure (fun j => if j = i then (((OMap.get? sc.op k).bind fun m => OMap.get? m x.obj).getD zero) else gp j)

/-- CameraGroupObs.cpp:208-218. -/
def updateObjObsPose (sc : Scene V G Pt) (zero : V) (gp : Nat → V) (e : (Nat × Nat) × List Nat) :
    Outcome (Nat → V) :=
  Outcome.foldlM (updateObs sc zero e.1) gp e.2

/-- McCalib.cpp:1885-1886, 2357-2359: all group observations. -/
def updateAll (sc : Scene V G Pt) (zero : V) (gp : Nat → V) : Outcome (Nat → V) :=
  Outcome.foldlM (updateObjObsPose sc zero) gp sc.t.groupObs

/-! ### Reprojection images -/

/-- McCalib.cpp:1963-1974: body of the loop over the detected points; `pts_repro[i]` is not checked. -/
noncomputable def circleStep (seen repro : List (ℝ × ℝ)) (acc : List Circle) (i : Nat) : Outcome (List Circle) := do
  let p ← Outcome.idx repro i
  let q ← Outcome.idx seen i
  pure (acc ++ [circle red p, circle green q])

/-- McCalib.cpp:1925-1976: one object observation in the observation of group `gi`, for camera `c`; absent group
or object: nothing (`lock` fails).  `Proj2RT` and `cv::Rodrigues` are the identity on `G`. -/
noncomputable def drawReprojection [Group G] (sc : Scene V G Pt) (gp : Nat → V) (c gi : Nat) (acc : List Circle)
    (i : Nat) : Outcome (List Circle) := do
  let x ← Outcome.idx sc.oo i
  match OMap.get? sc.t.groups gi, OMap.get? sc.objs x.obj with
  | some g, some obj =>
    if x.cam = c then do
      let pts ← Outcome.foldlM (pointStep obj) [] x.ids
      let repro ← project sc c (((OMap.get? g.poses c).getD 1) * sc.ofVec (gp i)) pts
      Outcome.foldlM (circleStep x.pts repro) acc (List.range x.pts.length)
    else pure acc
  | _, _ => pure acc

/-- McCalib.cpp:1918-1977: one group observation of the frame. -/
noncomputable def drawGroup [Group G] (sc : Scene V G Pt) (gp : Nat → V) (c f : Nat) (acc : List Circle) (gi : Nat) :
    Outcome (List Circle) :=
  Outcome.foldlM (drawReprojection sc gp c gi) acc ((OMap.get? sc.t.groupObs (gi, f)).getD [])

/-- What was written: file, image read, circles drawn. -/
structure Written (Img : Type) where
  file : Str
  image : Img
  circles : List Circle

/-- McCalib.cpp:1979-1988, 2060-2068: `cv::imwrite` of an image that is not empty. -/
def write (save kind : Str) (c f : Nat) (image : Option Img) (circles : List Circle) (out : List (Written Img)) :
    List (Written Img) :=
  match image with
  | none => out
  | some im => out ++ [⟨imageFile save kind c f, im, circles⟩]

/-- McCalib.cpp:1911-1989: one frame; `frame_path_[cam_id]` is the empty path for a camera that has none. -/
noncomputable def reprojectionFrame [Group G] (sc : Scene V G Pt) (gp : Nat → V) (imread : Path → Option Img)
    (emptyPath : Path) (save : Str) (c : Nat) (out : List (Written Img)) (e : Nat × FrameRec Path) :
    Outcome (List (Written Img)) := do
  let image := imread ((OMap.get? e.2.paths c).getD emptyPath)
  let circles ← Outcome.foldlM (drawGroup sc gp c e.1) [] ((OMap.get? sc.t.frameGroups e.1).getD [])
  pure (write save "Reprojection".toList c e.1 image circles out)

/-- McCalib.cpp:1893-1990 `saveReprojectionImages`. -/
noncomputable def saveReprojectionImages [Group G] (sc : Scene V G Pt) (gp : Nat → V) (imread : Path → Option Img)
    (emptyPath : Path) (save : Str) (frames : OMap Nat (FrameRec Path)) (c : Nat) : Outcome (List (Written Img)) :=
  Outcome.foldlM (reprojectionFrame sc gp imread emptyPath save c) [] frames

/-! ### Detection images -/

/-- McCalib.cpp:2038-2053: one object observation; `colour` is `color_` of the object. -/
noncomputable def drawDetection (sc : Scene V G Pt) (colour : Nat → Int × Int × Int) (c : Nat) (acc : List Circle)
    (i : Nat) : Outcome (List Circle) := do
  let x ← Outcome.idx sc.oo i
  match OMap.get? sc.objs x.obj with
  | some _ => pure (if x.cam = c then acc ++ x.pts.map (circle (colour x.obj)) else acc)
  | none => pure acc

/-- McCalib.cpp:2030-2056: one group observation of the frame. -/
noncomputable def detectGroup (sc : Scene V G Pt) (colour : Nat → Int × Int × Int) (c f : Nat) (acc : List Circle)
    (gi : Nat) : Outcome (List Circle) :=
  Outcome.foldlM (drawDetection sc colour c) acc ((OMap.get? sc.t.groupObs (gi, f)).getD [])

/-- McCalib.cpp:2024-2069: one frame. -/
noncomputable def detectionFrame (sc : Scene V G Pt) (colour : Nat → Int × Int × Int) (imread : Path → Option Img)
    (emptyPath : Path) (save : Str) (c : Nat) (out : List (Written Img)) (e : Nat × FrameRec Path) :
    Outcome (List (Written Img)) := do
  let image := imread ((OMap.get? e.2.paths c).getD emptyPath)
  let circles ← Outcome.foldlM (detectGroup sc colour c e.1) [] ((OMap.get? sc.t.frameGroups e.1).getD [])
  pure (write save "Detection".toList c e.1 image circles out)

/-- McCalib.cpp:2005-2070 `saveDetectionImages`. -/
noncomputable def saveDetectionImages (sc : Scene V G Pt) (colour : Nat → Int × Int × Int)
    (imread : Path → Option Img) (emptyPath : Path) (save : Str) (frames : OMap Nat (FrameRec Path)) (c : Nat) :
    Outcome (List (Written Img)) :=
  Outcome.foldlM (detectionFrame sc colour imread emptyPath save c) [] frames

end Verif.Images
