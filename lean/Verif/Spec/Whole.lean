import Verif.Props.ExactReport
import Verif.Spec.Disk

/-! What a perfect calibration leaves behind, when images link all boards and all cameras. -/
namespace Verif.Spec.Whole
open Verif Verif.Spec.Exact Verif.Props.ExactReport

variable {V G Pt K Img P Path : Type} [Group G] [MulAction G Pt]

/-- The reports on the detections `l`: `c0` is the reference camera, `b0` the reference board. -/
structure Calibrated [Zero K] [One K] (w : World G) (bpts : List (List Pt)) (nCam nBoard : Nat)
    (l : List (Insertion P Path)) (c0 b0 : Nat) (rep : Finish.Reports V G Pt K Img) : Prop where
  /-- no error is reported; all reported poses and points are true -/
  truthful : Truthful w bpts rep c0 fun _ => b0
  /-- the parameter file has all cameras with a detection, and no others -/
  cameras : ∀ c, (∃ node, Output.lookup rep.cameras c = some node) ↔ c ∈ Spec.Groups.observingCams nCam l
  /-- the file of objects has one object, and every corner of every detected board in it once -/
  corners : ∃ (i : Nat) (cols : List (Output.Column Pt)), rep.objects = [(i, cols.map some)] ∧ (cols.map fun x => (x.board, x.corner)).Nodup ∧
    ∀ b k, (b, k) ∈ cols.map (fun x => (x.board, x.corner)) ↔
      b ∈ Spec.Objects.observedBoards nBoard l ∧ k < Spec.Objects.cornerCount bpts b
  /-- the error file has an entry for the image of every detection -/
  views : ∀ a ∈ l, ∃ g ∈ rep.errors.2, ∃ f ∈ g.frames, f.frame = a.obs.frame ∧ ∃ ds, (a.obs.cam, ds) ∈ f.cams
  /-- and nothing else: it has one group, in it the frames with a detection, in each of them cameras with detections -/
  group : ∃ node, rep.errors = (1, [node]) ∧ node.group = 0 ∧ node.frameList = node.frames.map (·.frame) ∧
    node.frameList.Nodup ∧ (∀ f, f ∈ node.frameList ↔ ∃ a ∈ l, a.obs.frame = f) ∧
    ∀ f ∈ node.frames, f.cameraList = f.cams.map (·.1) ∧
      ∀ c ds, (c, ds) ∈ f.cams → ds ≠ [] ∧ ∃ a ∈ l, a.obs.frame = f.frame ∧ a.obs.cam = c

end Verif.Spec.Whole

namespace Verif.Spec.Whole
open Verif Verif.Disk Verif.Spec.Disk Verif.Folders Verif.Start Verif.Spec.Objects Verif.Spec.Groups Verif.Spec.Pipeline Verif.Props.Exact

/-- The results can be written to the directory `save`, those of the cameras under the name `name`. -/
structure Ready {C : Type} (save name : Str) (d : Disk C) : Prop where
  sound : Sound d
  clear : Clear save d
  free : ∀ b ∈ cameraName name :: reportNames, d.dir (below save [b]) = false
  name : name = [] ∨ Plain name ∧ name ∉ kinds ∧ name ∉ reportNames
  place : d.dir (loc save) = true ∨ filename save ≠ []

/-- Images showing two boards link all detected boards to the first, `b0`; common views link all cameras to the first,
`c0`; and the poses commute, or there are two cameras, or each camera has two views in common with the first. -/
structure Connected (G : Type) [Group G] {P Path : Type} (nCam nBoard : Nat) (l : List (Insertion P Path)) (b0 c0 : Nat) :
    Prop where
  firstBoard : ∀ b ∈ observedBoards nBoard l, b0 ≤ b
  boards : ∀ b ∈ observedBoards nBoard l, Relation.ReflTransGen (CoSeen l) b b0
  camera : c0 ∈ observingCams nCam l
  firstCamera : ∀ c ∈ observingCams nCam l, c0 ≤ c
  cameras : ∀ c ∈ observingCams nCam l, Relation.ReflTransGen (CamsLinked l (l.map (·.obs))) c c0
  simple : Simple G l (l.map (·.obs))

open Verif.Ransac in
/-- The pose searches give the same answer when they are asked again for the same camera and points. -/
def DataOnly {P3 P2 Pose : Type} (search : Search P3 P2 Pose) : Prop :=
  ∀ k k' c scene image, search k c scene image = search k' c scene image

open Verif.Ransac in
/-- The refinement gives every view its pose, and the cameras their parameters, in whatever order the views are stored. -/
def OrderFree {P2 Pose X : Type} (f : List (Estimated P2 Pose) → Outcome (List (Estimated P2 Pose) × X)) : Prop :=
  ∀ est r, f est = .ok r → ∃ h : Estimated P2 Pose → Estimated P2 Pose, (∀ e, (h e).obs = e.obs) ∧ r.1 = est.map h ∧
    ∀ est', est'.Perm est → f est' = .ok (est'.map h, r.2)

open Verif.Ransac in
/-- Asked about the corners it has kept, the estimation of the board poses keeps all of them and finds the same poses. -/
def Settled {P3 P2 Pose : Type} (search : Search P3 P2 Pose) (garbage : Pose) (bpts : List (List P3)) (obs : List (BoardObs P2)) :
    Prop :=
  ∀ est, estimateAllBoards search garbage bpts obs = .ok est → estimateAllBoards search garbage bpts (est.map (·.obs)) = .ok est

end Verif.Spec.Whole
