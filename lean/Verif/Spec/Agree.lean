import Verif.Model.Finish
import Verif.Model.Keypoints

/-! How the files of results must fit together. -/
namespace Verif.Spec.Agree
open Verif Verif.Output

variable {V G Pt K P Path : Type}

/-- What the keypoint file says camera `c` saw in frame `f`: board, corner, pixel. -/
def corners (kp : KeyFile P Path) (c f : Nat) : List (Nat × Nat × P) :=
  match OMap.get? kp.cams c with
  | none => []
  | some cf => ((cf.frameIdxs.zip cf.boardIdxs).zip (cf.pts.zip cf.ids)).flatMap fun r =>
      if r.1.1 = f then (r.2.1.zip r.2.2).map fun e => (r.1.2, e.2, e.1) else []

/-- Is this column that of corner `k` of board `b`? -/
def isCorner (b k : Nat) (x : Option (Column Pt)) : Bool := x.any fun x => x.board == b && x.corner == k

/-- The corners seen by camera `c` in frame `f` that belong to an object with these columns. -/
def share (kp : KeyFile P Path) (cols : List (Option (Column Pt))) (c f : Nat) : List (Nat × Nat × P) :=
  (corners kp c f).filter fun e => cols.any (isCorner e.1 e.2.1)

/-- The files of keypoints, camera parameters, objects, object poses and reprojection errors. -/
structure Agree (kp : KeyFile P Path) (cams : List (CamEntry K G)) (objects : List (Nat × List (Option (Column Pt))))
    (poses : List (Nat × List V)) (errors : Nat × List GroupNode) : Prop where
  /-- every corner in the keypoint file has one column in the file of objects -/
  placed : ∀ c f, ∀ e ∈ corners kp c f, ((objects.flatMap (·.2)).filter (isCorner e.1 e.2.1)).length = 1
  /-- objects are listed once, and in the same order in both files -/
  numbers : (objects.map (·.1)).Nodup ∧ poses.map (·.1) = objects.map (·.1)
  /-- an object has as many poses as there are images with a corner of it, times the number of objects -/
  poseCount : ∀ (i : Nat) cols ps, (i, cols) ∈ objects → (i, ps) ∈ poses → ∃ views : List (Nat × Nat), views.Nodup ∧
    (∀ c f, (c, f) ∈ views ↔ share kp cols c f ≠ []) ∧ ps.length = objects.length * views.length
  /-- groups are numbered from 0, and no frame is listed twice in a group -/
  groups : errors.1 = errors.2.length ∧ errors.2.map (·.group) = List.range errors.2.length ∧
    ∀ n ∈ errors.2, (n.frames.map (·.frame)).Nodup
  /-- images with a corner have errors, and no others -/
  views : ∀ c f, corners kp c f ≠ [] ↔ ∃ n ∈ errors.2, ∃ fr ∈ n.frames, fr.frame = f ∧ c ∈ fr.cams.map (·.1)
  /-- a camera has errors in one group only -/
  oneGroup : ∀ n ∈ errors.2, ∀ n' ∈ errors.2, ∀ fr ∈ n.frames, ∀ fr' ∈ n'.frames, ∀ c, c ∈ fr.cams.map (·.1) →
    c ∈ fr'.cams.map (·.1) → n.group = n'.group
  /-- object by object, there is one distance for every corner; all this as many times as there are objects -/
  distances : ∀ n ∈ errors.2, ∀ fr ∈ n.frames, ∀ c ∈ fr.cams.map (·.1),
    (fr.cams.filter fun e => e.1 == c).map (·.2.length) = (List.replicate objects.length
      ((objects.map fun o => (share kp o.2 c fr.frame).length).filter (· ≠ 0))).flatten
  /-- the parameter file has the cameras of the first group -/
  cameras : ∀ n ∈ errors.2, ∀ fr ∈ n.frames, ∀ c ∈ fr.cams.map (·.1), (lookup cams c).isSome = true ↔ n.group = 0
  /-- with the sizes of their images -/
  sizes : ∀ c node, lookup cams c = some node → ∃ cf, OMap.get? kp.cams c = some cf ∧ cf.size = (node.width, node.height)
  /-- and says how many cameras there are -/
  number : errors.2 ≠ [] → cams.head? = some (.nbCamera kp.nbCamera)

/-- A detection of four or more corners of its board, each with its pixel. -/
structure Usable (bpts : List (List Pt)) (o : BoardObs P) : Prop where
  aligned : o.pts.length = o.ids.length
  four : 4 ≤ o.pts.length
  corners : ∀ k ∈ o.ids, ∃ m, bpts[o.board]? = some m ∧ k < m.length

end Verif.Spec.Agree
