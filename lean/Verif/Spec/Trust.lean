import Verif.Spec.Objects
import Verif.Spec.Groups
import Mathlib.Algebra.Group.Basic

/-! Which measurements determine the pose of a board in its object and of a camera in its group. -/
namespace Verif.Spec.Trust
open Verif Verif.Objects

variable {G P Path : Type}

/-- The relative poses of board `b` and board `a` measured: one for each pair of observations of the two boards by one
camera in one frame; `pose i` is the pose of the board in the camera in the `i`-th observation. -/
def boardMeasures [Group G] (l : List (Insertion P Path)) (pose : Nat → G) (a b : Nat) : List G :=
  l.zipIdx.flatMap fun x => l.zipIdx.filterMap fun y =>
    if x.1.obs.cam = y.1.obs.cam ∧ x.1.obs.frame = y.1.obs.frame ∧ x.1.obs.board = a ∧ y.1.obs.board = b then
      some ((pose y.2)⁻¹ * pose x.2) else none

/-- The relative poses of camera `b` and camera `a` measured: one for each pair of observations of one object by the two
cameras in one frame; `pose i` is the pose of the object in the camera in the `i`-th object observation. -/
def cameraMeasures [Group G] (oo : List (ObjObs P)) (pose : Nat → G) (a b : Nat) : List G :=
  oo.zipIdx.flatMap fun x => oo.zipIdx.filterMap fun y =>
    if x.1.frame = y.1.frame ∧ x.1.obj = y.1.obj ∧ x.1.cam = a ∧ y.1.cam = b then
      some (pose y.2 * (pose x.2)⁻¹) else none

/-- The object observations by each camera group: group and observation. -/
def seenBy (gs : OMap Nat (Groups.CamGroup G)) (oo : List (ObjObs P)) : List (Nat × ObjObs P) :=
  gs.flatMap fun e => (oo.filter fun o => decide (o.cam ∈ OMap.keys e.2.cameras)).map fun o => (e.1, o)

/-- The relative poses of object `b` and object `a` measured: one for each pair of observations of the two objects in one frame by
cameras of one group; `pose i f j` is the pose of object `j` in group `i` in frame `f`. -/
def objectMeasures [Group G] (gs : OMap Nat (Groups.CamGroup G)) (oo : List (ObjObs P)) (pose : Nat → Nat → Nat → G) (a b : Nat) : List G :=
  (seenBy gs oo).flatMap fun x => (seenBy gs oo).filterMap fun y =>
    if x.1 = y.1 ∧ x.2.frame = y.2.frame ∧ x.2.obj = a ∧ y.2.obj = b then
      some ((pose y.1 y.2.frame b)⁻¹ * pose x.1 x.2.frame a) else none

/-- Cameras `a` and `b` have corners in common at least twice: in two frames, or in one frame of boards that are not linked
by images showing two boards at once. `l` are the stored detections, `obs` what is left after outlier removal. -/
def SeenTwice (l : List (Insertion P Path)) (obs : List (BoardObs P)) (a b : Nat) : Prop :=
  ∃ x ∈ obs, ∃ y ∈ obs, ∃ x' ∈ obs, ∃ y' ∈ obs,
    (x.cam = a ∧ y.cam = b ∧ x.frame = y.frame ∧ x.pts ≠ [] ∧ y.pts ≠ [] ∧
      Relation.ReflTransGen (Spec.Objects.CoSeen l) x.board y.board) ∧
    (x'.cam = a ∧ y'.cam = b ∧ x'.frame = y'.frame ∧ x'.pts ≠ [] ∧ y'.pts ≠ [] ∧
      Relation.ReflTransGen (Spec.Objects.CoSeen l) x'.board y'.board) ∧
    (x.frame ≠ x'.frame ∨ ¬ Relation.ReflTransGen (Spec.Objects.CoSeen l) x.board x'.board)

/-- The number of steps of a path that rest on a single measurement. -/
def weakSteps (measures : Nat → Nat → List G) (p : List Nat) : Nat :=
  (p.zip p.tail).countP fun e => (measures e.1 e.2).length == 1

end Verif.Spec.Trust
