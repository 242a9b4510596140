import Verif.Model.Groups
import Verif.Spec.Objects

/-! Specification vocabulary for camera groups. -/
namespace Verif.Spec.Groups
open Verif Verif.Objects Verif.Groups

variable {G Pt P Path : Type}

/-- Cameras `a` and `b` observed the same object in the same frame. -/
def ShareObject (oo : List (ObjObs P)) (a b : Nat) : Prop :=
  a ≠ b ∧ ∃ x ∈ oo, ∃ y ∈ oo, x.frame = y.frame ∧ x.obj = y.obj ∧ x.cam = a ∧ y.cam = b

/-- The cameras with an observation, in increasing order. -/
def observingCams (nCam : Nat) (l : List (Insertion P Path)) : List Nat :=
  (List.range nCam).filter fun c => l.any fun a => a.obs.cam == c

/-- Camera `c` sees some corner of a board of object `o` in frame `f`. -/
def Sees (obs : List (BoardObs P)) (o : Object G Pt) (c f : Nat) : Prop :=
  ∃ bo ∈ obs, bo.cam = c ∧ bo.frame = f ∧ bo.board ∈ OMap.keys o.boards ∧ bo.pts ≠ []

/-- The cameras of two different groups do not meet, a group's reference camera is its least camera
and has the identity pose, groups are listed under their number, every camera of a group has exactly
one entry in each of the group's tables. -/
structure Collection [Group G] (gs : OMap Nat (CamGroup G)) : Prop where
  sorted : OMap.Sorted gs
  id : ∀ i g, OMap.get? gs i = some g → g.id = i
  cameras_sorted : ∀ i g, OMap.get? gs i = some g → OMap.Sorted g.cameras
  poses_sorted : ∀ i g, OMap.get? gs i = some g → OMap.Sorted g.poses
  poses : ∀ i g, OMap.get? gs i = some g → OMap.keys g.poses = OMap.keys g.cameras
  camIdx : ∀ i g, OMap.get? gs i = some g → g.camIdx.Perm (OMap.keys g.cameras)
  disjoint : ∀ i j g g', OMap.get? gs i = some g → OMap.get? gs j = some g' →
    ∀ c, c ∈ OMap.keys g.cameras → c ∈ OMap.keys g'.cameras → i = j
  ref_mem : ∀ i g, OMap.get? gs i = some g → g.refCam ∈ OMap.keys g.cameras
  ref_least : ∀ i g, OMap.get? gs i = some g → ∀ c ∈ OMap.keys g.cameras, g.refCam ≤ c
  ref_pose : ∀ i g, OMap.get? gs i = some g → OMap.get? g.poses g.refCam = some 1
  ref_incr : ∀ i j g g', OMap.get? gs i = some g → OMap.get? gs j = some g' → i < j →
    g.refCam < g'.refCam

end Verif.Spec.Groups

namespace Verif.Spec.Groups
open Verif Verif.Objects Verif.Groups

variable {G Pt P Path : Type}

/-- The table of group observations is what it should be for the object observations `oo`: one entry
per group and frame in which a camera of the group saw an object, listing these observations once. -/
structure GroupObsOf (oo : List (ObjObs P)) (frames : List Nat) (t : GroupTables G) : Prop where
  sorted : OMap.Sorted t.groupObs
  obs : ∀ i f is, OMap.get? t.groupObs (i, f) = some is ↔
    ∃ g, OMap.get? t.groups i = some g ∧ f ∈ frames ∧ is ≠ [] ∧
      is = Spec.Store.positions
        (fun o : ObjObs P => o.frame == f && decide (o.cam ∈ OMap.keys g.cameras)) oo

/-- Objects `a`, `b` were seen in one frame by cameras of one group. -/
def SeenTogether (gs : OMap Nat (CamGroup G)) (oo : List (ObjObs P)) (a b : Nat) : Prop :=
  a ≠ b ∧ ∃ i g x y, OMap.get? gs i = some g ∧ x ∈ oo ∧ y ∈ oo ∧ x.frame = y.frame ∧
    x.cam ∈ OMap.keys g.cameras ∧ y.cam ∈ OMap.keys g.cameras ∧ x.obj = a ∧ y.obj = b

/-- The objects with an observation, in increasing order. -/
def observedObjects (objs : OMap Nat (Object G Pt)) (oo : List (ObjObs P)) : List Nat :=
  (OMap.keys objs).filter fun i => oo.any fun o => o.obj == i

end Verif.Spec.Groups
