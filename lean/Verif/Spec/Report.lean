import Verif.Model.Output
import Verif.Spec.NonOverlap
import Verif.Spec.Projection

/-! What a reprojection report must contain. -/
namespace Verif.Spec.Report
open Verif Verif.Output Verif.Objects Verif.Groups

variable {V G Pt : Type}

/-- The quantities that determine where a point is expected in an image. -/
structure Reading (G Pt : Type) where
  /-- group of a camera -/
  group : Nat → Nat
  /-- pose of a camera (maps points of the frame of its group to its own) -/
  camPose : Nat → G
  /-- pose of an object in a frame, in the frame of a group: group, frame, object -/
  objPose : Nat → Nat → Nat → G
  /-- the points of the objects: object, number -/
  pt : Nat → Nat → Pt
  /-- pixel of a point given in the frame of a camera -/
  pix : Nat → Pt → ℝ × ℝ

/-- The distances, in pixels, between the corners of an object observation and their projections. -/
noncomputable def errors [Group G] [SMul G Pt] (r : Reading G Pt) (o : ObjObs (ℝ × ℝ)) : List ℝ :=
  (o.pts.zip o.ids).map fun e =>
    let p := r.pix o.cam (r.camPose o.cam • r.objPose (r.group o.cam) o.frame o.obj • r.pt o.obj e.2)
    Real.sqrt ((e.1.1 - p.1) ^ 2 + (e.1.2 - p.2) ^ 2)

/-- The tables of the calibration hold these quantities: each observation has points, as many as ids, is
of a known camera, object and frame; poses of cameras and objects are the stored ones; the projection
functions project each point. -/
structure Holds [Group G] [SMul G Pt] (sc : Output.Scene V G Pt) (frames : List Nat) (r : Reading G Pt) :
    Prop where
  groups : Spec.Groups.Collection sc.t.groups
  groupObs : Spec.Groups.GroupObsOf sc.oo frames sc.t
  lists : Spec.NonOverlap.ListsCover sc.t
  /-- each frame lists the groups that have an observation in it -/
  frameGroups : ∀ f, (OMap.get? sc.t.frameGroups f).getD [] = (OMap.keys sc.t.groups).filter fun i =>
    (OMap.get? sc.t.groupObs (i, f)).isSome
  frame : ∀ o ∈ sc.oo, o.frame ∈ frames
  group : ∀ o ∈ sc.oo, ∃ g, OMap.get? sc.t.groups (r.group o.cam) = some g ∧ o.cam ∈ OMap.keys g.cameras
  camPose : ∀ i g c, OMap.get? sc.t.groups i = some g → c ∈ OMap.keys g.cameras →
    OMap.get? g.poses c = some (r.camPose c)
  objPose : ∀ o ∈ sc.oo, ∃ m v, OMap.get? sc.op (r.group o.cam, o.frame) = some m ∧
    OMap.get? m o.obj = some v ∧ sc.ofVec v = r.objPose (r.group o.cam) o.frame o.obj
  pts : ∀ o ∈ sc.oo, ∃ obj, OMap.get? sc.objs o.obj = some obj ∧
    ∀ k ∈ o.ids, obj.pts[k]? = some (r.pt o.obj k)
  nonempty : ∀ o ∈ sc.oo, o.ids ≠ []
  aligned : ∀ o ∈ sc.oo, o.pts.length = o.ids.length
  model : ∀ o ∈ sc.oo, sc.model o.cam = 0 ∨ sc.model o.cam = 1
  brown : ∀ c g ps, ps ≠ [] → sc.projBrown c g ps = .ok (ps.map fun p => r.pix c (g • p))
  kannala : ∀ c g ps, ps ≠ [] → sc.projKannala c g ps = .ok (ps.map fun p => r.pix c (g • p))

/-- Arithmetic mean. -/
noncomputable def mean (l : List ℝ) : ℝ := l.sum / l.length

/-- The observations of a group in a frame: camera and distances, in the order of the observations. -/
noncomputable def frameErrors [Group G] [SMul G Pt] (sc : Output.Scene V G Pt) (r : Reading G Pt)
    (g : CamGroup G) (f : Nat) : List (Nat × List ℝ) :=
  (sc.oo.filter fun o => o.frame == f && decide (o.cam ∈ OMap.keys g.cameras)).map fun o =>
    (o.cam, errors r o)

end Verif.Spec.Report
