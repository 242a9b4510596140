import Verif.Model.Refine

/-! Which parameters a refinement may change. -/
namespace Verif.Spec.Refine
open Verif.Refine Rigid Objects Groups

variable {G : Type}

/-- Intrinsic refinement of camera `c`: its intrinsics and the poses of its valid board observations. -/
def IntrinsicScope (sc : Scene G) (c : Nat) : Param → Prop
  | .boardObs i => i ∈ sc.camBoards c ∧ ∃ bo, sc.obs[i]? = some bo ∧ bo.valid = true
  | .intr c' => c' = c
  | _ => False

/-- Refinement of an object: the poses of its observations and of its boards, except the reference board. -/
def ObjectScope (sc : Scene G) (o : Object G (Vec3 ℝ)) : Param → Prop
  | .objObs i => ∃ x, sc.oo[i]? = some x ∧ x.obj = o.id
  | .boardPose j b => j = o.id ∧ b ≠ o.refBoard
  | _ => False

/-- Refinement of a group alone: the poses of its cameras, except the reference camera, and the poses of
the objects in its observations. -/
def GroupScope (g : CamGroup G) : Param → Prop
  | .camPose gi c => gi = g.id ∧ c ≠ g.refCam
  | .objPose gi _ _ => gi = g.id
  | _ => False

/-- Joint refinement of a group and of the objects: in addition the poses of the boards in the objects,
except reference boards. -/
def GroupObjectScope (sc : Scene G) (g : CamGroup G) : Param → Prop
  | .boardPose j b => ∃ o, OMap.get? sc.objs j = some o ∧ b ≠ o.refBoard
  | k => GroupScope g k

/-- With intrinsics: in addition the intrinsics of cameras that made an observation of the group. -/
def GroupIntrinsicScope (sc : Scene G) (g : CamGroup G) : Param → Prop
  | .intr c => ∃ x ∈ sc.oo, x.cam = c
  | k => GroupObjectScope sc g k

/-- The tables: identifiers are the keys, keys are distinct. -/
structure Keyed (sc : Scene G) : Prop where
  objs : ∀ x ∈ sc.objs, x.2.id = x.1 ∧ OMap.get? sc.objs x.1 = some x.2
  groups : ∀ x ∈ sc.t.groups, x.2.id = x.1 ∧ OMap.get? sc.t.groups x.1 = some x.2

end Verif.Spec.Refine
