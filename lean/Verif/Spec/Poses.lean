import Verif.Model.Poses

/-!
What the pose accessors promise, in terms of the calls made and of the answers only.
-/
namespace Verif.Spec.Poses
open Verif Verif.Rigid Verif.Poses

variable {K : Type} [Field K]

/-- The pose a call writes for the id, as a rotation vector and a translation. -/
def wrote (ro : Rodrigues K) (id : Nat) : Call K → Option (Vec3 K × Vec3 K)
  | .setVec i r T => if i = id then some (r, T) else none
  | .setMat i M => if i = id then some (ro.toVec (projRot M), projTrans M) else none
  | _ => none

/-- The pose of the last call that wrote one for the id; before any, no rotation and no translation. -/
def lastPose (ro : Rodrigues K) (id : Nat) (cs : List (Call K)) : Vec3 K × Vec3 K :=
  ((cs.filterMap (wrote ro id)).getLast?).getD (0, 0)

/-- The answer a call must give when the pose of each id is `pose`. -/
def expected (ro : Rodrigues K) (pose : Nat → Vec3 K × Vec3 K) : Call K → Answer K
  | .setVec _ _ _ => .none
  | .setMat _ _ => .none
  | .getVec id => .vecs (pose id).1 (pose id).2
  | .getMat id => .mat (RT2Proj (ro.toMat (pose id).1) (pose id).2)
  | .getRot id => .vec (pose id).1
  | .getTrans id => .vec (pose id).2

/-- The id a call is about. -/
def about : Call K → Nat
  | .setVec id _ _ => id
  | .setMat id _ => id
  | .getVec id => id
  | .getMat id => id
  | .getRot id => id
  | .getTrans id => id

end Verif.Spec.Poses
