import Verif.Model.Output

/-! Specification vocabulary: cameras that are never used. -/
namespace Verif.Spec.Idle
open Verif Verif.Output

variable {K G : Type}

/-- An entry of the camera file, with `m` as the number of cameras. -/
def recount (m : Nat) : CamEntry K G → CamEntry K G
  | .nbCamera _ => .nbCamera m
  | .camera id node => .camera id node

end Verif.Spec.Idle
