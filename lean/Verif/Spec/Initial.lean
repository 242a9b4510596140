import Verif.Spec.Store
import Verif.Model.InitCamera

/-! The detections of one camera, and orders of them. -/
namespace Verif.Spec.Initial
open Verif

variable {K Path : Type}

/-- The detections of camera `c`, in the order in which they were stored. -/
def detections (c : Nat) (l : List (Insertion (K × K) Path)) : List (BoardObs (K × K)) :=
  (l.map (·.obs)).filter fun o => o.cam == c

/-- Camera `c` has the same detections in both lists, in some order. -/
def SameOf (c : Nat) (l l' : List (Insertion (K × K) Path)) : Prop := (detections c l).Perm (detections c l')

end Verif.Spec.Initial
