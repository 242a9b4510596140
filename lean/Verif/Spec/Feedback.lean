import Verif.Model.Output

/-!
What it means that a camera is calibrated with the intrinsics of a parameter file.
-/
namespace Verif.Spec.Feedback
open Verif Rigid

variable {K G : Type}

/-- Number of distortion coefficients: five of the Brown model, four of the Kannala model. -/
def coefficients (model : Int) : Nat := if model = 0 then 5 else if model = 1 then 4 else 0

/-- The parameter file has intrinsics for every camera: a camera matrix and enough distortion coefficients for its model. -/
def Provides (models : List Int) (F : List (Output.CamEntry K G)) : Prop :=
  ∀ (c : Nat) m, models[c]? = some m → ∃ n, Output.lookup F c = some n ∧ coefficients m ≤ n.distortion.length

/-- `n'` has the focal lengths, the principal point and the distortion coefficients that `n` gives to a camera of the model
of `n'`; a camera of any other model has five zeros. -/
structure Taken [Zero K] [One K] (n n' : Output.CamNode K G) : Prop where
  matrix : n'.matrix = !![n.matrix 0 0, 0, n.matrix 0 2; 0, n.matrix 1 1, n.matrix 1 2; 0, 0, 1]
  brown : n'.model = 0 → n'.distortion = n.distortion.take 5
  kannala : n'.model = 1 → n'.distortion = n.distortion.take 4
  other : n'.model ≠ 0 → n'.model ≠ 1 → n'.distortion = List.replicate 5 0

/-- Equal intrinsics. -/
def Same (n n' : Output.CamNode K G) : Prop :=
  n'.model = n.model ∧ n'.matrix = n.matrix ∧ n'.distortion = n.distortion

end Verif.Spec.Feedback
