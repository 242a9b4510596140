import Verif.Lemmas.RigidGroup
import Mathlib.Analysis.SpecialFunctions.Sqrt

/-! Distances between points and between poses. -/
namespace Verif.Spec.Noise
open Verif Verif.Rigid

/-- The Euclidean length of a vector. -/
noncomputable def len (v : Vec3 ℝ) : ℝ := Real.sqrt (v 0 ^ 2 + v 1 ^ 2 + v 2 ^ 2)

/-- Two poses move every point `p` to places at most `τ + α |p|` apart: `τ` bounds the difference of the translations, `α`
that of the rotations (in radians). -/
def Off (α τ : ℝ) (a b : Pose ℝ) : Prop := ∀ p : Vec3 ℝ, len (a • p - b • p) ≤ τ + α * len p

end Verif.Spec.Noise
