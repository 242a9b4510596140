import Verif.Model.Ransac

/-!
Specification of the robust pose search: the sequence of models it can try, which does not depend on
when the search stops, and the inliers of a model.
-/
namespace Verif.Ransac
open Verif

variable {P3 P2 Pose E : Type}

/-- Order of the point indexes at the k-th trial: the k-th shuffle of the order before. -/
def order (lib : Lib P3 P2 Pose E) (n : Nat) : Nat → List Nat
  | 0 => lib.shuffle 0 (List.range n)
  | k + 1 => lib.shuffle (k + 1) (order lib n k)

/-- The correspondences at the first four positions of the k-th order. -/
def picked (lib : Lib P3 P2 Pose E) (scene : List P3) (image : List P2) (k : Nat) : List (P3 × P2) :=
  ((order lib image.length k).take 4).filterMap fun i => (scene.zip image)[i]?

/-- The model of the k-th trial. -/
def model (lib : Lib P3 P2 Pose E) (scene : List P3) (image : List P2) (cur : Pose) : Nat → Pose
  | 0 => lib.p3p cur (picked lib scene image 0)
  | k + 1 => lib.p3p (model lib scene image cur k) (picked lib scene image (k + 1))

/-- A correspondence (if there is one) has an error below the threshold. -/
def isInlier [LinearOrder E] (lib : Lib P3 P2 Pose E) (p : Pose) : Option (P3 × P2) → Bool
  | some (a, b) => decide (lib.err p a b < lib.thresh)
  | none => false

/-- The correspondences whose error under a model is below the threshold, as indexes. -/
def inliers [LinearOrder E] (lib : Lib P3 P2 Pose E) (scene : List P3) (image : List P2) (p : Pose) : List Nat :=
  (List.range (scene.zip image).length).filter fun i => isInlier lib p (scene.zip image)[i]?

end Verif.Ransac
