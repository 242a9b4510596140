import Verif.Model.ReproErr
import Verif.Spec.Report

/-! What the reprojection errors computed during the workflow must be. -/
namespace Verif.Spec.ReproErr
open Verif

variable {P2 Pose Pt K : Type}

/-- The distances between seen pixels and the projections of the points they belong to. -/
def distances (dist : P2 → P2 → K) (pix : Pt → P2) (points : List Pt) (pts : List P2) (ids : List Nat) : List K :=
  (pts.zip ids).filterMap fun e => (points[e.2]?).map fun p => dist e.1 (pix p)

/-- Arithmetic mean. -/
def mean [Field K] (l : List K) : K := l.sum / (l.length : K)

/-- The projection functions project each point of a list that is not empty (`pix c pose`). -/
structure Pointwise (pr : ReproErr.Projection P2 Pose Pt K) (pix : Nat → Pose → Pt → P2) : Prop where
  brown : ∀ c g ps, ps ≠ [] → pr.brown c g ps = .ok (ps.map (pix c g))
  kannala : ∀ c g ps, ps ≠ [] → pr.kannala c g ps = .ok (ps.map (pix c g))

/-- An observation that can be evaluated: its camera has a supported model, its ids are points of the model, one for
each pixel. -/
structure Readable (model : Nat → Int) (points : List Pt) (c : Nat) (pts : List P2) (ids : List Nat) : Prop where
  model : model c = 0 ∨ model c = 1
  aligned : pts.length = ids.length
  ids : ∀ i ∈ ids, i < points.length

end Verif.Spec.ReproErr
