import Verif.Model.Store
import Mathlib.Algebra.Order.Field.Basic
import Mathlib.Algebra.Order.AbsoluteValue.Basic

/-!
Model of the detection loop: `Calibration::detectBoardsInImageWithCamera` (McCalib.cpp:270-365),
`calcLinePara` (geometrytools.cpp:127-146) and the thread pool of `detectBoardsWithCamera`
(McCalib.cpp:234-261).
-/
namespace Verif.Detection

variable {K P Path : Type}

/-- geometrytools.cpp:127-146 `calcLinePara`, its residual: mean distance of the points to the line
fitted by `cv::fitLine`, whose result `(vx, vy, x0, y0)` is a parameter. -/
def lineResidual [Field K] [LinearOrder K] (fitLine : List (K × K) → K × K × K × K)
    (pts : List (K × K)) : K :=
  let (vx, vy, x0, y0) := fitLine pts
  let a := vy
  let b := -vx
  let c := vx * y0 - vy * x0
  (pts.map fun p => |p.1 * a + p.2 * b + c|).sum / (pts.length : K)

/-- What `detectMarkers`, `interpolateCornersCharuco` and `saddleSubpixelRefinement` return for one
board of one image.  `refined`: `none` for an infinite refined corner. -/
structure Raw (P : Type) where
  corners : List P
  ids : List Nat
  refined : List (Option P)

/-- McCalib.cpp:329-335: corners are overwritten in order until the first infinite one; `refined` is
indexed by the corner index. -/
def applyRefined : List P → List (Option P) → Outcome (List P)
  | [], _ => .ok []
  | _ :: _, [] => .ub
  | p :: ps, none :: _ => .ok (p :: ps)
  | _ :: ps, some q :: qs => (applyRefined ps qs).bind fun r => .ok (q :: r)

/-- The board data used by the checks: `nb_pts_`, the x,y of `pts_3d_`, `square_size_`. -/
structure Geom (K : Type) where
  nbPts : Nat
  pts : List (K × K)
  square : K

/-- `std::round`: to the nearest integer, halves away from zero. -/
def roundAway (x : Rat) : Int := if 0 ≤ x then (x + 1 / 2).floor else -((-x + 1 / 2).floor)

/-- Configuration used by the checks: `refine_corner_`, `min_perc_pts_`. -/
structure Cfg where
  refine : Bool
  minPerc : Rat

/-- McCalib.cpp:320-322: `static_cast<std::size_t>(std::round(min_perc_pts_ * nb_pts_))`; converting a
negative value is undefined. -/
def minCorners (cfg : Cfg) (nbPts : Nat) : Outcome Nat :=
  let r := roundAway (cfg.minPerc * nbPts)
  if r < 0 then .ub else .ok r.toNat

/-- McCalib.cpp:339-345: the board points of the detected corner ids, read without bound check. -/
def boardPts (g : Geom K) (ids : List Nat) : Outcome (List (K × K)) :=
  Outcome.foldlM (fun acc i => do
      let p ← Outcome.idx g.pts i
      pure (acc ++ [p])) [] ids

/-- McCalib.cpp:325-336: the corners after the optional refinement. -/
def storedCorners (cfg : Cfg) (r : Raw P) : Outcome (List P) :=
  if cfg.refine then applyRefined r.corners r.refined else .ok r.corners

/-- McCalib.cpp:299-362, body of the loop for one board: `some` = `insertNewBoard` is called with
these corners and ids. -/
def detectBoard [Field K] [LinearOrder K] (fitLine : List (K × K) → K × K × K × K) (cfg : Cfg)
    (g : Geom K) (r : Raw P) : Outcome (Option (List P × List Nat)) := do
  let m ← minCorners cfg g.nbPts
  if r.corners.length > m then do
    let corners ← storedCorners cfg r
    let onBoard ← boardPts g r.ids
    let residual := lineResidual fitLine onBoard
    if residual > g.square * (1 / 10) ∧ corners.length > 4 then pure (some (corners, r.ids))
    else pure none
  else pure none

/-- McCalib.cpp:270-365: all boards of one image, in ascending board index; the insertions are
returned in the order in which they are performed.  `raw = none`: the image cannot be read
(McCalib.cpp:273-277). -/
def detectImage [Field K] [LinearOrder K] (fitLine : List (K × K) → K × K × K × K) (cfg : Cfg)
    (geoms : List (Geom K)) (cam frame : Nat) (path : Path) (raw : Option (Nat → Raw P)) :
    Outcome (List (Insertion P Path)) :=
  match raw with
  | none => .ok []
  | some raw =>
    Outcome.foldlM (fun acc (gi : Geom K × Nat) => do
      match ← detectBoard fitLine cfg gi.1 (raw gi.2) with
      | some (corners, ids) => pure (acc ++ [⟨⟨cam, frame, gi.2, corners, ids⟩, path⟩])
      | none => pure acc) [] geoms.zipIdx

/-- The thread pool of McCalib.cpp:234-261: each task performs its list of atomic actions in order
(every `insertNewBoard` runs under `insert_new_board_lock_`, McCalib.cpp:355-360); the pool runs them
in any interleaving `l`. -/
inductive Interleave {α : Type} : List (List α) → List α → Prop
  | nil {ts} : (∀ t ∈ ts, t = []) → Interleave ts []
  | step {ts i a t l} : ts[i]? = some (a :: t) → Interleave (ts.set i t) l → Interleave ts (a :: l)

/-- McCalib.cpp:140-170: cameras one after the other, the pool being joined after each. -/
def Schedule {α : Type} (tasks : List (List (List α))) (l : List α) : Prop :=
  ∃ ls, List.Forall₂ Interleave tasks ls ∧ l = ls.flatten

end Verif.Detection
