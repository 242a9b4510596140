import Verif.Core.Outcome
import Mathlib.Algebra.Order.Field.Basic
import Mathlib.Data.List.Sort

/-!
Model of `median` (geometrytools.cpp:696-703) and of the averaging of poses in `initInterTransform`
(McCalib.cpp:781-822) and `CameraGroupObs::computeObjectsPose` (CameraGroupObs.cpp:77-97).

Numbers are elements of an arbitrary linearly ordered field; rounding is not modelled.
-/
namespace Verif.Average

variable {K : Type} [Field K] [LinearOrder K]

/-- geometrytools.cpp:696-703 `median`; `std::sort` yields the increasing permutation. -/
def medianO (v : List K) : Outcome K :=
  if v.length = 0 then .ok 0
  else
    let s := v.insertionSort (· ≤ ·)
    let mid := v.length / 2
    if v.length % 2 = 0 then do
      let a ← Outcome.idx s mid
      let b ← Outcome.idx s (mid - 1)
      pure ((a + b) / 2)
    else Outcome.idx s mid

/-- The value returned by `median` (it always returns, `C31_total`). -/
def median (v : List K) : K :=
  match medianO v with
  | .ok x => x
  | _ => 0

/-- A pose as stored: Rodrigues vector and translation. -/
structure Vec6 (K : Type) where
  r1 : K
  r2 : K
  r3 : K
  t1 : K
  t2 : K
  t3 : K
  deriving DecidableEq, Repr

/-- geometrytools.cpp:886-890: the rotation part of the average without quaternion averaging (the
option cannot be switched on, see C44), McCalib.cpp:813-817: medians of the translation. -/
def medianPose (ps : List (Vec6 K)) : Vec6 K :=
  { r1 := median (ps.map (·.r1)), r2 := median (ps.map (·.r2)), r3 := median (ps.map (·.r3))
    t1 := median (ps.map (·.t1)), t2 := median (ps.map (·.t2)), t3 := median (ps.map (·.t3)) }

/-- McCalib.cpp:781-822: average of relative poses; `toVec` is `Proj2RT`, `ofVec` is `RVecT2Proj`. -/
def interAverage {G : Type} (toVec : G → Vec6 K) (ofVec : Vec6 K → G) (zs : List G) : G :=
  ofVec (medianPose (zs.map toVec))

/-- CameraGroupObs.cpp:77-97: median of the rotations, mean of the translations. -/
def groupAverageVec (ps : List (Vec6 K)) : Vec6 K :=
  { r1 := median (ps.map (·.r1)), r2 := median (ps.map (·.r2)), r3 := median (ps.map (·.r3))
    t1 := (ps.map (·.t1)).foldl (· + ·) 0 / (ps.length : K)
    t2 := (ps.map (·.t2)).foldl (· + ·) 0 / (ps.length : K)
    t3 := (ps.map (·.t3)).foldl (· + ·) 0 / (ps.length : K) }

end Verif.Average
