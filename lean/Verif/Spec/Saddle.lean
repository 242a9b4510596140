import Verif.Model.Saddle
import Mathlib.Algebra.Order.Floor.Ring

/-! Specification of the refinement of corners: bilinear interpolation, windows, quadratic surfaces. -/
namespace Verif.Spec.Saddle
open Verif.Saddle

variable {K : Type} [Field K] [LinearOrder K]

/-- The pixel in row `r` and column `c`. -/
def pixel (im : Image K) (r c : Int) : K := im.px r.toNat c.toNat

/-- The value at a real position: linear between columns, then linear between rows. -/
def bilinear [FloorRing K] (im : Image K) (x y : K) : K :=
  let line (r : Int) := (1 - Int.fract x) * pixel im r ⌊x⌋ + Int.fract x * pixel im r (⌊x⌋ + 1)
  (1 - Int.fract y) * line ⌊y⌋ + Int.fract y * line (⌊y⌋ + 1)

/-- All pixels used for the window of half size `w` around a position are in the image. -/
def WindowInside [FloorRing K] (w : Nat) (im : Image K) (x y : K) : Prop :=
  ∀ u v : Int, -(w : Int) ≤ u → u ≤ w → -(w : Int) ≤ v → v ≤ w →
    0 ≤ ⌊x⌋ + u ∧ ⌊x⌋ + u + 1 < im.cols ∧ 0 ≤ ⌊y⌋ + v ∧ ⌊y⌋ + v + 1 < im.rows

/-- The condition under which a point is interpolated. -/
def Interior (w : Nat) (im : Image K) (x y : K) : Prop :=
  (w : K) + 1 < x ∧ x + ((w : K) + 2) < im.cols ∧ (w : K) + 1 < y ∧ y + ((w : K) + 2) < im.rows

/-- The offsets of the mask, in the order of the window (rows from top to bottom). -/
def taps (w : Nat) (mask : List Bool) : List (Int × Int) :=
  (((window w).zip mask).filter (·.2)).map (·.1)

/-- The values of the image at the offsets of the mask around a position. -/
def patch [FloorRing K] (w : Nat) (mask : List Bool) (im : Image K) (x y : K) : List K :=
  (taps w mask).map fun o => bilinear im (x + o.1) (y + o.2)

/-- The quadratic surface with coefficients `r`. -/
def quadric (r : Fin 6 → K) (u v : K) : K := r 0 * u ^ 2 + r 1 * v ^ 2 + r 2 * (u * v) + r 3 * v + r 4 * u + r 5

/-- Its gradient. -/
def gradient (r : Fin 6 → K) (u v : K) : K × K := (2 * r 0 * u + r 2 * v + r 4, 2 * r 1 * v + r 2 * u + r 3)

/-- Lattice offsets strictly inside the circle of radius `w + 1`. -/
def Disk (w : Nat) (o : Int × Int) : Prop := o.1 ^ 2 + o.2 ^ 2 < ((w : Int) + 1) ^ 2

instance (w : Nat) (o : Int × Int) : Decidable (Disk w o) := by unfold Disk; infer_instance

end Verif.Spec.Saddle
