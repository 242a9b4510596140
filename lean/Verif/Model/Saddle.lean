import Verif.Core.Outcome
import Mathlib.Algebra.Order.Floor.Ring
import Mathlib.LinearAlgebra.Matrix.Notation
import Mathlib.Analysis.SpecialFunctions.Sqrt

/-!
Model of the sub-pixel refinement of corners, point_refinement.h.

Rounding of floating point numbers is not modelled, infinities and NaN are (`Ext`).  The fields `a1`,
`a2`, `s` and `det` of a `SaddlePoint` are not modelled: nothing reads them.  `cv::invert` and
`cv::filter2D` are parameters.  Memory that is allocated but not initialised is a parameter.
-/
namespace Verif.Saddle
open Verif

variable {K : Type}

/-- A floating point number: finite, infinite (the sign is not kept, no test below depends on it) or
not a number. -/
inductive Ext (K : Type) where
  | fin (a : K)
  | inf
  | nan
  deriving DecidableEq, Repr

/-- A single-channel image: `cv::Mat` of `rows` rows and `cols` columns. -/
structure Image (K : Type) where
  rows : Nat
  cols : Nat
  px : Nat → Nat → K

/-- `input.ptr<T>(r)[c]`: undefined outside the image. -/
def Image.read (im : Image K) (r c : Int) : Outcome K :=
  if 0 ≤ r ∧ r < im.rows ∧ 0 ≤ c ∧ c < im.cols then .ok (im.px r.toNat c.toNat) else .ub

/-- The values of a loop `for (v = -w; v <= w; v++)`. -/
def offsets (w : Nat) : List Int := (List.range (2 * w + 1)).map fun i : Nat => (i : Int) - (w : Int)

/-- The nested loops of point_refinement.h:40-41, 62-63, 104-107: pairs `(x, y)`, `y` in the outer loop. -/
def window (w : Nat) : List (Int × Int) := (offsets w).flatMap fun y => (offsets w).map fun x => (x, y)

/-- A write `*(m + i) = v` into a buffer: undefined outside. -/
def write {α : Type} (buf : List α) (i : Nat) (v : α) : Outcome (List α) :=
  if i < buf.length then .ok (buf.set i v) else .ub

/-! ### point_refinement.h:31-52 `initConeSmoothingKernel` -/

/-- point_refinement.h:42: the cone. -/
noncomputable def cone (w : Nat) (o : Int × Int) : ℝ := ((w : ℝ) + 1) - Real.sqrt ((o.1 * o.1 + o.2 * o.2 : Int) : ℝ)

/-- point_refinement.h:42-48, body of the loop; the state is the weights written, `nnz`, `sum`. -/
noncomputable def coneStep (w : Nat) (st : List ℝ × Int × ℝ) (o : Int × Int) : List ℝ × Int × ℝ :=
  if 0 < cone w o then (st.1 ++ [cone w o], st.2.1 + 1, st.2.2 + cone w o) else (st.1 ++ [0], st.2.1, st.2.2 + 0)

/-- point_refinement.h:31-52: the kernel and `nnz`, which the function increments without setting it
first: `g` is its value in the caller (not initialised there, point_refinement.h:207). -/
noncomputable def initKernel (w : Nat) (g : Int) : List ℝ × Int :=
  let st := (window w).foldl (coneStep w) ([], g, 0)
  (st.1.map (· / st.2.2), st.2.1)

/-! ### point_refinement.h:54-80 `initSaddleFitting` -/

section
variable [Field K] [LinearOrder K]

/-- point_refinement.h:66-71: a row of `A`. -/
def row (o : Int × Int) : Fin 6 → K :=
  ![(o.1 : K) * o.1, (o.2 : K) * o.2, (o.1 : K) * o.2, o.2, o.1, 1]

/-- State of the loop: `A`, number of rows written, `mask`. -/
structure FitState (K : Type) where
  A : List (Fin 6 → K)
  a : Nat
  mask : List Bool

/-- point_refinement.h:64-76: a positive weight: mark it and write the row. -/
def fitOn (st : FitState K) (o : Int × Int) : Outcome (FitState K) := do
  let A ← write st.A st.a (row o)
  pure ⟨A, st.a + 1, st.mask ++ [true]⟩

/-- point_refinement.h:64-76, body of the loop, with the weight. -/
def fitStep (st : FitState K) (ow : (Int × Int) × K) : Outcome (FitState K) :=
  if 0 < ow.2 then fitOn st ow.1 else .ok ⟨st.A, st.a, st.mask ++ [false]⟩

/-- `A.t() * A`. -/
def normal (A : List (Fin 6 → K)) : Matrix (Fin 6) (Fin 6) K := (A.map fun r => Matrix.vecMulVec r r).sum

/-- point_refinement.h:78-79: the columns of `invert(AᵀA) Aᵀ`. -/
def pseudo (inv : Matrix (Fin 6) (Fin 6) K → Matrix (Fin 6) (Fin 6) K) (A : List (Fin 6 → K)) : List (Fin 6 → K) :=
  A.map fun r => (inv (normal A)).mulVec r

/-- point_refinement.h:54-80: the mask and `invAtAAt`.  A matrix with a negative number of rows throws;
the entries of a new matrix are not initialised (`garbage`). -/
def initFitting (inv : Matrix (Fin 6) (Fin 6) K → Matrix (Fin 6) (Fin 6) K) (garbage : Nat → Fin 6 → K)
    (w : Nat) (nnz : Int) (kernel : List K) : Outcome (List Bool × List (Fin 6 → K)) :=
  if nnz < 0 then .throw
  else do
    let st ← Outcome.foldlM fitStep ⟨(List.range nnz.toNat).map garbage, 0, []⟩ ((window w).zip kernel)
    pure (st.mask, pseudo inv st.A)

/-! ### point_refinement.h:83-124 `interpolatePatch` -/

variable [FloorRing K]

/-- `DBL_MAX` and `DBL_MIN`. -/
structure Limits (K : Type) where
  max : K
  min : K

/-- point_refinement.h:87: the test of one coordinate (size `n`). -/
def inRange (w n : Nat) (x : K) : Bool := (w : K) + 1 < x && x < (n : K) - ((w : K) + 2)

/-- point_refinement.h:95-96, 112-113: the bilinear blend at offset `o`. -/
def blend (im : Image K) (x0 y0 : Int) (xw yw : K) (o : Int × Int) : Outcome K := do
  let a ← im.read (y0 + o.2) (x0 + o.1)
  let b ← im.read (y0 + o.2) (x0 + o.1 + 1)
  let c ← im.read (y0 + o.2 + 1) (x0 + o.1)
  let d ← im.read (y0 + o.2 + 1) (x0 + o.1 + 1)
  pure (a * ((1 - xw) * (1 - yw)) + b * (xw * (1 - yw)) + c * ((1 - xw) * yw) + d * (xw * yw))

/-- State of the loop: `b_vec`, number of values written, `mn`, `mx`. -/
structure PatchState (K : Type) where
  b : List K
  m : Nat
  mn : K
  mx : K

/-- point_refinement.h:109-119: an offset of the mask. -/
def tapOn (im : Image K) (x0 y0 : Int) (xw yw : K) (st : PatchState K) (o : Int × Int) : Outcome (PatchState K) := do
  let val ← blend im x0 y0 xw yw o
  let b ← write st.b st.m val
  pure ⟨b, st.m + 1, if st.mn > val then val else st.mn, if st.mx < val then val else st.mx⟩

/-- point_refinement.h:108-121, body of the loop; `mask` is read at the same position as the offset. -/
def tapStep (im : Image K) (x0 y0 : Int) (xw yw : K) (st : PatchState K) (om : (Int × Int) × Bool) :
    Outcome (PatchState K) :=
  if om.2 then tapOn im x0 y0 xw yw st om.1 else .ok st

/-- point_refinement.h:89-123: the part for a point inside. -/
def patchInside (lim : Limits K) (w : Nat) (im : Image K) (mask : List Bool) (b : List K) (x y : K) :
    Outcome (Bool × List K) := do
  let x0 := Int.floor x
  let y0 := Int.floor y
  let st ← Outcome.foldlM (tapStep im x0 y0 (x - x0) (y - y0)) ⟨b, 0, lim.max, lim.min⟩ ((window w).zip mask)
  pure (decide (st.mx - st.mn > 1 / 255), st.b)

/-- point_refinement.h:83-124 `interpolatePatch`: success and `b_vec`.  A coordinate that is not finite
fails one of the comparisons.  `int(x)` is the floor: `x` is positive there.  The mask has as many
entries as the window (a shorter one would be read outside; `initFitting` makes it of that size). -/
def interpolatePatch (lim : Limits K) (w : Nat) (im : Image K) (mask : List Bool) (b : List K) (x y : Ext K) :
    Outcome (Bool × List K) :=
  match x, y with
  | .fin x, .fin y =>
    if inRange w im.cols x && inRange w im.rows y then patchInside lim w im mask b x y else .ok (false, b)
  | _, _ => .ok (false, b)

/-! ### point_refinement.h:126-197 `saddleSubpixelRefinement` -/

/-- Division of finite numbers. -/
def divide (a b : K) : Ext K := if b = 0 then (if a = 0 then .nan else .inf) else .fin (a / b)

/-- Addition of a number to a finite one (`pt.x`, which passed the comparisons of `interpolatePatch`). -/
def plus (x dx : Ext K) : Ext K :=
  match x, dx with
  | .fin a, .fin d => .fin (a + d)
  | .nan, _ => .nan
  | _, .nan => .nan
  | _, _ => .inf

/-- point_refinement.h:173-174: `threshold > fabs(d)`. -/
def small (thr : K) : Ext K → Bool
  | .fin d => thr > |d|
  | _ => false

/-- point_refinement.h:185-186: `fabs(x - x0) > region`. -/
def far (region x0 : K) : Ext K → Bool
  | .fin x => |x - x0| > region
  | .inf => true
  | .nan => false

/-- point_refinement.h:153: `invAtAAt * b`. -/
def fit (P : List (Fin 6 → K)) (b : List K) : Fin 6 → K := (List.zipWith (fun v c => v • c) b P).sum

/-- point_refinement.h:159. -/
def det (r : Fin 6 → K) : K := 4 * r 0 * r 1 - r 2 * r 2

/-- point_refinement.h:168. -/
def stepX (r : Fin 6 → K) : Ext K := divide (-2 * r 1 * r 4 + r 2 * r 3) (det r)

/-- point_refinement.h:170. -/
def stepY (r : Fin 6 → K) : Ext K := divide (r 2 * r 4 - 2 * r 0 * r 3) (det r)

/-- What the refinement of a point does not change. -/
structure Setup (K : Type) where
  lim : Limits K
  w : Nat
  im : Image K
  mask : List Bool
  P : List (Fin 6 → K)
  region : K
  thr : K

/-- What one iteration does: the loop is left, converged at a point or not, or goes on from a point. -/
inductive Next (K : Type) where
  | diverged
  | converged (x y : Ext K)
  | goOn (x y : Ext K)

/-- point_refinement.h:158-189: one iteration after a successful interpolation, with the fitted
coefficients. -/
def newton (S : Setup K) (x0 y0 : K) (x y : Ext K) (r : Fin 6 → K) : Next K :=
  if det r > 0 then .diverged
  else if small S.thr (stepX r) && small S.thr (stepY r) then .converged (plus x (stepX r)) (plus y (stepY r))
  else if far S.region x0 (plus x (stepX r)) || far S.region y0 (plus y (stepY r)) then .diverged
  else .goOn (plus x (stepX r)) (plus y (stepY r))

/-- point_refinement.h:148-192: one iteration and the buffer after it. -/
def iteration (S : Setup K) (x0 y0 : K) (x y : Ext K) (b : List K) : Outcome (Next K × List K) := do
  let (good, b) ← interpolatePatch S.lim S.w S.im S.mask b x y
  pure (if good then newton S x0 y0 x y (fit S.P b) else .diverged, b)

/-- point_refinement.h:147-195: at most `n` iterations; a point that did not converge becomes infinite. -/
def refineLoop (S : Setup K) (x0 y0 : K) : Nat → Ext K → Ext K → List K → Outcome ((Ext K × Ext K) × List K)
  | 0, _, _, b => .ok ((.inf, .inf), b)
  | n + 1, x, y, b => (iteration S x0 y0 x y b).bind fun nb =>
    match nb.1 with
    | .diverged => .ok ((.inf, .inf), nb.2)
    | .converged x' y' => .ok ((x', y'), nb.2)
    | .goOn x' y' => refineLoop S x0 y0 n x' y' nb.2

/-- point_refinement.h:144-196, body of the loop over the points. -/
def pointStep (S : Setup K) (iters : Nat) (st : List (Ext K × Ext K) × List K) (p : K × K) :
    Outcome (List (Ext K × Ext K) × List K) := do
  let (q, b) ← refineLoop S p.1 p.2 iters (.fin p.1) (.fin p.2) st.2
  pure (st.1 ++ [q], b)

/-- point_refinement.h:126-197: the refined points; `b` is the buffer, of as many entries as `invAtAAt`
has columns, not initialised. -/
def refineAll (S : Setup K) (iters : Nat) (b : Nat → K) (initial : List (K × K)) :
    Outcome (List (Ext K × Ext K)) := do
  let (pts, _) ← Outcome.foldlM (pointStep S iters) ([], (List.range S.P.length).map b) initial
  pure pts

end

/-- What the environment contributes to a refinement. -/
structure Env where
  lim : Limits ℝ
  /-- `cv::invert(…, DECOMP_SVD)` -/
  inv : Matrix (Fin 6) (Fin 6) ℝ → Matrix (Fin 6) (Fin 6) ℝ
  /-- `cv::filter2D(…, CV_64FC1, kernel)`, the kernel being a square of half size `w` -/
  filter : Nat → List ℝ → Image ℝ → Image ℝ
  /-- contents of new matrices and buffers -/
  garbageA : Nat → Fin 6 → ℝ
  garbageB : Nat → ℝ
  /-- the value `nnz` happens to have -/
  nnz : Int

/-- point_refinement.h:199-218: the function called by the detection (McCalib.cpp:327-328). -/
noncomputable def refine (E : Env) (w iters : Nat) (input : Image ℝ) (initial : List (ℝ × ℝ)) :
    Outcome (List (Ext ℝ × Ext ℝ)) := do
  let kn := initKernel w E.nnz
  let (mask, P) ← initFitting E.inv E.garbageA w kn.2 kn.1
  refineAll ⟨E.lim, w, E.filter w kn.1 input, mask, P, 1, 1 / 1000⟩ iters E.garbageB initial

end Verif.Saddle
