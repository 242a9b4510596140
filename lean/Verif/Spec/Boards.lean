import Mathlib.Data.Rat.Defs

/-!
What the user expects of the generated boards, without reference to the program.
-/
namespace Verif.Spec.Boards

/-- A charuco board of `nx` by `ny` squares has a marker on every other square. -/
def markers (nx ny : Int) : Nat := nx.toNat * ny.toNat / 2

/-- A charuco board of this size exists: at least two squares each way, the marker smaller than the
square. -/
def Possible (nx ny : Int) (square marker : Rat) : Prop := 1 < nx ∧ 1 < ny ∧ 0 < marker ∧ marker < square

/-- The number of inner corners of a board of `nx` by `ny` squares. -/
def corners (nx ny : Int) : Nat := (nx - 1).toNat * (ny - 1).toNat

/-- Board number `i` of the two lists of sizes. -/
def Size (xs ys : List Int) (i : Nat) (nx ny : Int) : Prop := xs[i]? = some nx ∧ ys[i]? = some ny

/-- The number of markers of the boards `0, …, i - 1`. -/
def before (xs ys : List Int) (i : Nat) : Nat :=
  (((xs.zip ys).take i).map fun e => markers e.1 e.2).sum

/-- `pts` are the inner corners of a board of `nx` by `ny` squares of size `s`, row by row. -/
structure Grid (nx ny : Int) (s : Rat) (pts : List (Rat × Rat × Rat)) : Prop where
  count : pts.length = corners nx ny
  point : ∀ x y : Nat, x < (nx - 1).toNat → y < (ny - 1).toNat →
    pts[y * (nx - 1).toNat + x]? = some ((x : Rat) * s, (y : Rat) * s, 0)

end Verif.Spec.Boards
