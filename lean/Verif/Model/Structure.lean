import Verif.Core.OMap
import Verif.Core.Outcome
import Verif.Model.Graph
import Mathlib.Algebra.Group.Basic

/-!
The scheme shared by `init3DObjects`, `initCameraGroup`, `mergeCameraGroup` and `mergeObjects`:
relative poses are collected per ordered pair, averaged, turned into a graph, and every member of a
connected component is placed by composing the transforms along a shortest path from the member of
least index.

Poses are elements of an arbitrary group `G` (4x4 rigid transformations in the code, see
`Model/Rigid`).
-/
namespace Verif.Structure

variable {G E : Type}

/-- `board_pose_pairs_`, `camera_pose_pairs_`, `object_pose_pairs_` (McCalib.hpp). -/
abbrev PairTable (G : Type) := OMap (Nat × Nat) (List G)

/-- `pairs[key].push_back(x)`. -/
def push (t : PairTable G) (e : (Nat × Nat) × G) : PairTable G :=
  OMap.set t e.1 ((OMap.get? t e.1).getD [] ++ [e.2])

/-- The double loop over the members of one view (McCalib.cpp:743-763, 1032-1060, 1658-1680): `f x y`
is the entry made for the ordered pair `(x, y)`, if any. -/
def pairsOfView (f : E → E → Option ((Nat × Nat) × G)) (v : List E) : List ((Nat × Nat) × G) :=
  v.flatMap fun x => v.filterMap (f x)

/-- The loop over all views. -/
def pairTable (f : E → E → Option ((Nat × Nat) × G)) (views : List (List E)) : PairTable G :=
  (views.flatMap (pairsOfView f)).foldl push []

/-- McCalib.cpp:781-822 `initInterTransform`: one averaged transform per pair.  The average is a
parameter here (`Model/Average` has the code's). -/
def interTransform (avg : List G → G) (t : PairTable G) : OMap (Nat × Nat) G :=
  t.map fun e => (e.1, avg e.2)

/-- `graph.clearGraph()`, one `addVertex` per vertex, one `addEdge` per pair with weight
`1 / count` (McCalib.cpp:828-845, 1070-1085, 1505-1523, 1690-1707). -/
def graphCalls (vs : List Nat) (es : List (Nat × Nat × Rat)) : List (Graph.Call Nat) :=
  vs.map .addVertex ++ es.map fun e => .addEdge e.1 e.2.1 e.2.2

/-- Edges of a pair table. -/
def tableEdges (t : PairTable G) : List (Nat × Nat × Rat) :=
  t.map fun e => (e.1.1, e.1.2, 1 / (e.2.length : Rat))

/-- `*std::min_element(c.begin(), c.end())`: undefined for an empty range. -/
def minElement : List Nat → Outcome Nat
  | [] => .ub
  | x :: xs => .ok (xs.foldl min x)

/-- The pairs `(path[k], path[k+1])`. -/
def consecutive (p : List Nat) : List (Nat × Nat) := p.zip p.tail

/-- One round of the loop below: `transform = transform * step(T[pair])`. -/
def chainStep [Group G] (step : G → G) (T : OMap (Nat × Nat) G) (t : G) (e : Nat × Nat) : Outcome G :=
  match OMap.get? T e with
  | some x => .ok (t * step x)
  | none => .throw

/-- The loop composing transforms along the path (McCalib.cpp:895-904, 1124-1135, 1560-1573,
1744-1755): `step` is inversion for boards and objects, the identity for cameras and camera groups.
The look-up of an absent pair yields an empty matrix, on which inversion or multiplication throws. -/
def chain [Group G] (step : G → G) (T : OMap (Nat × Nat) G) (p : List Nat) : Outcome G :=
  Outcome.foldlM (chainStep step T) 1 (consecutive p)

/-- The pose of member `b` of a component with reference `r`. -/
def placement [Group G] (step : G → G) (T : OMap (Nat × Nat) G) (g : Graph Nat)
    (choose : Graph.DState → Nat) (r b : Nat) : Outcome G := do
  let p ← g.shortestPathBetween choose r b
  chain step T p

end Verif.Structure
