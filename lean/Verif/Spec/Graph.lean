import Verif.Model.Graph
import Mathlib.Logic.Relation

/-! Specification vocabulary for the `Graph` API: everything here is defined from the call history
alone, without looking at the model's state. -/
namespace Verif.Spec.Graph
open Verif.Graph (Call)

variable {α : Type} [DecidableEq α]

/-- The calls made since the last `clearGraph`. -/
def live (h : List (Call α)) : List (Call α) :=
  h.foldl (fun acc c => match c with
    | .clear => []
    | c => acc ++ [c]) []

/-- The ids a call mentions, in order. -/
def ids : Call α → List α
  | .addVertex v => [v]
  | .addEdge a b _ => [a, b]
  | .clear => []

/-- A list without the repetitions of earlier members. -/
def firstOccs (l : List α) : List α :=
  l.foldl (fun acc x => if x ∈ acc then acc else acc ++ [x]) []

/-- The vertices after a history: the ids mentioned since the last clear, in order of first mention. -/
def vertices (h : List (Call α)) : List α := firstOccs ((live h).flatMap ids)

/-- An edge of weight `w` between `a` and `b` has been added. -/
def Step (h : List (Call α)) (a b : α) (w : Rat) : Prop :=
  Call.addEdge a b w ∈ live h ∨ Call.addEdge b a w ∈ live h

/-- A chain of edges links `a` and `b`. -/
def Linked (h : List (Call α)) : α → α → Prop :=
  Relation.ReflTransGen fun a b => ∃ w, Step h a b w

/-- A walk from `a` to `b` through the listed vertices, with the sum of `f weight`. -/
inductive Walk {K : Type} [Zero K] [Add K] (h : List (Call α)) (f : Rat → K) :
    α → α → List α → K → Prop
  | nil (a) : Walk h f a a [a] 0
  | cons {a b c w p k} : Step h a b w → Walk h f b c p k → Walk h f a c (a :: p) (f w + k)

/-- No call `addEdge(v, v, w)` is made while `v` is not yet a vertex. -/
def NoFreshSelf (h : List (Call α)) : Prop :=
  ∀ h1 h2 v w, h = h1 ++ Call.addEdge v v w :: h2 → v ∈ vertices h1

/-- Since the last clear, `v` was first mentioned by a call `addEdge(v, v, w)`. -/
def FirstBySelfEdge (h : List (Call α)) (v : α) : Prop :=
  ∃ l1 l2 w, live h = l1 ++ Call.addEdge v v w :: l2 ∧ v ∉ l1.flatMap ids

end Verif.Spec.Graph
