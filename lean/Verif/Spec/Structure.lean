import Mathlib.Logic.Relation
import Mathlib.Data.List.Chain

/-! Vocabulary for partitions and paths of a relation. -/
namespace Verif.Spec.Structure

/-- `p` is a path without repetitions from `a` to `b` whose consecutive members are related. -/
structure IsPath {α : Type} (r : α → α → Prop) (a b : α) (p : List α) : Prop where
  head : p.head? = some a
  last : p.getLast? = some b
  chain : p.IsChain r
  nodup : p.Nodup

/-- `cs` is the partition of the increasing list `V` into the classes of elements linked by `r`:
every element of `V` occurs exactly once, classes are increasing, non-empty and listed by increasing
least element. -/
structure IsPartition (r : Nat → Nat → Prop) (V : List Nat) (cs : List (List Nat)) : Prop where
  perm : cs.flatten.Perm V
  nonempty : ∀ c ∈ cs, c ≠ []
  sorted : ∀ c ∈ cs, c.Pairwise (· < ·)
  linked : ∀ c ∈ cs, ∀ a ∈ c, ∀ b, b ∈ c ↔ Relation.ReflTransGen r a b
  heads : (cs.filterMap List.head?).Pairwise (· < ·)

end Verif.Spec.Structure
