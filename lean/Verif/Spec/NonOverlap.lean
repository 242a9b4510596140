import Verif.Model.NonOverlap
import Verif.Spec.Groups

/-! Specification vocabulary for non-overlapping camera groups. -/
namespace Verif.Spec.NonOverlap
open Verif Verif.Objects Verif.Groups

variable {G P : Type}

/-- Number of observations of object `a` in frame `f` by cameras of the group. -/
def seenIn (oo : List (ObjObs P)) (g : CamGroup G) (f a : Nat) : Nat :=
  (oo.filter fun o => o.frame == f && decide (o.cam ∈ OMap.keys g.cameras) && o.obj == a).length

/-- Number of pairs of an observation of the first object by the first group and one of the second
object by the second group in the same frame. -/
def jointSightings (oo : List (ObjObs P)) (frames : List Nat) (g1 g2 : CamGroup G) (ab : Nat × Nat) : Nat :=
  (frames.map fun f => seenIn oo g1 f ab.1 * seenIn oo g2 f ab.2).sum

/-- Frames in which the first group saw the first object and the second group the second. -/
def jointFrames (oo : List (ObjObs P)) (frames : List Nat) (g1 g2 : CamGroup G) (ab : Nat × Nat) :
    List Nat :=
  frames.filter fun f => decide (0 < seenIn oo g1 f ab.1) && decide (0 < seenIn oo g2 f ab.2)

/-- The lexicographic order on pairs of object numbers. -/
def lexLe (p q : Nat × Nat) : Prop := p.1 < q.1 ∨ (p.1 = q.1 ∧ p.2 ≤ q.2)

/-- The groups' own lists cover their group observations. -/
structure ListsCover (t : GroupTables G) : Prop where
  sorted : ∀ i g, OMap.get? t.groups i = some g → OMap.Sorted g.frames
  frames : ∀ i g f is, OMap.get? t.groups i = some g → OMap.get? t.groupObs (i, f) = some is →
    f ∈ OMap.keys g.frames
  objObs : ∀ i g f is, OMap.get? t.groups i = some g → OMap.get? t.groupObs (i, f) = some is →
    g.objObs ≠ []

/-- Groups `a` and `b` are joined by a recorded transform, in either direction. -/
def Joined (T : OMap (Nat × Nat) G) (a b : Nat) : Prop := (a, b) ∈ OMap.keys T ∨ (b, a) ∈ OMap.keys T

/-- The groups with an object observation, in increasing order. -/
def observingGroups (gs : OMap Nat (CamGroup G)) : List Nat :=
  (OMap.keys gs).filter fun i => (OMap.get? gs i).any fun g => decide (g.objObs ≠ [])

end Verif.Spec.NonOverlap
