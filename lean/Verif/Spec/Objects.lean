import Verif.Model.Objects
import Verif.Spec.Structure
import Verif.Spec.Store
import Mathlib.Algebra.BigOperators.Group.List.Basic

/-! Specification vocabulary for the 3D object stage. -/
namespace Verif.Spec.Objects
open Verif Verif.Objects

variable {G Pt P Path : Type}

/-- Boards `a` and `b` were seen together in an image of one camera. -/
def CoSeen (l : List (Insertion P Path)) (a b : Nat) : Prop :=
  a ≠ b ∧ ∃ x ∈ l, ∃ y ∈ l, x.obs.cam = y.obs.cam ∧ x.obs.frame = y.obs.frame ∧
    x.obs.board = a ∧ y.obs.board = b

/-- The boards seen at all, in increasing order. -/
def observedBoards (nBoard : Nat) (l : List (Insertion P Path)) : List Nat :=
  (List.range nBoard).filter fun b => l.any fun a => a.obs.board == b

/-- The point numbering of an object is a bijection between `0 .. n-1` and the pairs (board of the
object, corner of that board), read in one direction from `b2o` and in the other from `o2b`, and `n`
is the sum of the corner counts of its boards (`size b` is the number of corners of board `b`). -/
structure Numbering (size : Nat → Nat) (o : Object G Pt) : Prop where
  inverse : ∀ k i, OMap.get? o.b2o k = some i ↔ o.o2b[i]? = some k
  once : o.o2b.Nodup
  mem : ∀ b k, (b, k) ∈ o.o2b ↔ b ∈ OMap.keys o.boards ∧ k < size b
  pts_length : o.pts.length = o.o2b.length
  nb_pts : o.nbPts = o.o2b.length
  total : o.o2b.length = ((OMap.keys o.boards).map size).sum

/-- Every board of the object has a pose, and every object point is the pose of its board applied to
the board's own corner. -/
structure Posed [SMul G Pt] (bpts : List (List Pt)) (o : Object G Pt) : Prop where
  keys : OMap.keys o.poses = OMap.keys o.boards
  point : ∀ i b k : Nat, o.o2b[i]? = some (b, k) → ∃ g ps p, OMap.get? o.poses b = some g ∧
    bpts[b]? = some ps ∧ ps[k]? = some p ∧ o.pts[i]? = some (g • p)

/-- Number of corners of board `b`. -/
def cornerCount (bpts : List (List Pt)) (b : Nat) : Nat := ((bpts[b]?).map List.length).getD 0

/-- What is claimed of every object. -/
structure Good [SMul G Pt] (bpts : List (List Pt)) (o : Object G Pt) : Prop where
  boards_sorted : OMap.Sorted o.boards
  poses_sorted : OMap.Sorted o.poses
  b2o_sorted : OMap.Sorted o.b2o
  boards_valid : ∀ b ∈ OMap.keys o.boards, b < bpts.length
  numbering : Numbering (cornerCount bpts) o
  posed : Posed bpts o

end Verif.Spec.Objects

namespace Verif.Spec.Objects
open Verif Verif.Objects

variable {G Pt P Path : Type}

/-- What is claimed of the whole collection of objects at every stage: objects are listed under their
own number, each is well formed, no board belongs to two of them, the reference board of each is its
least board and has the identity pose, and objects are numbered by increasing reference board. -/
structure Collection [Group G] [SMul G Pt] (bpts : List (List Pt)) (objs : OMap Nat (Object G Pt)) :
    Prop where
  sorted : OMap.Sorted objs
  good : ∀ i o, OMap.get? objs i = some o → Good bpts o
  id : ∀ i o, OMap.get? objs i = some o → o.id = i
  disjoint : ∀ i j o o', OMap.get? objs i = some o → OMap.get? objs j = some o' →
    ∀ b, b ∈ OMap.keys o.boards → b ∈ OMap.keys o'.boards → i = j
  ref_mem : ∀ i o, OMap.get? objs i = some o → o.refBoard ∈ OMap.keys o.boards
  ref_least : ∀ i o, OMap.get? objs i = some o → ∀ b ∈ OMap.keys o.boards, o.refBoard ≤ b
  ref_pose : ∀ i o, OMap.get? objs i = some o → OMap.get? o.poses o.refBoard = some 1
  ref_incr : ∀ i j o o', OMap.get? objs i = some o → OMap.get? objs j = some o' → i < j →
    o.refBoard < o'.refBoard
  nb : ∀ i o, OMap.get? objs i = some o → o.nbBoards = (OMap.keys o.boards).length

end Verif.Spec.Objects

namespace Verif.Spec.Objects
open Verif Verif.Objects

variable {G Pt P Path : Type}

/-- The number of corner `k` of board `b` in the object: its position in `pts_obj_2_board_`; 0 if the
object has no such corner. -/
def objNumber (o : Object G Pt) (b k : Nat) : Nat := if (b, k) ∈ o.o2b then o.o2b.idxOf (b, k) else 0

/-- The board observations of camera `c` in frame `f` of boards of the object, by position. -/
def seenOf (o : Object G Pt) (obs : List (BoardObs P)) (c f : Nat) : List Nat :=
  Store.positions (fun bo => bo.cam == c && bo.frame == f && decide (bo.board ∈ OMap.keys o.boards)) obs

/-- What the observation of an object by camera `c` in frame `f` must be: the pixels and the object
numbers of all corners of all its boards seen there, in order. -/
def objObs (o : Object G Pt) (obs : List (BoardObs P)) (c f : Nat) : ObjObs P :=
  let sel := (seenOf o obs c f).filterMap fun i => obs[i]?
  { obj := o.id, cam := c, frame := f
    boards := seenOf o obs c f
    boardIds := sel.map (·.board)
    pts := sel.flatMap (·.pts)
    ids := sel.flatMap fun bo => bo.ids.map (objNumber o bo.board) }

/-- All observations of an object: one for each (camera, frame) of the list `views` where at least one
corner was seen. -/
def allObjObs (o : Object G Pt) (obs : List (BoardObs P)) (views : List (Nat × Nat)) :
    List (ObjObs P) :=
  (views.map fun v => objObs o obs v.1 v.2).filter fun oo => decide (oo.pts ≠ [])

/-- `obs'` differs from `obs` at most by the points kept in each observation, and each observation has
as many corner ids as points. -/
structure SameViews (obs obs' : List (BoardObs P)) : Prop where
  keys : obs'.map (fun o => (o.cam, o.frame, o.board)) = obs.map (fun o => (o.cam, o.frame, o.board))
  aligned : ∀ o ∈ obs', o.pts.length = o.ids.length

end Verif.Spec.Objects
