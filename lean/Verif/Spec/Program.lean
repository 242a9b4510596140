import Verif.Spec.Objects

/-! Views with too few points, in terms of the detections. -/
namespace Verif.Spec.Program
open Verif

variable {P Path : Type}

open Classical in
/-- The number of points camera `c` has in frame `f` on board `b` and the boards linked to it by images showing two
boards at once; `l` are the stored detections, `obs` what is left of them after outlier removal. -/
noncomputable def linkedPoints (l : List (Insertion P Path)) (obs : List (BoardObs P)) (b c f : Nat) : Nat :=
  ((obs.filter fun o => o.cam = c ∧ o.frame = f ∧ Relation.ReflTransGen (Spec.Objects.CoSeen l) b o.board).map
    fun o => o.pts.length).sum

/-- Some camera has, in some frame, one to three points of a set of linked boards. -/
def Thin (l : List (Insertion P Path)) (obs : List (BoardObs P)) : Prop :=
  ∃ b c f, 0 < linkedPoints l obs b c f ∧ linkedPoints l obs b c f < 4

end Verif.Spec.Program
