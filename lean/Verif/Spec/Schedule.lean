import Verif.Model.Pipeline
import Verif.Spec.Store

/-! Specification vocabulary: two runs of the calibration that differ only in the order in which the
detections were stored. -/
namespace Verif.Spec.Schedule
open Verif Verif.Objects Verif.Pipeline

variable {G Pt P Path : Type}

/-- The detections of every frame are the same, in the same order; detections of different frames may
be ordered differently. -/
def SameFrames (l₁ l₂ : List (Insertion P Path)) : Prop :=
  ∀ f, (l₁.filter (Store.byFrame f)).map (·.obs) = (l₂.filter (Store.byFrame f)).map (·.obs)

/-- An object observation without the numbers of its board observations in the table of all board
observations (these depend on the order of insertion). -/
def unnumbered (o : ObjObs P) : ObjObs P := { o with boards := [] }

/-- The final tables without these numbers: objects with boards, poses and points; object observations
with their pixels and ids; camera groups with cameras and poses; group observations. -/
def shown (st : State G Pt P) : State G Pt P := { st with oo := st.oo.map unnumbered }

/-- What a run shows: its tables, or how it failed. -/
def result (r : Outcome (State G Pt P)) : Outcome (State G Pt P) :=
  match r with
  | .ok st => .ok (shown st)
  | .ub => .ub
  | .throw => .throw
  | .diverge => .diverge

/-- The pose of each stored board observation, when `q` gives the pose estimated from an observation
(with the intrinsics at hand). -/
def posesOf [Group G] (s : Store P Path) (q : BoardObs P → G) (i : Nat) : G :=
  ((s.obs[i]?).map q).getD 1

/-- One calibration on stored board observations: `q` estimates the pose of a board observation, `out`
removes its outliers, `n` gives all further numerical results. -/
def calibration [Group G] [SMul G Pt] {V : Type} (n : Numerics V G) (q : BoardObs P → G)
    (out : BoardObs P → BoardObs P) (bpts : List (List Pt)) (s : Store P Path) :
    Outcome (State G Pt P) :=
  result (workflow { n with boardPose := posesOf s q } bpts s (s.obs.map out))

/-- Within a frame the detections are ordered by camera, then by board. -/
def FrameSorted (l : List (Insertion P Path)) : Prop :=
  ∀ f, (l.filter (Store.byFrame f)).Pairwise fun a b =>
    a.obs.cam < b.obs.cam ∨ a.obs.cam = b.obs.cam ∧ a.obs.board ≤ b.obs.board

end Verif.Spec.Schedule
