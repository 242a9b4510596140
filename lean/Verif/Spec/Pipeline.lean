import Verif.Model.Pipeline
import Verif.Spec.NonOverlap

/-! Consistency of the tables between the stages of the workflow. -/
namespace Verif.Spec.Pipeline
open Verif Verif.Objects Verif.Groups Verif.Pipeline Verif.Spec.Groups Verif.Spec.NonOverlap

variable {G Pt P : Type}

/-- The tables agree with each other and with the board observations `obs`: objects and groups are proper
collections, an object observation exists exactly where a corner of the object was seen, the group
observations are those of the object observations, and the groups' own lists cover them. -/
structure Consistent [Group G] [SMul G Pt] (bpts : List (List Pt)) (frames : List Nat)
    (obs : List (BoardObs P)) (st : State G Pt P) : Prop where
  objs : Spec.Objects.Collection bpts st.objs
  sees : ∀ i c f, (∃ o ∈ st.oo, o.obj = i ∧ o.cam = c ∧ o.frame = f) ↔
    ∃ o, OMap.get? st.objs i = some o ∧ Sees obs o c f
  groups : Collection st.t.groups
  groupObs : GroupObsOf st.oo frames st.t
  lists : ListsCover st.t

/-- Cameras of each group. -/
def groupCams (gs : OMap Nat (CamGroup G)) : List (Nat × List Nat) :=
  gs.map fun e => (e.1, OMap.keys e.2.cameras)

end Verif.Spec.Pipeline

namespace Verif.Spec.Pipeline
open Verif

variable {P Path : Type}

/-- Cameras `a` and `b` have corners, in one frame, of boards that are linked by images showing two
boards at once. `l` are the stored detections, `obs` what is left of them after outlier removal. -/
def CamsLinked (l : List (Insertion P Path)) (obs : List (BoardObs P)) (a b : Nat) : Prop :=
  a ≠ b ∧ ∃ x ∈ obs, ∃ y ∈ obs, x.cam = a ∧ y.cam = b ∧ x.frame = y.frame ∧ x.pts ≠ [] ∧ y.pts ≠ [] ∧
    Relation.ReflTransGen (Spec.Objects.CoSeen l) x.board y.board

end Verif.Spec.Pipeline
