import Verif.Spec.Pipeline

/-! What the tables must be when a calibration has ended. -/
namespace Verif.Spec.Finish
open Verif Verif.Objects Verif.Groups Verif.Pipeline

variable {G Pt P : Type}

/-- A camera of the group kept a corner in the frame. -/
def SawIn (obs : List (BoardObs P)) (g : CamGroup G) (f : Nat) : Prop :=
  ∃ bo ∈ obs, bo.pts ≠ [] ∧ bo.frame = f ∧ bo.cam ∈ OMap.keys g.cameras

/-- `obs` are the board observations after the removal of outliers. -/
structure Complete [Group G] [SMul G Pt] (bpts : List (List Pt)) (frames : List Nat) (obs : List (BoardObs P))
    (st : State G Pt P) : Prop where
  consistent : Spec.Pipeline.Consistent bpts frames obs st
  /-- every board with a corner left is in an object -/
  boards : ∀ bo ∈ obs, bo.pts ≠ [] → ∃ i o, OMap.get? st.objs i = some o ∧ bo.board ∈ OMap.keys o.boards
  /-- every camera with a corner left is in a group -/
  cameras : ∀ bo ∈ obs, bo.pts ≠ [] → ∃ i g, OMap.get? st.t.groups i = some g ∧ bo.cam ∈ OMap.keys g.cameras
  /-- groups are numbered from 0 -/
  numbered : ∃ k, OMap.keys st.t.groups = List.range k
  /-- no group without a corner -/
  observed : ∀ i g, OMap.get? st.t.groups i = some g → ∃ f, SawIn obs g f
  /-- the frames of a group are those in which it kept a corner -/
  groupFrames : ∀ i g, OMap.get? st.t.groups i = some g → ∀ f, f ∈ OMap.keys g.frames ↔ SawIn obs g f
  /-- the groups of a frame are those which kept a corner in it, each listed once -/
  frameGroups : ∀ f, ((OMap.get? st.t.frameGroups f).getD []).Nodup ∧ ∀ i,
    i ∈ (OMap.get? st.t.frameGroups f).getD [] ↔ ∃ g, OMap.get? st.t.groups i = some g ∧ SawIn obs g f

/-- The corner `k` of board `b` seen at pixel `p` by camera `c` in frame `f` is among the object observations, as a point
of the object of its board. -/
def Listed (objs : OMap Nat (Object G Pt)) (oo : List (ObjObs P)) (c f b k : Nat) (p : P) : Prop :=
  ∃ o ∈ oo, o.cam = c ∧ o.frame = f ∧ ∃ ob, OMap.get? objs o.obj = some ob ∧
    ∃ i : Nat, (p, i) ∈ o.pts.zip o.ids ∧ ob.o2b[i]? = some (b, k)

/-- The corner is among the board observations. -/
def Kept (obs : List (BoardObs P)) (c f b k : Nat) (p : P) : Prop :=
  ∃ bo ∈ obs, bo.cam = c ∧ bo.frame = f ∧ bo.board = b ∧ (p, k) ∈ bo.pts.zip bo.ids

end Verif.Spec.Finish
