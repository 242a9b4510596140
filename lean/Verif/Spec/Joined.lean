import Verif.Spec.Pipeline

/-! Which boards end in one 3D object, in terms of the detections alone. `l` are the stored detections,
`obs` what is left of their corners after outlier removal. -/
namespace Verif.Spec.Joined
open Verif Verif.Objects Verif.Spec.Objects Verif.Spec.Pipeline

variable {G Pt P Path : Type}

/-- Boards `a` and `b` have corners in one frame, in images of any cameras. -/
def InFrame (obs : List (BoardObs P)) (a b : Nat) : Prop :=
  ∃ x ∈ obs, ∃ y ∈ obs, x.board = a ∧ y.board = b ∧ x.frame = y.frame ∧ x.pts ≠ [] ∧ y.pts ≠ []

/-- Boards `a` and `b` have corners in one frame, in images of cameras linked by common views. -/
def InLinkedViews (l : List (Insertion P Path)) (obs : List (BoardObs P)) (a b : Nat) : Prop :=
  ∃ x ∈ obs, ∃ y ∈ obs, x.board = a ∧ y.board = b ∧ x.frame = y.frame ∧ x.pts ≠ [] ∧ y.pts ≠ [] ∧
    Relation.ReflTransGen (CamsLinked l obs) x.cam y.cam

/-- Seen together in an image, or in one frame by linked cameras. -/
def BoardLink (l : List (Insertion P Path)) (obs : List (BoardObs P)) (a b : Nat) : Prop :=
  CoSeen l a b ∨ InLinkedViews l obs a b

/-- Seen together in an image, or in one frame by any cameras. -/
def FrameLink (l : List (Insertion P Path)) (obs : List (BoardObs P)) (a b : Nat) : Prop :=
  CoSeen l a b ∨ InFrame obs a b

/-- The board, or one linked to it by images showing two boards at once, has a corner left. -/
def Usable (l : List (Insertion P Path)) (obs : List (BoardObs P)) (b : Nat) : Prop :=
  ∃ x ∈ obs, x.pts ≠ [] ∧ Relation.ReflTransGen (CoSeen l) b x.board

/-- The board belongs to an object. -/
def InObject (objs : OMap Nat (Object G Pt)) (b : Nat) : Prop :=
  ∃ i o, OMap.get? objs i = some o ∧ b ∈ OMap.keys o.boards

/-- The boards belong to one object. -/
def SameObject (objs : OMap Nat (Object G Pt)) (a b : Nat) : Prop :=
  ∃ i o, OMap.get? objs i = some o ∧ a ∈ OMap.keys o.boards ∧ b ∈ OMap.keys o.boards

/-- All detections of `l` are detections of `l'` too, and all corners left of the former are left of the latter: `l'`, `obs'`
are `l`, `obs` with images added. -/
structure More (l l' : List (Insertion P Path)) (obs obs' : List (BoardObs P)) : Prop where
  seen : ∀ a ∈ l, ∃ a' ∈ l', a'.obs.cam = a.obs.cam ∧ a'.obs.frame = a.obs.frame ∧ a'.obs.board = a.obs.board
  left : ∀ x ∈ obs, x.pts ≠ [] → ∃ x' ∈ obs', x'.cam = x.cam ∧ x'.frame = x.frame ∧ x'.board = x.board ∧ x'.pts ≠ []

end Verif.Spec.Joined
