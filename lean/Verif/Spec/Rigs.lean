import Verif.Spec.Exact
import Verif.Spec.Pipeline

/-! Rigs of cameras with a target each: no camera of one rig ever sees what another rig sees. -/
namespace Verif.Spec.Rigs
open Verif Verif.Spec.Pipeline Verif.Spec.Objects Verif.Spec.Groups Verif.Spec.Exact

variable {P Path : Type}

/-- `l` are the detections of rigs of cameras that look at targets of boards. `fc` gives the first camera of the rig of a
camera, `cs` are the first cameras of the rigs; `fb` gives the first board of the target of a board, `bs` are the first
boards of the targets. -/
structure Rigs (nCam nBoard : Nat) (l : List (Insertion P Path)) (fc fb : Nat → Nat) (cs bs : List Nat) : Prop where
  cams_lt : cs.Pairwise (· < ·)
  boards_lt : bs.Pairwise (· < ·)
  /-- common views link each camera to the first of its rig -/
  cams : ∀ c ∈ observingCams nCam l, fc c ∈ cs ∧ fc c ≤ c ∧
    Relation.ReflTransGen (CamsLinked l (l.map (·.obs))) c (fc c)
  /-- images of two boards link each board to the first of its target -/
  boards : ∀ b ∈ observedBoards nBoard l, fb b ∈ bs ∧ fb b ≤ b ∧ Relation.ReflTransGen (CoSeen l) b (fb b)
  /-- each rig sees one target, different rigs different targets -/
  own : ∀ a ∈ l, ∀ a' ∈ l, fc a.obs.cam = fc a'.obs.cam ↔ fb a.obs.board = fb a'.obs.board
  /-- every rig sees something -/
  seeing : ∀ r ∈ cs, ∃ a ∈ l, fc a.obs.cam = r
  /-- every target is seen -/
  seen : ∀ r ∈ bs, ∃ a ∈ l, fb a.obs.board = r

/-- The rig with first camera `r` has a detection in frame `f`. -/
def InFrame (l : List (Insertion P Path)) (fc : Nat → Nat) (r f : Nat) : Prop :=
  ∃ a ∈ l, a.obs.frame = f ∧ fc a.obs.cam = r

/-- In all frames `fs` both rigs have a detection. -/
def Joint (l : List (Insertion P Path)) (fc : Nat → Nat) (r r' : Nat) (fs : List Nat) : Prop :=
  ∀ f ∈ fs, InFrame l fc r f ∧ InFrame l fc r' f

/-- Each rig has detections together with the first one, `c0`, in at least six frames, whose motions have no common axis;
and no two rigs have detections together in exactly four or five frames. -/
structure Around {G : Type} [Group G] (w : World G) (l : List (Insertion P Path)) (fc : Nat → Nat) (c0 : Nat) (cs : List Nat) :
    Prop where
  hub : ∀ r ∈ cs, ∃ fs : List Nat, Joint l fc c0 r fs ∧ fs.Nodup ∧ 6 ≤ fs.length ∧ Rich w fs
  others : ∀ r ∈ cs, ∀ r' ∈ cs, r ≠ r' → ∀ fs : List Nat, Joint l fc r r' fs → fs.Nodup → 4 ≤ fs.length →
    ∃ fs' : List Nat, Joint l fc r r' fs' ∧ fs'.Nodup ∧ 6 ≤ fs'.length

end Verif.Spec.Rigs
