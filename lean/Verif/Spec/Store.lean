import Verif.Model.Store

/-! Specification vocabulary for the observation tables: everything is read off the list of
insertions. -/
namespace Verif.Spec.Store
open Verif

/-- The positions in `l` of the members satisfying `p`, in increasing order. -/
def positions {α} (p : α → Bool) (l : List α) : List Nat :=
  (List.range l.length).filter fun i => (l[i]?).any p

/-- A list without the repetitions of earlier members. -/
def firstOccs {α} [DecidableEq α] (l : List α) : List α :=
  l.foldl (fun acc x => if x ∈ acc then acc else acc ++ [x]) []

variable {P Path : Type}

/-- Selectors. -/
def byCam (c : Nat) (a : Insertion P Path) : Bool := a.obs.cam == c
def byBoard (b : Nat) (a : Insertion P Path) : Bool := a.obs.board == b
def byFrame (f : Nat) (a : Insertion P Path) : Bool := a.obs.frame == f
def byCamFrame (c f : Nat) (a : Insertion P Path) : Bool := a.obs.cam == c && a.obs.frame == f

/-- What the tables must contain after the insertions `l`: every index refers exactly to the
observations that belong to it, by their position in `l`. -/
structure Describes (nCam nBoard : Nat) (l : List (Insertion P Path)) (s : Store P Path) : Prop where
  obs : s.obs = l.map (·.obs)
  cams_length : s.cams.length = nCam
  boards_length : s.boards.length = nBoard
  /-- a camera lists exactly its observations … -/
  cam : ∀ c r, s.cams[c]? = some r →
    r.boards = positions (byCam c) l ∧ r.visBoards = (l.filter (byCam c)).map (·.obs.board)
  /-- … and the frames whose first observation is its own -/
  cam_frames : ∀ c r, s.cams[c]? = some r → OMap.Sorted r.frames ∧ ∀ f, f ∈ OMap.keys r.frames ↔
    ∃ a, (l.filter (byFrame f)).head? = some a ∧ a.obs.cam = c
  board : ∀ b r, s.boards[b]? = some r → r.boards = positions (byBoard b) l
  board_frames : ∀ b r, s.boards[b]? = some r → OMap.Sorted r.frames ∧ ∀ f, f ∈ OMap.keys r.frames ↔
    ∃ a, (l.filter (byFrame f)).head? = some a ∧ a.obs.board = b
  frames_sorted : OMap.Sorted s.frames
  /-- the frames are exactly those mentioned -/
  frame_key : ∀ f, f ∈ OMap.keys s.frames ↔ ∃ a ∈ l, a.obs.frame = f
  frame : ∀ f r, OMap.get? s.frames f = some r →
    r.boards = positions (byFrame f) l ∧ r.boardsIdx = (l.filter (byFrame f)).map (·.obs.board) ∧
    r.cams = firstOccs ((l.filter (byFrame f)).map (·.obs.cam))
  /-- the path stored for a camera is the one given last -/
  frame_paths : ∀ f r, OMap.get? s.frames f = some r → OMap.Sorted r.paths ∧
    ∀ c, OMap.get? r.paths c = ((l.filter (byCamFrame c f)).getLast?).map (·.path)
  camObs_sorted : OMap.Sorted s.camObs
  camObs_key : ∀ c f, (c, f) ∈ OMap.keys s.camObs ↔ ∃ a ∈ l, a.obs.cam = c ∧ a.obs.frame = f
  camObs : ∀ c f r, OMap.get? s.camObs (c, f) = some r →
    r.boards = positions (byCamFrame c f) l ∧
    r.boardsIdx = (l.filter (byCamFrame c f)).map (·.obs.board) ∧ r.cam = c

end Verif.Spec.Store
