import Verif.Core.Outcome
import Verif.Core.OMap

/-!
Model of the observation tables filled by `Calibration::insertNewBoard` (McCalib.cpp:594-642).

Shared/weak pointers to a board observation are modelled by its key in `board_observations_`
(its position in insertion order); a pointer to a frame by the frame index; a pointer to a camera
observation by its (camera, frame) key.  The coordinate type `P` of image points and the type `Path`
of file paths are arbitrary.
-/
namespace Verif

/-- BoardObs.hpp: `BoardObs` as built by its constructor (BoardObs.cpp:26-34); pose and validity are
added in `Model/Objects`. -/
structure BoardObs (P : Type) where
  cam : Nat
  frame : Nat
  board : Nat
  pts : List P
  ids : List Nat
  deriving DecidableEq, Repr

/-- The arguments of one call of `insertNewBoard`. -/
structure Insertion (P Path : Type) where
  obs : BoardObs P
  path : Path
  deriving DecidableEq, Repr

/-- Camera.hpp: the index fields of `Camera` filled at this stage. -/
structure CamRec where
  /-- `board_observations_` -/
  boards : List Nat := []
  /-- `vis_board_idx_` -/
  visBoards : List Nat := []
  /-- keys of `frames_` -/
  frames : OMap Nat Unit := []
  deriving DecidableEq, Repr

/-- Board.hpp: the index fields of `Board`. -/
structure BoardRec where
  boards : List Nat := []
  frames : OMap Nat Unit := []
  deriving DecidableEq, Repr

/-- Frame.hpp: the fields of `Frame` filled at this stage. -/
structure FrameRec (Path : Type) where
  /-- `board_observations_` -/
  boards : List Nat := []
  /-- `boards_idx_` -/
  boardsIdx : List Nat := []
  /-- `cam_idx_`, the cameras of `cam_obs_` -/
  cams : List Nat := []
  /-- `frame_path_` -/
  paths : OMap Nat Path := []
  deriving DecidableEq, Repr

/-- CameraObs.hpp: the fields of `CameraObs` filled at this stage. -/
structure CamObsRec where
  boards : List Nat := []
  boardsIdx : List Nat := []
  cam : Nat := 0
  deriving DecidableEq, Repr

/-- McCalib.hpp: `board_observations_`, `cams_`, `boards_3d_`, `frames_`, `cams_obs_`.
`cams_` and `boards_3d_` have the keys `0 .. n-1` after construction (McCalib.cpp:105-134), hence
lists. -/
structure Store (P Path : Type) where
  obs : List (BoardObs P) := []
  cams : List CamRec
  boards : List BoardRec
  frames : OMap Nat (FrameRec Path) := []
  camObs : OMap (Nat × Nat) CamObsRec := []
  deriving DecidableEq, Repr

namespace Store
variable {P Path : Type}

/-- The tables after construction of `Calibration` with the given numbers of cameras and boards. -/
def init (nCam nBoard : Nat) : Store P Path :=
  { cams := List.replicate nCam {}, boards := List.replicate nBoard {} }

/-- Camera.cpp:133-136 `Camera::insertNewBoard`. -/
def CamRec.insertBoard (c : CamRec) (id board : Nat) : CamRec :=
  { c with boards := c.boards ++ [id], visBoards := c.visBoards ++ [board] }

/-- Camera.cpp:143-145 `Camera::insertNewFrame`. -/
def CamRec.insertFrame (c : CamRec) (f : Nat) : CamRec := { c with frames := OMap.set c.frames f () }

/-- Board.cpp:91-93 `Board::insertNewBoard`. -/
def BoardRec.insertBoard (b : BoardRec) (id : Nat) : BoardRec := { b with boards := b.boards ++ [id] }

/-- Board.cpp:102-104 `Board::insertNewFrame`. -/
def BoardRec.insertFrame (b : BoardRec) (f : Nat) : BoardRec :=
  { b with frames := OMap.set b.frames f () }

/-- Frame.cpp:22-25 `Frame::insertNewBoard`. -/
def FrameRec.insertBoard (fr : FrameRec Path) (id board : Nat) : FrameRec Path :=
  { fr with boards := fr.boards ++ [id], boardsIdx := fr.boardsIdx ++ [board] }

/-- Frame.cpp:42-45 `Frame::insertNewCamObs`. -/
def FrameRec.insertCamObs (fr : FrameRec Path) (cam : Nat) : FrameRec Path :=
  { fr with cams := fr.cams ++ [cam] }

/-- CameraObs.cpp:20-24 `CameraObs::insertNewBoard`. -/
def CamObsRec.insertBoard (co : CamObsRec) (id cam board : Nat) : CamObsRec :=
  { boards := co.boards ++ [id], boardsIdx := co.boardsIdx ++ [board], cam := cam }

/-- McCalib.cpp:594-642 `Calibration::insertNewBoard`.  A camera or board index without an entry
makes `operator[]` create a null pointer that is then dereferenced. -/
def insertNewBoard (s : Store P Path) (a : Insertion P Path) : Outcome (Store P Path) :=
  let o := a.obs
  let id := s.obs.length
  match s.cams[o.cam]?, s.boards[o.board]? with
  | some c, some b =>
    let c := CamRec.insertBoard c id o.board
    let b := BoardRec.insertBoard b id
    -- frames_ : existing frame, or a new one registered with this camera and this board only
    let (frames, c, b) := match OMap.get? s.frames o.frame with
      | some fr =>
        let fr := FrameRec.insertBoard fr id o.board
        (OMap.set s.frames o.frame { fr with paths := OMap.set fr.paths o.cam a.path }, c, b)
      | none =>
        let fr : FrameRec Path := { paths := OMap.set [] o.cam a.path }
        (OMap.set s.frames o.frame (FrameRec.insertBoard fr id o.board),
          CamRec.insertFrame c o.frame, BoardRec.insertFrame b o.frame)
    -- cams_obs_ : existing camera observation, or a new one registered with the frame
    let (camObs, frames) := match OMap.get? s.camObs (o.cam, o.frame) with
      | some co =>
        (OMap.set s.camObs (o.cam, o.frame) (CamObsRec.insertBoard co id o.cam o.board), frames)
      | none =>
        (OMap.set s.camObs (o.cam, o.frame) (CamObsRec.insertBoard {} id o.cam o.board),
          match OMap.get? frames o.frame with
          | some fr => OMap.set frames o.frame (FrameRec.insertCamObs fr o.cam)
          | none => frames)
    .ok { obs := s.obs ++ [o], cams := s.cams.set o.cam c, boards := s.boards.set o.board b,
          frames := frames, camObs := camObs }
  | _, _ => .ub

/-- A sequence of insertions into fresh tables. -/
def run (nCam nBoard : Nat) (l : List (Insertion P Path)) : Outcome (Store P Path) :=
  Outcome.foldlM insertNewBoard (init nCam nBoard) l

end Store
end Verif
