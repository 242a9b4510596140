import Verif.Model.FromConfig
import Verif.Spec.Order

/-!
Configuration files: the keys that are read, and when two values of a key are the same to a reader.
-/
namespace Verif.Spec.FromConfig
open Verif Verif.Folders Verif.Disk
open Verif.Config (File)

/-- The keys about boards and cameras. -/
def rigKeys : List String :=
  ["number_camera", "number_board", "boards_index", "number_x_square", "number_y_square", "number_x_square_per_board",
   "number_y_square_per_board", "square_size_per_board", "square_size", "length_square", "length_marker", "distortion_model",
   "distortion_per_camera", "quaternion_averaging:"]

/-- The keys about the images and their detection. -/
def imageKeys : List String := ["root_path", "cam_prefix", "refine_corner", "min_perc_pts"]

/-- The keys about where and what to save. -/
def saveKeys : List String := ["save_path", "camera_params_file_name", "save_detection", "save_reprojection"]

/-- The other keys. -/
def tuningKeys : List String :=
  ["cam_params_path", "keypoints_path", "ransac_threshold", "number_iterations", "he_approach", "fix_intrinsic"]

/-- All keys that the calibration reads and uses. -/
def keys : List String := rigKeys ++ imageKeys ++ saveKeys ++ tuningKeys

/-- A key has the same value in both files, whatever type it is read as. -/
structure Alike (f g : File) (k : String) : Prop where
  int : Config.int f k = Config.int g k
  real : Config.real f k = Config.real g k
  ints : Config.ints f k = Config.ints g k
  reals : Config.reals f k = Config.reals g k
  str : FromConfig.str f k = FromConfig.str g k

/-- The values that stand for nothing. -/
def blanks : List Config.Value := [.int 0, .real 0, .ints [], .reals [], .str ""]

/-- The file with another value for a key. -/
def put (f : File) (k : String) (v : Option Config.Value) : File := fun k' => if k' = k then v else f k'

/-- The places of the images of a kind. -/
def InFolder (save kind : Str) (x : Loc) : Prop := ∃ bs, x = Spec.Disk.below save (kind :: bs)

/-- The name of board `i`: its entry in `boards_index`, if there is one. -/
def Named (f : File) (i j : Nat) : Prop :=
  if Config.ints f "boards_index" = [] then j = i else (Config.ints f "boards_index")[i]? = some (j : Int)

/-- The file gives board `i` `nx` by `ny` squares of size `sq`: those common to all boards, or, if there are sizes per
board, those at the name of the board. -/
def Sized (f : File) (i : Nat) (nx ny : Int) (sq : Rat) : Prop :=
  if Config.reals f "square_size_per_board" = [] then
    nx = Config.int f "number_x_square" ∧ ny = Config.int f "number_y_square" ∧ sq = Config.real f "square_size"
  else ∃ j : Nat, Named f i j ∧ (Config.ints f "number_x_square_per_board")[j]? = some nx ∧
    (Config.ints f "number_y_square_per_board")[j]? = some ny ∧ (Config.reals f "square_size_per_board")[j]? = some sq

/-- The numerical parts get the options of the file. -/
structure Tuned (f : File) (t : Verif.FromConfig.Tuning) : Prop where
  ransac : t.ransac = Config.real f "ransac_threshold"
  iterations : t.iterations = Config.int f "number_iterations"
  bootstrapped : t.bootstrapped = true ↔ Config.int f "he_approach" = 0
  free : t.free = true ↔ Config.int f "fix_intrinsic" = 0
  /-- the key ends with a colon: `quaternion_averaging` has no effect (C44) -/
  quaternion : t.quaternion = Config.bool f "quaternion_averaging:"

/-- A run uses the values of the file. -/
structure Uses {V G Pt K K' Q Img : Type} (f : File) (u : Whole.Setup V G Pt K K' Q Img) : Prop where
  cameras : (u.nbCam : Int) = Config.int f "number_camera"
  refineCorner : u.cfg.refine = Config.bool f "refine_corner"
  least : u.cfg.minPerc = Config.real f "min_perc_pts"
  root : u.root = Verif.FromConfig.str f "root_path"
  pre : u.pre = Verif.FromConfig.str f "cam_prefix"
  keypoints : u.keypoints = Verif.FromConfig.str f "keypoints_path"
  save : u.en.save = Verif.FromConfig.str f "save_path"
  name : u.name = Verif.FromConfig.str f "camera_params_file_name"
  fix : u.fix = Config.int f "fix_intrinsic"
  /-- the first refinement of the intrinsics is left out if they are fixed -/
  refine : u.refine.isSome = true ↔ Config.int f "fix_intrinsic" = 0
  detection : u.en.saveDetect = Config.int f "save_detection"
  reprojection : u.en.saveRepro = Config.int f "save_reprojection"
  /-- the distortion model of each camera -/
  models : ∀ c < u.nbCam, (Config.distortions f)[c]? = some (u.en.model c)

end Verif.Spec.FromConfig
