import Verif.Spec.FromConfig

/-! The calibration reads nothing of a configuration file but its keys. -/
namespace Verif.Lemmas.FromConfig
open Verif Verif.FromConfig Verif.Spec.FromConfig
open Verif.Config (File)

variable {f g : File}

theorem alike_of_eq {k : String} (h : f k = g k) : Alike f g k := by
  constructor
  · unfold Config.int; rw [h]
  · unfold Config.real; rw [h]
  · unfold Config.ints; rw [h]
  · unfold Config.reals; rw [h]
  · unfold FromConfig.str; rw [h]

theorem _root_.Verif.Spec.FromConfig.Alike.bool {k : String} (h : Alike f g k) : Config.bool f k = Config.bool g k := by
  unfold Config.bool; rw [h.int]

section
variable (h : ∀ k ∈ rigKeys, Alike f g k)
include h

theorem boardCount_congr : Config.boardCount f = Config.boardCount g := by
  unfold Config.boardCount
  rw [(h "boards_index" (by decide)).ints, (h "number_board" (by decide)).int]

theorem maxBoardIndex_congr : Config.maxBoardIndex f = Config.maxBoardIndex g := by
  unfold Config.maxBoardIndex
  rw [(h "boards_index" (by decide)).ints, boardCount_congr h]

theorem squares_congr : Config.squares f = Config.squares g := by
  unfold Config.squares
  rw [(h "number_x_square_per_board" (by decide)).ints, (h "number_y_square_per_board" (by decide)).ints,
    (h "number_x_square" (by decide)).int, (h "number_y_square" (by decide)).int, maxBoardIndex_congr h]

theorem distortions_congr : Config.distortions f = Config.distortions g := by
  unfold Config.distortions
  rw [(h "distortion_per_camera" (by decide)).ints, (h "number_camera" (by decide)).int,
    (h "distortion_model" (by decide)).int]

theorem boardIndexes_congr : Config.boardIndexes f = Config.boardIndexes g := by
  unfold Config.boardIndexes
  rw [(h "boards_index" (by decide)).ints, (h "number_board" (by decide)).int]

theorem boardSize_congr (b : Nat) : Config.boardSize f b = Config.boardSize g b := by
  unfold Config.boardSize
  rw [(h "square_size_per_board" (by decide)).reals, (h "number_x_square" (by decide)).int,
    (h "number_y_square" (by decide)).int, (h "square_size" (by decide)).real, boardIndexes_congr h,
    (h "number_x_square_per_board" (by decide)).ints, (h "number_y_square_per_board" (by decide)).ints]

theorem boardStep_congr : Config.boardStep f = Config.boardStep g := by
  funext ps acc b
  unfold Config.boardStep Config.board
  rw [boardIndexes_congr h, boardSize_congr h]

theorem calibration_congr (v : Config.Version) : Config.calibration v f = Config.calibration v g := by
  have hc : Config.cameraStep f = Config.cameraStep g := by
    funext acc i
    unfold Config.cameraStep
    rw [distortions_congr h]
  unfold Config.calibration
  rw [(h "number_camera" (by decide)).int, (h "number_board" (by decide)).int, squares_congr h, hc, maxBoardIndex_congr h,
    (h "length_square" (by decide)).real, (h "length_marker" (by decide)).real, boardStep_congr h, boardCount_congr h,
    (h "quaternion_averaging:" (by decide)).bool]

theorem checks_congr : checks f = checks g := by
  unfold checks
  rw [(h "number_camera" (by decide)).int, (h "number_board" (by decide)).int, squares_congr h]

end

theorem rig_of_keys (h : ∀ k ∈ keys, Alike f g k) : ∀ k ∈ rigKeys, Alike f g k := fun k hk => h k (by
  unfold keys; simp only [List.mem_append]; exact .inl (.inl (.inl hk)))

theorem mem_image {k : String} (hk : k ∈ imageKeys) : k ∈ keys := by
  unfold keys; simp only [List.mem_append]; exact .inl (.inl (.inr hk))

theorem mem_save {k : String} (hk : k ∈ saveKeys) : k ∈ keys := by
  unfold keys; simp only [List.mem_append]; exact .inl (.inr hk)

theorem mem_tuning {k : String} (hk : k ∈ tuningKeys) : k ∈ keys := by
  unfold keys; simp only [List.mem_append]; exact .inr hk

theorem tuning_congr (h : ∀ k ∈ tuningKeys, Alike f g k) (s : Config.Setup) : tuning f s = tuning g s := by
  unfold tuning
  rw [(h "ransac_threshold" (by decide)).real, (h "number_iterations" (by decide)).int, (h "he_approach" (by decide)).int,
    (h "fix_intrinsic" (by decide)).int]

variable {V G Pt K K' Q Img : Type} (x : Parts V G Pt K K' Q Img)

theorem setup_congr (h : ∀ k ∈ keys, Alike f g k) (s : Config.Setup) (ini) : setup x f s ini = setup x g s ini := by
  have hi := fun k hk => h k (mem_image hk)
  have hs := fun k hk => h k (mem_save hk)
  have ht := fun k hk => h k (mem_tuning hk)
  unfold setup
  rw [tuning_congr ht, (rig_of_keys h "number_camera" (by decide)).int, (hi "refine_corner" (by decide)).bool,
    (hi "min_perc_pts" (by decide)).real, (hi "root_path" (by decide)).str, (hi "cam_prefix" (by decide)).str,
    (ht "keypoints_path" (by decide)).str, (ht "fix_intrinsic" (by decide)).int, (hs "save_path" (by decide)).str,
    (hs "save_detection" (by decide)).int, (hs "save_reprojection" (by decide)).int,
    (hs "camera_params_file_name" (by decide)).str]

theorem construct_congr (h : ∀ k ∈ keys, Alike f g k) : construct x f = construct x g := by
  have hs : ∀ s ini, setup x f s ini = setup x g s ini := setup_congr x h
  unfold construct
  rw [checks_congr (rig_of_keys h), calibration_congr (rig_of_keys h), (h "save_path" (mem_save (by decide))).str,
    (h "cam_params_path" (mem_tuning (by decide))).str]
  simp only [hs]

end Verif.Lemmas.FromConfig
