{
 "claims": [
  {
   "property": "C01",
   "status": "proved",
   "theorems": [
    "Verif.Props.Graph.C01_vertices",
    "Verif.Props.Graph.C01_vertices_one",
    "Verif.Props.Graph.C01_addVertex_idempotent",
    "Verif.Props.Graph.C01_addEdge_present",
    "Verif.Props.Graph.C01_fresh_self_edge_fails",
    "Verif.Props.Graph.C01_fresh_self_edge_component"
   ],
   "note": "All histories; the one exception (an id first mentioned by addEdge(v,v) names two vertices) is part of the statement."
  },
  {
   "property": "C02",
   "status": "proved",
   "theorems": [
    "Verif.Props.Graph.C02_components",
    "Verif.Props.Graph.C02_empty"
   ],
   "note": "Histories without a fresh self-edge."
  },
  {
   "property": "C03",
   "status": "proved",
   "theorems": [
    "Verif.Props.Graph.C03_C04_path",
    "Verif.Props.Graph.C03_negative_edge"
   ],
   "note": "Every tie-break of the queue; weights with non-negative integer part, otherwise the call throws."
  },
  {
   "property": "C04",
   "status": "proved",
   "theorems": [
    "Verif.Props.Graph.C03_C04_path",
    "Verif.Props.Graph.C04_real_weights_fail"
   ],
   "note": "Minimality for integer parts, and a witness that real weights are not minimised."
  },
  {
   "property": "C05",
   "status": "proved",
   "theorems": [
    "Verif.Props.Graph.C05_unknown",
    "Verif.Props.Graph.C05_unlinked_diverges",
    "Verif.Props.Graph.C05_loop_never_ends"
   ],
   "note": ""
  },
  {
   "property": "C06",
   "status": "proved",
   "theorems": [
    "Verif.Props.Store.C06_indexes",
    "Verif.Props.Store.C06_found_once",
    "Verif.Props.Store.C06_nothing_else",
    "Verif.Props.Store.C06_unknown_index_ub",
    "Verif.Props.Store.C06_run_ok_iff"
   ],
   "note": ""
  },
  {
   "property": "C07",
   "status": "proved",
   "theorems": [
    "Verif.Props.Detection.C07_schedule_independent",
    "Verif.Props.Detection.C07_sequential_is_schedule",
    "Verif.Props.Detection.C07_numbering_depends_on_schedule"
   ],
   "note": "The file is modelled as the sequence of its nodes, not as bytes."
  },
  {
   "property": "C08",
   "status": "proved",
   "theorems": [
    "Verif.Props.Detection.C08_roundtrip",
    "Verif.Props.Detection.C08_camera_without_detections_aborts",
    "Verif.Props.Detection.C08_unset_size_ub",
    "Verif.Props.Detection.C08_missing_camera"
   ],
   "note": ""
  },
  {
   "property": "C09",
   "status": "proved",
   "theorems": [
    "Verif.Props.Detection.C09_acceptance",
    "Verif.Props.Detection.C09_minimum",
    "Verif.Props.Detection.C09_collinear_rejected",
    "Verif.Props.Detection.C09_bad_id_ub",
    "Verif.Props.Detection.C09_image",
    "Verif.Props.Detection.C09_unreadable"
   ],
   "note": "Distances are exact rationals."
  },
  {
   "property": "C10",
   "status": "proved",
   "theorems": [
    "Verif.Props.Store.C10_camera_frames",
    "Verif.Props.Store.C10_board_frames",
    "Verif.Props.Store.C10_observed_frame_not_listed"
   ],
   "note": ""
  },
  {
   "property": "C100",
   "status": "proved",
   "theorems": [
    "Verif.Props.Joined.C100_overlapping",
    "Verif.Props.Joined.C100_run",
    "Verif.Props.Joined.C100_linked"
   ],
   "note": "In general the boards of the final objects lie between the two closures (the non-overlapping groups may or may not be joined, C52); they coincide if the cameras are linked. Concrete case: few_hypotheses, C101_joined."
  },
  {
   "property": "C101",
   "status": "proved",
   "theorems": [
    "Verif.Props.Joined.C101_together",
    "Verif.Props.Joined.C101_objects",
    "Verif.Props.Joined.C101_one_group",
    "Verif.Props.Joined.C101_fewer",
    "Verif.Props.Joined.C101_joined"
   ],
   "note": "The inclusion of the corners left is a hypothesis: with more images the search for outliers may draw differently. C101_joined: two further detections join two objects although no image shows both boards."
  },
  {
   "property": "C102",
   "status": "proved",
   "theorems": [
    "Verif.Props.Idle.C102_workflow",
    "Verif.Props.Idle.C102_saved",
    "Verif.Props.IdleReport.C102_report",
    "Verif.Props.IdleWhole.C102_whole"
   ],
   "note": "C102_whole: from images to files, with the intrinsics given; the initial calibration of an unused camera without given intrinsics is left out (C45). C102_report: all files of results and images, from the stored detections. Concrete case: two cameras and boards of which two more cameras and one more board are never used."
  },
  {
   "property": "C103",
   "status": "proved",
   "theorems": [
    "Verif.Props.Feedback.C103_fixed",
    "Verif.Props.Feedback.C103_same",
    "Verif.Props.Feedback.C103_incomplete"
   ],
   "note": "That no later step changes fixed intrinsics is C38 and built into `feed`. The text encoding of the file (rounding of decimals) is not modelled. Reading parameters that the file does not have is taken to fail at the first pose search. Concrete case: the scene of C92 is calibrated and then calibrated again from the camera file of the first run, which it replaces."
  },
  {
   "property": "C104",
   "status": "proved",
   "theorems": [
    "Verif.Props.Initial.C104_own",
    "Verif.Props.Initial.C104_order",
    "Verif.Props.Initial.C104_all",
    "Verif.Props.Initial.C104_schedules"
   ],
   "note": "Shuffles are arbitrary permutations; the OpenCV calibration is a function of the correspondences it is given and of the image size. Concrete case: three detections of two cameras stored in two orders."
  },
  {
   "property": "C105",
   "status": "proved",
   "theorems": [
    "Verif.Props.Hang.C105_calibration",
    "Verif.Props.Hang.C105_search",
    "Verif.Props.Hang.C105_handEye",
    "Verif.Props.Hang.C105_program",
    "Verif.Props.Hang.C105_unlinked"
   ],
   "note": "Library calls and optimisations are assumed to end (Spec/Steady); waiting for the thread pool is C98. C105_unlinked shows that the path search does hang on vertices of two components. Concrete case: the scene of C85 to C92 meets the hypotheses of C105_program."
  },
  {
   "property": "C106",
   "status": "proved",
   "theorems": [
    "Verif.Props.Recordings.C106_recordings",
    "Verif.Props.Recordings.C106_repeat"
   ],
   "note": "The conditions of each recording are those of C70 (structure Recording). Concrete case: two recordings with six and seven frames, cameras and boards 0 and 1 exchanged and another motion, with a camera that shares no view with the others."
  },
  {
   "property": "C107",
   "status": "proved",
   "theorems": [
    "Verif.Props.AnalysisWhole.C107_whole",
    "Verif.Props.Analysis.C107_complete",
    "Verif.Props.Analysis.C107_groups",
    "Verif.Props.Analysis.C107_missing",
    "Verif.Props.Analysis.C107_shown",
    "Verif.Props.Analysis.C107_all"
   ],
   "note": "C107_whole is about runs of the whole program; C107_complete says what is shown, for a run from observations to files. The pictures the scripts save and the drawing itself are left out; how the ground truth is read is a parameter. Concrete case: the last example of Props/AnalysisWhole, the run of Props/RealExample (two cameras, two boards, two frames) in a directory with a ground truth file."
  },
  {
   "property": "C108",
   "status": "proved",
   "theorems": [
    "Verif.Props.Place.C108_place"
   ],
   "note": "The keypoint file is read from the same place in both runs. Places in which nothing is in the way: predicate Ready (Spec/Whole). Concrete case: Props/PlaceExample, the run of RealExample with another directory and name and without images of detections."
  },
  {
   "property": "C109",
   "status": "proved",
   "theorems": [
    "Verif.Props.Figure.C109_view",
    "Verif.Props.Figure.C109_ranges",
    "Verif.Props.Figure.C109_unique",
    "Verif.Props.Figure.C109_scale",
    "Verif.Props.Figure.C109_again",
    "Verif.Props.Figure.C109_moved"
   ],
   "note": "Limits are real numbers. matplotlib's own choice of limits while plotting, and its widening of two equal limits, are not modelled; nor is the shape of the box in which it draws the axes."
  },
  {
   "property": "C11",
   "status": "proved",
   "theorems": [
    "Verif.Props.Objects.C11_partition",
    "Verif.Props.Objects.C11_member"
   ],
   "note": ""
  },
  {
   "property": "C110",
   "status": "proved",
   "theorems": [
    "Verif.Props.Display.C110_drawn",
    "Verif.Props.Display.C110_schedule",
    "Verif.Props.DetectionImages.C110_saved"
   ],
   "note": "The workflow itself does not call displayBoards (its call is commented out, McCalib.cpp:258). Observations and boards are taken to be alive (they are owned by the calibration); coordinates are real numbers, truncated to pixels."
  },
  {
   "property": "C12",
   "status": "proved",
   "theorems": [
    "Verif.Props.Objects.C12_reference"
   ],
   "note": ""
  },
  {
   "property": "C13",
   "status": "proved",
   "theorems": [
    "Verif.Props.Objects.C13_exact"
   ],
   "note": "Poses in an arbitrary group; the average is required to return the common value of equal measurements."
  },
  {
   "property": "C14",
   "status": "proved",
   "theorems": [
    "Verif.Props.Objects.C14_numbering",
    "Verif.Props.Objects.C24_merge",
    "Verif.Props.Objects.C15_update"
   ],
   "note": "After initialisation, merging and refinement."
  },
  {
   "property": "C15",
   "status": "proved",
   "theorems": [
    "Verif.Props.Objects.C15_initial",
    "Verif.Props.Objects.C15_update",
    "Verif.Props.Objects.C24_merge"
   ],
   "note": "Float rounding of the stored points is not modelled."
  },
  {
   "property": "C16",
   "status": "proved",
   "theorems": [
    "Verif.Props.Objects.C16_observations",
    "Verif.Props.Objects.C16_iff",
    "Verif.Props.Objects.C16_bad_corner"
   ],
   "note": ""
  },
  {
   "property": "C17",
   "status": "proved",
   "theorems": [
    "Verif.Props.Objects.C17_boards",
    "Verif.Props.Groups.C17_cameras",
    "Verif.Props.GroupPose.C17_objects"
   ],
   "note": "Boards, cameras and objects; for camera groups see C54."
  },
  {
   "property": "C18",
   "status": "proved",
   "theorems": [
    "Verif.Props.Groups.C18_partition",
    "Verif.Props.Groups.C18_member",
    "Verif.Props.Groups.C18_reference"
   ],
   "note": ""
  },
  {
   "property": "C19",
   "status": "proved",
   "theorems": [
    "Verif.Props.Groups.C19_formula",
    "Verif.Props.Groups.C19_true_iff",
    "Verif.Props.Groups.C19_direct",
    "Verif.Props.Groups.C19_two_cameras",
    "Verif.Props.Groups.C19_commuting",
    "Verif.Props.Groups.C19_two_edges_iff",
    "Verif.Props.Groups.C19_chain_wrong",
    "Verif.Props.Groups.C19_adjacent_wrong"
   ],
   "note": "The behaviour of the code, which composes in the wrong order: what is computed, exactly when that is right, and witnesses where it is wrong."
  },
  {
   "property": "C20",
   "status": "proved",
   "theorems": [
    "Verif.Props.Groups.C20_groupObs",
    "Verif.Props.Groups.C20_groupObjObs"
   ],
   "note": ""
  },
  {
   "property": "C21",
   "status": "proved",
   "theorems": [
    "Verif.Props.NonOverlap.C21_choice",
    "Verif.Props.NonOverlap.C21_domain"
   ],
   "note": ""
  },
  {
   "property": "C22",
   "status": "proved",
   "theorems": [
    "Verif.Props.NonOverlap.C22_recorded",
    "Verif.Props.NonOverlap.C22_total"
   ],
   "note": ""
  },
  {
   "property": "C23",
   "status": "proved",
   "theorems": [
    "Verif.Props.NonOverlap.C23_merge"
   ],
   "note": ""
  },
  {
   "property": "C24",
   "status": "proved",
   "theorems": [
    "Verif.Props.Objects.C24_initial",
    "Verif.Props.Objects.C24_merge",
    "Verif.Props.Objects.C24_exact",
    "Verif.Props.GroupPose.C24_workflow",
    "Verif.Props.GroupPose.C24_workflow_exact"
   ],
   "note": ""
  },
  {
   "property": "C25",
   "status": "proved",
   "theorems": [
    "Verif.Props.Objects.C25_duplicates"
   ],
   "note": ""
  },
  {
   "property": "C26",
   "status": "proved",
   "theorems": [
    "Verif.Props.GroupPose.C26_update",
    "Verif.Props.GroupPose.C26_reference",
    "Verif.Props.GroupPose.C26_average",
    "Verif.Props.GroupPose.C26_common"
   ],
   "note": ""
  },
  {
   "property": "C27",
   "status": "proved",
   "theorems": [
    "Verif.Props.GroupPose.C27_pose",
    "Verif.Props.GroupPose.C27_pairs"
   ],
   "note": "The stored six numbers must determine the pose (ofVec (toVec g) = g)."
  },
  {
   "property": "C28",
   "status": "proved",
   "theorems": [
    "Verif.Props.Rigid.C28_build_split",
    "Verif.Props.Rigid.C28_split_build",
    "Verif.Props.Rigid.C28_store_read",
    "Verif.Props.Rigid.C28_read_store",
    "Verif.Props.Rigid.C28_compose",
    "Verif.Props.Rigid.C28_homogeneous",
    "Verif.Props.Rigid.C28_transform_compose",
    "Verif.Props.Rigid.C28_invert",
    "Verif.Props.Rigid.C28_invert_twice",
    "Verif.Props.Rigid.C28_invert_undoes",
    "Verif.Props.Rigid.C28_isometry",
    "Verif.Props.Rigid.C28_group",
    "Verif.Props.Rigid.C28_rodrigues",
    "Verif.Props.Rigid.C28_averages"
   ],
   "note": "over any field, cv::Rodrigues with a contract that Rodrigues' formula over the reals is proved to meet"
  },
  {
   "property": "C29",
   "status": "proved",
   "theorems": [
    "Verif.Props.Ransac.C29_inlier",
    "Verif.Props.Ransac.C29_search",
    "Verif.Props.Ransac.C29_few_points",
    "Verif.Props.Ransac.C29_no_trials",
    "Verif.Props.Ransac.C29_round",
    "Verif.Props.Ransac.C29_trials_formula",
    "Verif.Props.Ransac.C29_trials_nonneg",
    "Verif.Props.Ransac.C29_trials_antitone",
    "Verif.Props.Ransac.C29_trials_int",
    "Verif.Props.Ransac.C29_trials_all",
    "Verif.Props.Ransac.C29_stop_all"
   ],
   "note": "Any solver, distance, shuffles; stopping rule over the reals. Distances are a linear order (no NaN)."
  },
  {
   "property": "C30",
   "status": "proved",
   "theorems": [
    "Verif.Props.Outliers.C30_sound",
    "Verif.Props.Outliers.C30_board",
    "Verif.Props.Outliers.C30_never_valid_again",
    "Verif.Props.Outliers.C30_all",
    "Verif.Props.Outliers.C30_same_views",
    "Verif.Props.Outliers.C30_object",
    "Verif.Props.Outliers.C30_example"
   ],
   "note": ""
  },
  {
   "property": "C31",
   "status": "proved",
   "theorems": [
    "Verif.Props.Average.C31_total",
    "Verif.Props.Average.C31_empty",
    "Verif.Props.Average.C31_order",
    "Verif.Props.Average.C31_bounds",
    "Verif.Props.Average.C31_half",
    "Verif.Props.Average.C31_value",
    "Verif.Props.Average.C31_shift",
    "Verif.Props.Average.C31_scale",
    "Verif.Props.Average.C31_neg",
    "Verif.Props.Average.C31_constant",
    "Verif.Props.Average.C31_repeat",
    "Verif.Props.Average.C31_monotone"
   ],
   "note": "Over any linearly ordered field; rounding and NaN not modelled."
  },
  {
   "property": "C32",
   "status": "proved",
   "theorems": [
    "Verif.Props.Quaternion.C32_rotation",
    "Verif.Props.Quaternion.C32_roundtrip",
    "Verif.Props.Quaternion.C32_sign",
    "Verif.Props.Quaternion.C32_back",
    "Verif.Props.Quaternion.C32_matrix",
    "Verif.Props.Quaternion.C32_order",
    "Verif.Props.Quaternion.C32_opposite",
    "Verif.Props.Quaternion.C32_mean",
    "Verif.Props.Quaternion.C32_constant",
    "Verif.Props.Quaternion.C32_average_order",
    "Verif.Props.Quaternion.C32_both",
    "Verif.Props.Quaternion.C32_svd"
   ],
   "note": "over the reals; the singular vector is a parameter with a contract proved satisfiable; the average is the chordal mean"
  },
  {
   "property": "C33",
   "status": "proved",
   "theorems": [
    "Verif.Props.HandEye.C33_value",
    "Verif.Props.HandEye.C33_blind",
    "Verif.Props.HandEye.C33_accepted_iff",
    "Verif.Props.HandEye.C33_identity",
    "Verif.Props.HandEye.C33_cyc_rejected"
   ],
   "note": "Over the reals, NaN of acos modelled; the code violates what the check is for."
  },
  {
   "property": "C34",
   "status": "proved",
   "theorems": [
    "Verif.Props.HandEye.C34_clusters",
    "Verif.Props.HandEye.C34_poses",
    "Verif.Props.HandEye.C34_few_poses",
    "Verif.Props.HandEye.C34_bootstrap",
    "Verif.Props.HandEye.C34_plain",
    "Verif.Props.HandEye.C34_rows",
    "Verif.Props.NonOverlap.C34_pairs"
   ],
   "note": "kmeans is assumed to leave no cluster empty (else the selection is undefined)."
  },
  {
   "property": "C35",
   "status": "proved",
   "theorems": [
    "Verif.Props.HandEye.C35_result",
    "Verif.Props.HandEye.C35_combined",
    "Verif.Props.HandEye.C35_fallback",
    "Verif.Props.HandEye.C35_exact",
    "Verif.Props.HandEye.C35_self",
    "Verif.Props.HandEye.C35_plain",
    "Verif.Props.HandEye.C35_equation",
    "Verif.Props.HandEye.C35_wrong",
    "Verif.Props.HandEye.C35_wrong_met",
    "Verif.Props.HandEye.C35_approach",
    "Verif.Props.HandEye.C35_approach_met"
   ],
   "note": ""
  },
  {
   "property": "C36",
   "status": "proved",
   "theorems": [
    "Verif.Props.Residual.C36_board_intrinsics",
    "Verif.Props.Residual.C36_object",
    "Verif.Props.Residual.C36_group",
    "Verif.Props.Residual.C36_group_object",
    "Verif.Props.Residual.C36_group_object_intrinsics",
    "Verif.Props.Residual.C36_agree",
    "Verif.Props.Residual.C36_reference",
    "Verif.Props.Residual.C36_zero",
    "Verif.Props.Residual.C36_models"
   ],
   "note": "Over the reals; ceres::AngleAxisRotatePoint with a contract (rotates by the matrix of the vector)."
  },
  {
   "property": "C37",
   "status": "proved",
   "theorems": [
    "Verif.Props.Camera.C37_camera_matrix",
    "Verif.Props.Camera.C37_camera_matrix_any",
    "Verif.Props.Camera.C37_distortion",
    "Verif.Props.Camera.C37_distortion_short",
    "Verif.Props.Camera.C37_matrix_keeps_distortion",
    "Verif.Props.Camera.C37_intrinsics",
    "Verif.Props.Camera.C37_unsupported"
   ],
   "note": "Over any field."
  },
  {
   "property": "C38",
   "status": "proved",
   "theorems": [
    "Verif.Props.Refine.C38_fixed",
    "Verif.Props.Refine.C38_initialised",
    "Verif.Props.Refine.C38_free",
    "Verif.Props.Refine.C38_free_changes"
   ],
   "note": "The solver is a parameter that may change only the free blocks of the problem given to it; two such solvers are constructed."
  },
  {
   "property": "C39",
   "status": "proved",
   "theorems": [
    "Verif.Props.Output.C39_first_group",
    "Verif.Props.Output.C39_no_group",
    "Verif.Props.Output.C39_found_iff",
    "Verif.Props.Output.C39_one_group",
    "Verif.Props.Output.C39_other_group",
    "Verif.Props.Output.C39_reread",
    "Verif.Props.Output.C39_reread_missing",
    "Verif.Props.Output.C39_overlapping",
    "Verif.Props.Output.C39_example",
    "Verif.Props.Output.C39_example_apart"
   ],
   "note": "The behaviour of the code: the file holds the first group only; with one group the full property holds."
  },
  {
   "property": "C40",
   "status": "proved",
   "theorems": [
    "Verif.Props.Report.C40_file",
    "Verif.Props.Report.C40_first",
    "Verif.Props.Report.C40_later",
    "Verif.Props.Report.C40_repeated_key",
    "Verif.Props.Report.C40_example"
   ],
   "note": "The behaviour of the code: the frame list accumulates; the first group's part is right."
  },
  {
   "property": "C41",
   "status": "proved",
   "theorems": [
    "Verif.Props.Report.C41_value",
    "Verif.Props.Report.C41_bounds",
    "Verif.Props.Report.C41_zero",
    "Verif.Props.Report.C41_copies",
    "Verif.Props.Report.C41_residual",
    "Verif.Props.Report.C41_unsupported",
    "Verif.Props.Report.C41_example"
   ],
   "note": "Over the reals; the projection functions are parameters."
  },
  {
   "property": "C42",
   "status": "proved",
   "theorems": [
    "Verif.Props.Boards.C42_legacy",
    "Verif.Props.Boards.C42_modern",
    "Verif.Props.Boards.C42_consecutive",
    "Verif.Props.Boards.C42_disjoint",
    "Verif.Props.Boards.C42_modern_throws",
    "Verif.Props.Boards.C42_dictionary",
    "Verif.Props.Boards.C42_example",
    "Verif.Props.Boards.C42_example_modern"
   ],
   "note": "Both branches of the OpenCV version switch; the id check of the OpenCV constructor is a parameter."
  },
  {
   "property": "C43",
   "status": "proved",
   "theorems": [
    "Verif.Props.Config.C43_grid",
    "Verif.Props.Config.C43_distinct",
    "Verif.Props.Config.C43_number",
    "Verif.Props.Config.C43_agree",
    "Verif.Props.Config.C43_ignored",
    "Verif.Props.Config.C43_out_of_range",
    "Verif.Props.Config.C43_missing",
    "Verif.Props.Config.C43_per_board",
    "Verif.Props.Config.C43_common",
    "Verif.Props.Config.C43_succeeds",
    "Verif.Props.Config.C43_example",
    "Verif.Props.Config.C43_example_mismatch",
    "Verif.Props.Config.C43_demo_usable"
   ],
   "note": "The behaviour of the code: per-board numbers of squares without per-board square sizes are ignored or read out of range."
  },
  {
   "property": "C44",
   "status": "proved",
   "theorems": [
    "Verif.Props.Config.C44_off",
    "Verif.Props.Config.C44_not_read",
    "Verif.Props.Config.C44_method"
   ],
   "note": "The behaviour of the code: the option is always off."
  },
  {
   "property": "C45",
   "status": "proved",
   "theorems": [
    "Verif.Props.InitCamera.C45_border",
    "Verif.Props.InitCamera.C45_example"
   ],
   "note": ""
  },
  {
   "property": "C46",
   "status": "proved",
   "theorems": [
    "Verif.Props.InitCamera.C46_chosen",
    "Verif.Props.InitCamera.C46_all",
    "Verif.Props.InitCamera.C46_no_view",
    "Verif.Props.InitCamera.C46_stored",
    "Verif.Props.InitCamera.C46_unsupported",
    "Verif.Props.InitCamera.C46_each",
    "Verif.Props.InitCamera.C46_example"
   ],
   "note": "The calibration functions of OpenCV are parameters."
  },
  {
   "property": "C47",
   "status": "proved",
   "theorems": [
    "Verif.Props.Saddle.C47_patch",
    "Verif.Props.Saddle.C47_answer",
    "Verif.Props.Saddle.C47_small_buffer",
    "Verif.Props.Saddle.C47_example"
   ],
   "note": "Any linearly ordered field with a floor; rounding is not modelled, infinities and NaN are."
  },
  {
   "property": "C48",
   "status": "proved",
   "theorems": [
    "Verif.Props.Saddle.C48_stationary",
    "Verif.Props.Saddle.C48_outcome",
    "Verif.Props.Saddle.C48_drift",
    "Verif.Props.Saddle.C48_stored",
    "Verif.Props.Saddle.C48_example",
    "Verif.Props.SaddleKernel.C48_refine"
   ],
   "note": "The behaviour of the code: after the first corner that cannot be refined no later corner is updated."
  },
  {
   "property": "C49",
   "status": "proved",
   "theorems": [
    "Verif.Props.SaddleKernel.C49_kernel",
    "Verif.Props.SaddleKernel.C49_normalised",
    "Verif.Props.SaddleKernel.C49_all_positive",
    "Verif.Props.SaddleKernel.C49_fitting",
    "Verif.Props.SaddleKernel.C49_zero",
    "Verif.Props.SaddleKernel.C49_negative",
    "Verif.Props.SaddleKernel.C49_positive",
    "Verif.Props.SaddleKernel.C49_example"
   ],
   "note": "The behaviour of the code for every value the uninitialised counter may hold."
  },
  {
   "property": "C50",
   "status": "proved",
   "theorems": [
    "Verif.Props.Folders.C50_folders",
    "Verif.Props.Folders.C50_no_shared_image",
    "Verif.Props.Folders.C50_filter",
    "Verif.Props.Folders.C50_frames",
    "Verif.Props.Folders.C50_frames_once",
    "Verif.Props.Folders.C50_three_digits",
    "Verif.Props.Folders.C50_board_files",
    "Verif.Props.Folders.C50_stoi",
    "Verif.Props.Folders.C50_example"
   ],
   "note": "cv::glob is a parameter with a contract."
  },
  {
   "property": "C51",
   "status": "proved",
   "theorems": [
    "Verif.Props.Refine.C51_intrinsic_scope",
    "Verif.Props.Refine.C51_object_scope",
    "Verif.Props.Refine.C51_group_scope",
    "Verif.Props.Refine.C51_group_objects_scope",
    "Verif.Props.Refine.C51_group_intrinsics_scope",
    "Verif.Props.Refine.C51_all_objects",
    "Verif.Props.Refine.C51_all_groups",
    "Verif.Props.Refine.C51_all_groups_intrinsics",
    "Verif.Props.Refine.C51_group_refinement",
    "Verif.Props.Refine.C51_object_refinement",
    "Verif.Props.Gauge.C51_overlapping",
    "Verif.Props.Gauge.C51_merged"
   ],
   "note": "Same contract for the solver as C38."
  },
  {
   "property": "C52",
   "status": "proved",
   "theorems": [
    "Verif.Props.Pipeline.C52_overlapping",
    "Verif.Props.Pipeline.C52_nonOverlapping",
    "Verif.Props.Pipeline.C52_merge",
    "Verif.Props.Pipeline.C52_two_cameras"
   ],
   "note": "Stages from the stored observations on; estimatePoseAllObjects itself is not part of it (see C29)."
  },
  {
   "property": "C53",
   "status": "proved",
   "theorems": [
    "Verif.Props.Pipeline.C53_workflow",
    "Verif.Props.Pipeline.C53_stale_outcome",
    "Verif.Props.Pipeline.C53_stale_groups",
    "Verif.Props.Pipeline.C53_two_pairs_ub",
    "Verif.Props.Pipeline.C53_unrelated_camera_merged"
   ],
   "note": ""
  },
  {
   "property": "C54",
   "status": "proved",
   "theorems": [
    "Verif.Props.NonOverlap.C54_symmetric",
    "Verif.Props.Pipeline.C54_tie_throws"
   ],
   "note": ""
  },
  {
   "property": "C55",
   "status": "proved",
   "theorems": [
    "Verif.Props.Outliers.C55_fails",
    "Verif.Props.Outliers.C55_objects",
    "Verif.Props.Outliers.C55_workflow",
    "Verif.Props.Outliers.C55_good",
    "Verif.Props.Outliers.C55_three_left",
    "Verif.Props.Outliers.C55_none_left",
    "Verif.Props.Outliers.C55_garbage_pose"
   ],
   "note": "The code violates what a user expects: such a view makes the run undefined."
  },
  {
   "property": "C56",
   "status": "proved",
   "theorems": [
    "Verif.Props.OutputObjects.C56_object",
    "Verif.Props.OutputObjects.C56_file",
    "Verif.Props.OutputObjects.C56_example"
   ],
   "note": ""
  },
  {
   "property": "C57",
   "status": "proved",
   "theorems": [
    "Verif.Props.OutputObjects.C57_poses",
    "Verif.Props.OutputObjects.C57_copies",
    "Verif.Props.OutputObjects.C57_example"
   ],
   "note": ""
  },
  {
   "property": "C58",
   "status": "proved",
   "theorems": [
    "Verif.Props.Config.C58_printed",
    "Verif.Props.Config.C58_example"
   ],
   "note": ""
  },
  {
   "property": "C59",
   "status": "proved",
   "theorems": [
    "Verif.Props.SaddleExact.C59_least_squares",
    "Verif.Props.SaddleExact.C59_reproduces",
    "Verif.Props.SaddleExact.C59_exact",
    "Verif.Props.SaddleExact.C59_smoothing",
    "Verif.Props.SaddleExact.C59_refine",
    "Verif.Props.SaddleExact.C59_example"
   ],
   "note": "Over the reals; cv::invert and cv::filter2D are parameters with contracts that are proved satisfiable."
  },
  {
   "property": "C60",
   "status": "proved",
   "theorems": [
    "Verif.Props.Schedule.C60_same_frames",
    "Verif.Props.Schedule.C60_schedule_independent"
   ],
   "note": "Numbers of board observations inside object observations are left out of the comparison; they do depend on the schedule (C07_numbering_depends_on_schedule)."
  },
  {
   "property": "C61",
   "status": "proved",
   "theorems": [
    "Verif.Props.Schedule.C61_detected_sorted",
    "Verif.Props.Schedule.C61_rerun",
    "Verif.Props.Schedule.C61_boards",
    "Verif.Props.Schedule.C61_second_run",
    "Verif.Props.Schedule.C61_three_left"
   ],
   "note": "File text modelled as a list of rows (see C08)."
  },
  {
   "property": "C62",
   "status": "proved",
   "theorems": [
    "Verif.Props.Problem.C62_intrinsic",
    "Verif.Props.Problem.C62_object",
    "Verif.Props.Problem.C62_group",
    "Verif.Props.Problem.C62_group_objects",
    "Verif.Props.Problem.C62_group_objects_intrinsics",
    "Verif.Props.Problem.C62_views",
    "Verif.Props.Problem.C62_views_mem",
    "Verif.Props.Problem.C62_count",
    "Verif.Props.Problem.C62_count_intrinsic",
    "Verif.Props.Problem.C62_all_cameras",
    "Verif.Props.Problem.C62_all_objects",
    "Verif.Props.Problem.C62_all_groups",
    "Verif.Props.Problem.C62_all_groups_intrinsics",
    "Verif.Props.Problem.C62_workflow",
    "Verif.Props.Problem.demo_readable"
   ],
   "note": "The solver is a parameter applied to the list of residual terms."
  },
  {
   "property": "C63",
   "status": "proved",
   "theorems": [
    "Verif.Props.SavedPoses.C63_estimate",
    "Verif.Props.SavedPoses.C63_file",
    "Verif.Props.SavedPoses.C63_not_refined"
   ],
   "note": "The behaviour of the code: the saved object poses are the single-camera estimates, never refined."
  },
  {
   "property": "C64",
   "status": "proved",
   "theorems": [
    "Verif.Props.Images.C64_images",
    "Verif.Props.Images.C64_distances",
    "Verif.Props.Images.C64_poses",
    "Verif.Props.Images.C64_file_names",
    "Verif.Props.Images.C64_name",
    "Verif.Props.Images.C64_files",
    "Verif.Props.Images.C64_unsupported"
   ],
   "note": "Reading and drawing of images are parameters; an image file is its source image with a list of circles."
  },
  {
   "property": "C65",
   "status": "proved",
   "theorems": [
    "Verif.Props.Images.C65_images",
    "Verif.Props.Images.C64_file_names",
    "Verif.Props.Images.C64_name",
    "Verif.Props.Images.C64_files",
    "Verif.Props.DetectionImages.C65_corners",
    "Verif.Props.DetectionImages.C65_every_corner"
   ],
   "note": "As C64. C65_corners: at the end of any calibration that ends, the circles are exactly those of the pixels left by the removal of outliers."
  },
  {
   "property": "C66",
   "status": "proved",
   "theorems": [
    "Verif.Props.ReproErr.C66_observation",
    "Verif.Props.ReproErr.C66_empty",
    "Verif.Props.ReproErr.C66_boards",
    "Verif.Props.ReproErr.C66_boards_throw",
    "Verif.Props.ReproErr.C66_init",
    "Verif.Props.ReproErr.C66_objects",
    "Verif.Props.ReproErr.C66_group",
    "Verif.Props.ReproErr.C66_example"
   ],
   "note": "Over any field; the projection functions are parameters; that cv::projectPoints throws on an empty list is a hypothesis. The code violates what a user expects: a view without inliers aborts the run."
  },
  {
   "property": "C67",
   "status": "proved",
   "theorems": [
    "Verif.Props.Start.C67_available",
    "Verif.Props.Start.C67_main",
    "Verif.Props.Start.C67_keypoints",
    "Verif.Props.Start.C67_missing_parameters",
    "Verif.Props.Start.C67_own_intrinsics",
    "Verif.Props.Start.C67_parameters",
    "Verif.Props.Start.C67_sizes",
    "Verif.Props.Start.C67_detected",
    "Verif.Props.Start.C67_example"
   ],
   "note": "The behaviour of the code: a missing camera parameter file is not an error and leads to a read of uninitialised intrinsics. The file system and the detector are parameters."
  },
  {
   "property": "C68",
   "status": "proved",
   "theorems": [
    "Verif.Props.Triangulate.C68_exact",
    "Verif.Props.Triangulate.C68_svd_exists",
    "Verif.Props.Triangulate.C68_few",
    "Verif.Props.Triangulate.C68_search",
    "Verif.Props.Triangulate.C68_few_views",
    "Verif.Props.Triangulate.C68_robust_exact",
    "Verif.Props.Triangulate.C68_example"
   ],
   "note": "Over the reals for the exactness; SVDecomp is a parameter whose contract is proved satisfiable; shuffles and stopping rule arbitrary."
  },
  {
   "property": "C69",
   "status": "proved",
   "theorems": [
    "Verif.Props.Race.C69_tables",
    "Verif.Props.Race.C69_params",
    "Verif.Props.Race.C69_only",
    "Verif.Props.Race.C69_only_tasks"
   ],
   "note": "The tables are free of races in every execution; the detector parameters are not, which is the behaviour of the code. Happens-before as in C++17, from program order and mutexes."
  },
  {
   "property": "C70",
   "status": "proved",
   "theorems": [
    "Verif.Props.Exact.C70_overlapping",
    "Verif.Props.Exact.C70_pairs",
    "Verif.Props.Exact.C70_workflow",
    "Verif.Props.Exact.C70_two_groups",
    "Verif.Props.Exact.C70_corners",
    "Verif.Props.Exact.Example.hypotheses"
   ],
   "note": "The numerical parts are parameters; that they are exact on exact data is a hypothesis, shown satisfiable in a non-commutative example with three cameras, one of which shares no view with the others."
  },
  {
   "property": "C71",
   "status": "proved",
   "theorems": [
    "Verif.Props.Lifetime.C71_workflow",
    "Verif.Props.Lifetime.C71_any_order",
    "Verif.Props.Lifetime.C71_reads",
    "Verif.Props.Lifetime.C71_same",
    "Verif.Props.Lifetime.C71_objects_first",
    "Verif.Props.Lifetime.C71_groups_first",
    "Verif.Props.Lifetime.Example.run"
   ],
   "note": "Addresses are never reused in the model; what the numerical parts find is arbitrary."
  },
  {
   "property": "C72",
   "status": "proved",
   "theorems": [
    "Verif.Props.ScriptsStat.C72_bars",
    "Verif.Props.ScriptsStat.C72_once",
    "Verif.Props.ScriptsStat.C72_average",
    "Verif.Props.ScriptsStat.C72_groups",
    "Verif.Props.ScriptsStat.C72_limits",
    "Verif.Props.ScriptsStat.C72_example",
    "Verif.Props.ScriptsStat.C72_repeated"
   ],
   "note": "numpy computes with exact reals."
  },
  {
   "property": "C73",
   "status": "proved",
   "theorems": [
    "Verif.Props.ScriptsTruth.C73_angle",
    "Verif.Props.ScriptsTruth.C73_rotation",
    "Verif.Props.ScriptsTruth.C73_zero",
    "Verif.Props.ScriptsTruth.C73_symmetric",
    "Verif.Props.ScriptsTruth.C73_fallback",
    "Verif.Props.ScriptsTruth.C73_exact",
    "Verif.Props.ScriptsTruth.C73_values",
    "Verif.Props.ScriptsTruth.C73_missing",
    "Verif.Props.ScriptsTruth.C73_example"
   ],
   "note": "numpy computes with exact reals."
  },
  {
   "property": "C74",
   "status": "proved",
   "theorems": [
    "Verif.Props.ScriptsDraw.C74_drawn",
    "Verif.Props.ScriptsDraw.C74_unseen",
    "Verif.Props.ScriptsDraw.fixes_three",
    "Verif.Props.ScriptsDraw.C74_place",
    "Verif.Props.ScriptsDraw.C74_wrong",
    "Verif.Props.ScriptsDraw.C74_example"
   ],
   "note": "What is drawn, not how it looks."
  },
  {
   "property": "C75",
   "status": "proved",
   "theorems": [
    "Verif.Props.ScriptsDraw.C75_boards",
    "Verif.Props.ScriptsDraw.C75_camera",
    "Verif.Props.ScriptsDraw.C75_cameras",
    "Verif.Props.ScriptsDraw.C75_none",
    "Verif.Props.ScriptsDraw.C75_axes"
   ],
   "note": "What is drawn, not how it looks."
  },
  {
   "property": "C76",
   "status": "proved",
   "theorems": [
    "Verif.Props.Finish.C76_tables",
    "Verif.Props.Finish.C76_holds",
    "Verif.Props.Finish.C76_reports",
    "Verif.Props.Finish.C76_two_cameras"
   ],
   "note": "The numerical results are arbitrary. The detector, the projection and the file system are parameters."
  },
  {
   "property": "C77",
   "status": "proved",
   "theorems": [
    "Verif.Props.Finish.C77_corners"
   ],
   "note": ""
  },
  {
   "property": "C78",
   "status": "proved",
   "theorems": [
    "Verif.Props.Finish.C78_one_group",
    "Verif.Props.Finish.C78_file"
   ],
   "note": "The file written is that of group 0, which here is the only one."
  },
  {
   "property": "C79",
   "status": "proved",
   "theorems": [
    "Verif.Props.Trust.C79_boards",
    "Verif.Props.Trust.C79_cameras",
    "Verif.Props.Trust.C79_average",
    "Verif.Props.TrustObjects.C79_objects"
   ],
   "note": "For an average that does not depend on the order, which C79_average proves for the code's."
  },
  {
   "property": "C80",
   "status": "proved",
   "theorems": [
    "Verif.Props.Trust.C80_path",
    "Verif.Props.Trust.C80_boards",
    "Verif.Props.Trust.C80_cameras",
    "Verif.Props.Trust.C80_exact",
    "Verif.Props.TrustObjects.C80_objects"
   ],
   "note": "Sightings at the truncated weights the code uses."
  },
  {
   "property": "C81",
   "status": "proved",
   "theorems": [
    "Verif.Props.ExactReport.C81_reports",
    "Verif.Props.ExactReport.truthful",
    "Verif.Props.ExactReport.Example.hypotheses",
    "Verif.Props.ExactReport.Example.end0",
    "Verif.Props.ExactReport.Example.end1",
    "Verif.Props.ExactReport.Example.seen"
   ],
   "note": "Numerical parts are parameters, exact on exact data by hypothesis; the example has three cameras with poses that do not commute, one of which shares no view with the others. The reports are those of Model/Finish."
  },
  {
   "property": "C82",
   "status": "proved",
   "theorems": [
    "Verif.Props.Disk.C82_written",
    "Verif.Props.Disk.C82_run",
    "Verif.Props.Disk.C82_again",
    "Verif.Props.Disk.C82_run_again",
    "Verif.Props.Disk.C82_overwritten",
    "Verif.Props.Disk.C82_idempotent",
    "Verif.Props.Disk.C82_lost",
    "Verif.Props.Disk.C82_analysis",
    "Verif.Props.Disk.C82_analysis_renamed",
    "Verif.Props.Disk.Example.sound",
    "Verif.Props.Disk.Example.clear",
    "Verif.Props.Crash.C82_exact"
   ],
   "note": "`.`, `..`, links, permissions and full disks are not modelled; `cv::FileStorage` and `cv::imwrite` write nothing when the directory is absent."
  },
  {
   "property": "C83",
   "status": "proved",
   "theorems": [
    "Verif.Props.Program.C83_thin",
    "Verif.Props.Program.C83_run",
    "Verif.Props.Program.C83_ends",
    "Verif.Props.Program.C83_calibration",
    "Verif.Props.Program.Example.C83_good",
    "Verif.Props.Program.Example.C83_three",
    "Verif.Props.Program.Example.C83_six",
    "Verif.Props.Program.Example.C83_nothing"
   ],
   "note": "The searches are any that keep a sub-list and fail on fewer than four points (C29, C30); averages and refinements are given."
  },
  {
   "property": "C84",
   "status": "proved",
   "theorems": [
    "Verif.Props.Pixels.C84_search",
    "Verif.Props.Pixels.C84_searches",
    "Verif.Props.Pixels.C84_calibration",
    "Verif.Props.Pixels.C84_reports",
    "Verif.Props.Pixels.C84_single",
    "Verif.Props.Pixels.C84_files"
   ],
   "note": "Exactness of solvePnP, of averages, of refinements and of hand-eye calibration on exact data is assumed, and holds in the example (Props/PixelExample). Groups without common views under the conditions of C70."
  },
  {
   "property": "C85",
   "status": "proved",
   "theorems": [
    "Verif.Props.Whole.C85_directory",
    "Verif.Props.Whole.C85_from_keypoints",
    "Verif.Props.Whole.C85_rerun",
    "Verif.Props.Whole.SameObs.connected",
    "Verif.Props.Whole.Example.exactParts",
    "Verif.Props.Whole.Example.ready",
    "Verif.Props.Whole.Example.tasks",
    "Verif.Props.Whole.Example.connected"
   ],
   "note": "The file system is read before the output directory is made, and written after everything has been computed; exactness of the numerical parts as in C84."
  },
  {
   "property": "C86",
   "status": "proved",
   "theorems": [
    "Verif.Props.WholeSame.C86_written",
    "Verif.Props.WholeSame.C86_schedules",
    "Verif.Props.WholeSame.C86_reload",
    "Verif.Props.WholeSame.Example.dataOnly",
    "Verif.Props.WholeSame.Example.orderFree",
    "Verif.Props.WholeSame.Example.settled"
   ],
   "note": "Randomness of the searches is not modelled: the searches are functions of camera and points (`DataOnly`); that the refinement does not depend on the order of its residuals (`OrderFree`) is an assumption, exact arithmetic makes it plausible and floating point does not."
  },
  {
   "property": "C87",
   "status": "proved",
   "theorems": [
    "Verif.Props.Crash.C87_steps",
    "Verif.Props.Crash.C87_crash",
    "Verif.Props.Crash.C87_ready",
    "Verif.Props.Crash.C87_recover",
    "Verif.Props.Crash.C87_rerun",
    "Verif.Props.Crash.C87_rerun_schedules",
    "Verif.Props.Crash.C87_own_keypoints",
    "Verif.Props.Crash.Example.ready",
    "Verif.Props.Crash.Example.shapes",
    "Verif.Props.Crash.WholeExample.runs"
   ],
   "note": "Directories are made atomically and in order, files are damaged only while they are written (no reordering by a disk cache; C87_recover allows it: any set of damaged or absent results)."
  },
  {
   "property": "C88",
   "status": "proved",
   "theorems": [
    "Verif.Props.Print.C88_refused",
    "Verif.Props.Print.C88_printed",
    "Verif.Props.Print.C88_ends",
    "Verif.Props.Print.C88_blocked",
    "Verif.Props.Print.C88_looked_for",
    "Verif.Props.Print.C88_again",
    "Verif.Props.Print.Example.C88_demo",
    "Verif.Props.Print.Example.C88_demo_refused",
    "Verif.Props.Print.Example.hypotheses"
   ],
   "note": "Drawing and reading of files are parameters; permissions and full disks are not modelled."
  },
  {
   "property": "C89",
   "status": "proved",
   "theorems": [
    "Verif.Props.Agree.C89_agree",
    "Verif.Props.Agree.C89_detected",
    "Verif.Props.Agree.C89_images",
    "Verif.Props.Agree.Example.parts"
   ],
   "note": "Of the parts that are not modelled: searches succeed on four points or more and keep a sub-list, the refinement keeps the detections, points are projected one by one."
  },
  {
   "property": "C90",
   "status": "proved",
   "theorems": [
    "Verif.Props.Order.C90_complete",
    "Verif.Props.Order.C90_left",
    "Verif.Props.Order.C90_early",
    "Verif.Props.Order.C90_last",
    "Verif.Props.Order.C90_ready",
    "Verif.Props.Order.C90_outcome",
    "Verif.Props.Order.C90_fails_again",
    "Verif.Props.Order.C90_rerun",
    "Verif.Props.Order.C90_exit",
    "Verif.Props.Order.C90_exit_zero"
   ],
   "note": "The program in the order of the code, with the files as state that a failure keeps: the output directory is made first, images are written one by one, a result file is opened before its contents are computed. C90_complete: a run succeeds just when the run of C85 to C87 does, with the same files. Undefined behaviour is taken to leave the files alone; the keypoint path must not be that of the output directory."
  },
  {
   "property": "C91",
   "status": "proved",
   "theorems": [
    "Verif.Props.Poses.C91_reads",
    "Verif.Props.Poses.C91_answers",
    "Verif.Props.Poses.C91_entries",
    "Verif.Props.Poses.C91_matrix",
    "Verif.Props.Poses.C91_never_set",
    "Verif.Props.Poses.C91_observation",
    "Verif.Props.Poses.C91_observation_reads",
    "Verif.Props.Poses.C91_hand_over",
    "Verif.Props.Poses.C91_floats",
    "Verif.Props.Poses.C91_floats_short"
   ],
   "note": "Every accessor of the five classes, as calls on a map that creates missing entries or on a field without initialiser. cv::Rodrigues is a parameter (C28), and Rodrigues' formula over the reals for the identity of an unset pose; double arithmetic is exact, the conversion to float is any function."
  },
  {
   "property": "C92",
   "status": "proved",
   "theorems": [
    "Verif.Props.FromConfig.C92_runs",
    "Verif.Props.FromConfig.C92_rejected",
    "Verif.Props.FromConfig.C92_where",
    "Verif.Props.FromConfig.C92_keys",
    "Verif.Props.FromConfig.C92_ignored",
    "Verif.Props.FromConfig.C92_missing",
    "Verif.Props.FromConfig.C92_images",
    "Verif.Props.FromConfig.C92_flags",
    "Verif.Props.FromConfig.C92_from_keypoints",
    "Verif.Props.FromConfig.C92_same_results",
    "Verif.Props.FromConfig.C92_params",
    "Verif.Props.FromConfig.C92_boards",
    "Verif.Props.FromConfig.C92_values",
    "Verif.Props.FromConfig.C92_exit"
   ],
   "note": "Full. Assertions of the constructor are taken as enabled (for positive numbers of cameras and boards no difference); float values of the file are exact. The numerical parts are parameters that see exactly the values they are given in the code. Example: the scene of C85 set up from a configuration (Props/FromConfigExample)."
  },
  {
   "property": "C93",
   "status": "proved",
   "theorems": [
    "Verif.Props.Rigs.C93_files",
    "Verif.Props.Rigs.C93_runs"
   ],
   "note": "Any number of rigs around the first. Assumed of the numerical parts: pose searches exact on exact data (C84_searches shows what of the library that needs), refinements end at the true poses, hand-eye calibration is exact for six or more pairs. As in C70 the poses commute, or each rig has at most two cameras or two common views with its first camera (averages of equal chains). Example: cameras 0 and 2 with board 1 in nine frames, camera 1 with boards 0 and 2 in the first six, camera 3 with board 3 in the last six (Props/RigsExample)."
  },
  {
   "property": "C94",
   "status": "proved",
   "theorems": [
    "Verif.Props.Majority.C94_median",
    "Verif.Props.Majority.C94_average",
    "Verif.Props.Majority.C94_exact",
    "Verif.Props.Majority.C94_half",
    "Verif.Props.Majority.C94_mean",
    "Verif.Props.Majority.C94_boards",
    "Verif.Props.Majority.C94_cameras",
    "Verif.Props.TrustObjects.C94_objects",
    "Verif.Props.HalfTurn.C94_half_turn"
   ],
   "note": "Cameras: for those placed directly from the reference camera (C80); longer chains are composed in the wrong order (C19). C94_half_turn uses Rodrigues' formula with rotation vectors up to a half turn, as cv::Rodrigues returns them."
  },
  {
   "property": "C95",
   "status": "proved",
   "theorems": [
    "Verif.Props.Noise.C95_rotation",
    "Verif.Props.Noise.C95_average",
    "Verif.Props.Noise.C95_boards",
    "Verif.Props.Noise.C95_cameras",
    "Verif.Props.NoiseObjects.C95_objects",
    "Verif.Props.NoiseHandEye.C95_quaternions",
    "Verif.Props.NoiseHandEye.C95_handeye"
   ],
   "note": "Poses are rigid 4x4 matrices over the reals; cv::Rodrigues is Rodrigues' formula; rounding is not modelled."
  },
  {
   "property": "C96",
   "status": "proved",
   "theorems": [
    "Verif.Props.Units.C96_run",
    "Verif.Props.Units.C96_reports",
    "Verif.Props.Units.C96_search",
    "Verif.Props.Units.C96_numerics",
    "Verif.Props.Units.C96_length",
    "Verif.Props.Units.C96_pixel",
    "Verif.Props.Units.C96_boards",
    "Verif.Props.Units.C96_detection",
    "Verif.Props.Units.C96_problems",
    "Verif.Props.Units.C96_refine",
    "Verif.Props.Units.C96_minimum",
    "Verif.Props.Units.C96_solvers",
    "Verif.Props.Units.C96_libraries"
   ],
   "note": "Over the reals. The library functions (P3P, solvePnP, fitLine, k-means, hand-eye solvers, Ceres) are assumed to give the same in other units (`SameLib`, `ScaleFree`, `ScaleFreeFit`, `SameSolver`); the one constant of the code with a unit of length is the stopping accuracy 0.01 given to cv::kmeans (geometrytools.cpp:433-436), inside this assumption."
  },
  {
   "property": "C97",
   "status": "proved",
   "theorems": [
    "Verif.Props.Reorder.C97_images",
    "Verif.Props.Reorder.C97_objects",
    "Verif.Props.Reorder.C97_calibrateObjects",
    "Verif.Props.Reorder.C97_groups",
    "Verif.Props.ReorderRun.C97_overlapping",
    "Verif.Props.ReorderRun.C97_workflow",
    "Verif.Props.ReorderRun.C97_saved",
    "Verif.Props.ReorderErrors.C97_errors",
    "Verif.Props.ReorderRun.C97_averages"
   ],
   "note": "The poses are estimated from each observation alone and the refined poses (Ceres) are parameters, equal in both runs; for the whole workflow the hand-eye calibration is taken not to depend on the order of its pairs of poses (the bootstrapped one draws pairs at random in the order of the images, so it does)."
  },
  {
   "property": "C98",
   "status": "proved",
   "theorems": [
    "Verif.Props.Pool.C98_no_deadlock",
    "Verif.Props.Pool.C98_terminates",
    "Verif.Props.Pool.C98_no_endless",
    "Verif.Props.Pool.C98_exclusive",
    "Verif.Props.Pool.C98_complete",
    "Verif.Props.Pool.C98_one_worker",
    "Verif.Props.Pool.C98_every_order",
    "Verif.Props.Pool.C98_schedules",
    "Verif.Props.Pool.C98_possible",
    "Verif.Props.Pool.C98_files",
    "Verif.Props.Pool.C98_no_worker",
    "Verif.Props.Pool.C98_example"
   ],
   "note": "The queue of boost::asio::thread_pool is modelled as a list with atomic operations. The theorems also justify the set of schedules over which C07, C60, C85, C86, C93 quantify. C98_no_worker: the hypothesis of at least one thread is needed (std::thread::hardware_concurrency may return 0)."
  },
  {
   "property": "C99",
   "status": "proved",
   "theorems": [
    "Verif.Props.ScriptsExact.C99_bars",
    "Verif.Props.ScriptsExact.C99_truth",
    "Verif.Props.ScriptsExact.C99_rig_bars",
    "Verif.Props.ScriptsExact.C99_rig_truth"
   ],
   "note": "Props/RealExample has a scene of pinhole cameras and rigid motions of space that meets all hypotheses (also those of C84, C85): four corners of a square parallel to the image determine its pose (Lemmas/Pinhole)."
  }
 ]
}