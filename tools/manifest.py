#!/usr/bin/env python3
"""Writes MANIFEST.json. Theorem names are relative to namespace Verif.Props."""
import json, os
C = []
def c(p, status, ths, note): C.append(dict(property=p, status=status, theorems=["Verif.Props."+t for t in ths], note=note))
c("C01","proved",["Graph.C01_vertices","Graph.C01_vertices_one","Graph.C01_addVertex_idempotent","Graph.C01_addEdge_present","Graph.C01_fresh_self_edge_fails","Graph.C01_fresh_self_edge_component"],
  "All histories; the one exception (an id first mentioned by addEdge(v,v) names two vertices) is part of the statement.")
c("C02","proved",["Graph.C02_components","Graph.C02_empty"],"Histories without a fresh self-edge.")
c("C03","proved",["Graph.C03_C04_path","Graph.C03_negative_edge"],"Every tie-break of the queue; weights with non-negative integer part, otherwise the call throws.")
c("C04","proved",["Graph.C03_C04_path","Graph.C04_real_weights_fail"],"Minimality for integer parts, and a witness that real weights are not minimised.")
c("C05","proved",["Graph.C05_unknown","Graph.C05_unlinked_diverges","Graph.C05_loop_never_ends"],"")
c("C06","proved",["Store.C06_indexes","Store.C06_found_once","Store.C06_nothing_else","Store.C06_unknown_index_ub","Store.C06_run_ok_iff"],"")
c("C07","proved",["Detection.C07_schedule_independent","Detection.C07_sequential_is_schedule","Detection.C07_numbering_depends_on_schedule"],"The file is modelled as the sequence of its nodes, not as bytes.")
c("C08","proved",["Detection.C08_roundtrip","Detection.C08_camera_without_detections_aborts","Detection.C08_unset_size_ub","Detection.C08_missing_camera"],"")
c("C09","proved",["Detection.C09_acceptance","Detection.C09_minimum","Detection.C09_collinear_rejected","Detection.C09_bad_id_ub","Detection.C09_image","Detection.C09_unreadable"],"Distances are exact rationals.")
c("C10","proved",["Store.C10_camera_frames","Store.C10_board_frames","Store.C10_observed_frame_not_listed"],"")
c("C11","proved",["Objects.C11_partition","Objects.C11_member"],"")
c("C12","proved",["Objects.C12_reference"],"")
c("C13","proved",["Objects.C13_exact"],"Poses in an arbitrary group; the average is required to return the common value of equal measurements.")
c("C14","proved",["Objects.C14_numbering","Objects.C24_merge","Objects.C15_update"],"After initialisation, merging and refinement.")
c("C15","proved",["Objects.C15_initial","Objects.C15_update","Objects.C24_merge"],"Float rounding of the stored points is not modelled.")
c("C16","proved",["Objects.C16_observations","Objects.C16_iff","Objects.C16_bad_corner"],"")
c("C17","proved",["Objects.C17_boards","Groups.C17_cameras","GroupPose.C17_objects"],"Boards, cameras and objects; for camera groups see C54.")
c("C18","proved",["Groups.C18_partition","Groups.C18_member","Groups.C18_reference"],"")
c("C19","proved",["Groups.C19_formula","Groups.C19_true_iff","Groups.C19_direct","Groups.C19_two_cameras","Groups.C19_commuting","Groups.C19_two_edges_iff","Groups.C19_chain_wrong","Groups.C19_adjacent_wrong"],
  "The behaviour of the code, which composes in the wrong order: what is computed, exactly when that is right, and witnesses where it is wrong.")
c("C20","proved",["Groups.C20_groupObs","Groups.C20_groupObjObs"],"")
c("C24","proved",["Objects.C24_initial","Objects.C24_merge","Objects.C24_exact","GroupPose.C24_workflow","GroupPose.C24_workflow_exact"],"")
c("C26","proved",["GroupPose.C26_update","GroupPose.C26_reference","GroupPose.C26_average","GroupPose.C26_common"],"")
c("C27","proved",["GroupPose.C27_pose","GroupPose.C27_pairs"],"The stored six numbers must determine the pose (ofVec (toVec g) = g).")
c("C31","proved",["Average.C31_total","Average.C31_empty","Average.C31_order","Average.C31_bounds","Average.C31_half","Average.C31_value","Average.C31_shift","Average.C31_scale","Average.C31_neg","Average.C31_constant","Average.C31_repeat","Average.C31_monotone"],"Over any linearly ordered field; rounding and NaN not modelled.")
c("C25","proved",["Objects.C25_duplicates"],"")
c("C21","proved",["NonOverlap.C21_choice","NonOverlap.C21_domain"],"")
c("C22","proved",["NonOverlap.C22_recorded","NonOverlap.C22_total"],"")
c("C23","proved",["NonOverlap.C23_merge"],"")
c("C52","proved",["Pipeline.C52_overlapping","Pipeline.C52_nonOverlapping","Pipeline.C52_merge","Pipeline.C52_two_cameras"],"Stages from the stored observations on; estimatePoseAllObjects itself is not part of it (see C29).")
c("C53","proved",["Pipeline.C53_workflow","Pipeline.C53_stale_outcome","Pipeline.C53_stale_groups","Pipeline.C53_two_pairs_ub","Pipeline.C53_unrelated_camera_merged"],"")
c("C54","proved",["NonOverlap.C54_symmetric","Pipeline.C54_tie_throws"],"")
c("C28","proved",["Rigid.C28_build_split","Rigid.C28_split_build","Rigid.C28_store_read","Rigid.C28_read_store","Rigid.C28_compose","Rigid.C28_homogeneous","Rigid.C28_transform_compose","Rigid.C28_invert","Rigid.C28_invert_twice","Rigid.C28_invert_undoes","Rigid.C28_isometry","Rigid.C28_group","Rigid.C28_rodrigues","Rigid.C28_averages"],"over any field, cv::Rodrigues with a contract that Rodrigues' formula over the reals is proved to meet")
c("C32","proved",["Quaternion.C32_rotation","Quaternion.C32_roundtrip","Quaternion.C32_sign","Quaternion.C32_back","Quaternion.C32_matrix","Quaternion.C32_order","Quaternion.C32_opposite","Quaternion.C32_mean","Quaternion.C32_constant","Quaternion.C32_average_order","Quaternion.C32_both","Quaternion.C32_svd"],"over the reals; the singular vector is a parameter with a contract proved satisfiable; the average is the chordal mean")
c("C29","proved",["Ransac.C29_inlier","Ransac.C29_search","Ransac.C29_few_points","Ransac.C29_no_trials","Ransac.C29_round","Ransac.C29_trials_formula","Ransac.C29_trials_nonneg","Ransac.C29_trials_antitone","Ransac.C29_trials_int","Ransac.C29_trials_all","Ransac.C29_stop_all"],"Any solver, distance, shuffles; stopping rule over the reals. Distances are a linear order (no NaN).")
c("C30","proved",["Outliers.C30_sound","Outliers.C30_board","Outliers.C30_never_valid_again","Outliers.C30_all","Outliers.C30_same_views","Outliers.C30_object","Outliers.C30_example"],"")
c("C55","proved",["Outliers.C55_fails","Outliers.C55_objects","Outliers.C55_workflow","Outliers.C55_good","Outliers.C55_three_left","Outliers.C55_none_left","Outliers.C55_garbage_pose"],"The code violates what a user expects: such a view makes the run undefined.")
c("C33","proved",["HandEye.C33_value","HandEye.C33_blind","HandEye.C33_accepted_iff","HandEye.C33_identity","HandEye.C33_cyc_rejected"],"Over the reals, NaN of acos modelled; the code violates what the check is for.")
c("C34","proved",["HandEye.C34_clusters","HandEye.C34_poses","HandEye.C34_few_poses","HandEye.C34_bootstrap","HandEye.C34_plain","HandEye.C34_rows","NonOverlap.C34_pairs"],"kmeans is assumed to leave no cluster empty (else the selection is undefined).")
c("C35","proved",["HandEye.C35_result","HandEye.C35_combined","HandEye.C35_fallback","HandEye.C35_exact","HandEye.C35_self","HandEye.C35_plain","HandEye.C35_equation","HandEye.C35_wrong","HandEye.C35_wrong_met","HandEye.C35_approach","HandEye.C35_approach_met"],"")
c("C36","proved",["Residual."+x for x in "C36_board_intrinsics C36_object C36_group C36_group_object C36_group_object_intrinsics C36_agree C36_reference C36_zero C36_models".split()],"Over the reals; ceres::AngleAxisRotatePoint with a contract (rotates by the matrix of the vector).")
c("C37","proved",["Camera."+x for x in "C37_camera_matrix C37_camera_matrix_any C37_distortion C37_distortion_short C37_matrix_keeps_distortion C37_intrinsics C37_unsupported".split()],"Over any field.")
c("C38","proved",["Refine."+x for x in "C38_fixed C38_initialised C38_free C38_free_changes".split()],"The solver is a parameter that may change only the free blocks of the problem given to it; two such solvers are constructed.")
c("C51","proved",["Refine."+x for x in "C51_intrinsic_scope C51_object_scope C51_group_scope C51_group_objects_scope C51_group_intrinsics_scope C51_all_objects C51_all_groups C51_all_groups_intrinsics C51_group_refinement C51_object_refinement".split()]+["Gauge.C51_overlapping","Gauge.C51_merged"],"Same contract for the solver as C38.")
c("C39","proved",["Output."+x for x in "C39_first_group C39_no_group C39_found_iff C39_one_group C39_other_group C39_reread C39_reread_missing C39_overlapping C39_example C39_example_apart".split()],"The behaviour of the code: the file holds the first group only; with one group the full property holds.")
c("C40","proved",["Report."+x for x in "C40_file C40_first C40_later C40_repeated_key C40_example".split()],"The behaviour of the code: the frame list accumulates; the first group's part is right.")
c("C41","proved",["Report."+x for x in "C41_value C41_bounds C41_zero C41_copies C41_residual C41_unsupported C41_example".split()],"Over the reals; the projection functions are parameters.")
c("C56","proved",["OutputObjects."+x for x in "C56_object C56_file C56_example".split()],"")
c("C57","proved",["OutputObjects."+x for x in "C57_poses C57_copies C57_example".split()],"")
c("C42","proved",["Boards."+x for x in "C42_legacy C42_modern C42_consecutive C42_disjoint C42_modern_throws C42_dictionary C42_example C42_example_modern".split()],"Both branches of the OpenCV version switch; the id check of the OpenCV constructor is a parameter.")
c("C43","proved",["Config."+x for x in "C43_grid C43_distinct C43_number C43_agree C43_ignored C43_out_of_range C43_missing C43_per_board C43_common C43_succeeds C43_example C43_example_mismatch C43_demo_usable".split()],"The behaviour of the code: per-board numbers of squares without per-board square sizes are ignored or read out of range.")
c("C44","proved",["Config."+x for x in "C44_off C44_not_read C44_method".split()],"The behaviour of the code: the option is always off.")
c("C58","proved",["Config."+x for x in "C58_printed C58_example".split()],"")
c("C50","proved",["Folders."+x for x in "C50_folders C50_no_shared_image C50_filter C50_frames C50_frames_once C50_three_digits C50_board_files C50_stoi C50_example".split()],"cv::glob is a parameter with a contract.")
c("C45","proved",["InitCamera."+x for x in "C45_border C45_example".split()],"")
c("C46","proved",["InitCamera."+x for x in "C46_chosen C46_all C46_no_view C46_stored C46_unsupported C46_each C46_example".split()],"The calibration functions of OpenCV are parameters.")
c("C47","proved",["Saddle."+x for x in "C47_patch C47_answer C47_small_buffer C47_example".split()],"Any linearly ordered field with a floor; rounding is not modelled, infinities and NaN are.")
c("C48","proved",["Saddle."+x for x in "C48_stationary C48_outcome C48_drift C48_stored C48_example".split()]+["SaddleKernel.C48_refine"],"The behaviour of the code: after the first corner that cannot be refined no later corner is updated.")
c("C49","proved",["SaddleKernel."+x for x in "C49_kernel C49_normalised C49_all_positive C49_fitting C49_zero C49_negative C49_positive C49_example".split()],"The behaviour of the code for every value the uninitialised counter may hold.")
c("C59","proved",["SaddleExact."+x for x in "C59_least_squares C59_reproduces C59_exact C59_smoothing C59_refine C59_example".split()],"Over the reals; cv::invert and cv::filter2D are parameters with contracts that are proved satisfiable.")
c("C60","proved",["Schedule."+x for x in "C60_same_frames C60_schedule_independent".split()],"Numbers of board observations inside object observations are left out of the comparison; they do depend on the schedule (C07_numbering_depends_on_schedule).")
c("C61","proved",["Schedule."+x for x in "C61_detected_sorted C61_rerun C61_boards C61_second_run C61_three_left".split()],"File text modelled as a list of rows (see C08).")
c("C62","proved",["Problem."+x for x in "C62_intrinsic C62_object C62_group C62_group_objects C62_group_objects_intrinsics C62_views C62_views_mem C62_count C62_count_intrinsic C62_all_cameras C62_all_objects C62_all_groups C62_all_groups_intrinsics C62_workflow demo_readable".split()],"The solver is a parameter applied to the list of residual terms.")
c("C63","proved",["SavedPoses."+x for x in "C63_estimate C63_file C63_not_refined".split()],"The behaviour of the code: the saved object poses are the single-camera estimates, never refined.")
c("C64","proved",["Images."+x for x in "C64_images C64_distances C64_poses C64_file_names C64_name C64_files C64_unsupported".split()],"Reading and drawing of images are parameters; an image file is its source image with a list of circles.")
c("C65","proved",["Images."+x for x in "C65_images C64_file_names C64_name C64_files".split()]+["DetectionImages.C65_corners","DetectionImages.C65_every_corner"],"As C64. C65_corners: at the end of any calibration that ends, the circles are exactly those of the pixels left by the removal of outliers.")
c("C66","proved",["ReproErr."+x for x in "C66_observation C66_empty C66_boards C66_boards_throw C66_init C66_objects C66_group C66_example".split()],"Over any field; the projection functions are parameters; that cv::projectPoints throws on an empty list is a hypothesis. The code violates what a user expects: a view without inliers aborts the run.")
c("C67","proved",["Start."+x for x in "C67_available C67_main C67_keypoints C67_missing_parameters C67_own_intrinsics C67_parameters C67_sizes C67_detected C67_example".split()],"The behaviour of the code: a missing camera parameter file is not an error and leads to a read of uninitialised intrinsics. The file system and the detector are parameters.")
c("C69","proved",["Race."+x for x in "C69_tables C69_params C69_only C69_only_tasks".split()],"The tables are free of races in every execution; the detector parameters are not, which is the behaviour of the code. Happens-before as in C++17, from program order and mutexes.")
c("C68","proved",["Triangulate."+x for x in "C68_exact C68_svd_exists C68_few C68_search C68_few_views C68_robust_exact C68_example".split()],"Over the reals for the exactness; SVDecomp is a parameter whose contract is proved satisfiable; shuffles and stopping rule arbitrary.")
c("C70","proved",["Exact."+x for x in "C70_overlapping C70_pairs C70_workflow C70_two_groups C70_corners Example.hypotheses".split()],"The numerical parts are parameters; that they are exact on exact data is a hypothesis, shown satisfiable in a non-commutative example with three cameras, one of which shares no view with the others.")
c("C71","proved",["Lifetime."+x for x in "C71_workflow C71_any_order C71_reads C71_same C71_objects_first C71_groups_first Example.run".split()],"Addresses are never reused in the model; what the numerical parts find is arbitrary.")
c("C72","proved",["ScriptsStat."+x for x in "C72_bars C72_once C72_average C72_groups C72_limits C72_example C72_repeated".split()],"numpy computes with exact reals.")
c("C73","proved",["ScriptsTruth."+x for x in "C73_angle C73_rotation C73_zero C73_symmetric C73_fallback C73_exact C73_values C73_missing C73_example".split()],"numpy computes with exact reals.")
c("C74","proved",["ScriptsDraw."+x for x in "C74_drawn C74_unseen fixes_three C74_place C74_wrong C74_example".split()],"What is drawn, not how it looks.")
c("C75","proved",["ScriptsDraw."+x for x in "C75_boards C75_camera C75_cameras C75_none C75_axes".split()],"What is drawn, not how it looks.")
c("C76","proved",["Finish."+x for x in "C76_tables C76_holds C76_reports C76_two_cameras".split()],"The numerical results are arbitrary. The detector, the projection and the file system are parameters.")
c("C77","proved",["Finish."+x for x in "C77_corners".split()],"")
c("C78","proved",["Finish."+x for x in "C78_one_group C78_file".split()],"The file written is that of group 0, which here is the only one.")
c("C79","proved",["Trust."+x for x in "C79_boards C79_cameras C79_average".split()]+["TrustObjects.C79_objects"],"For an average that does not depend on the order, which C79_average proves for the code's.")
c("C80","proved",["Trust."+x for x in "C80_path C80_boards C80_cameras C80_exact".split()]+["TrustObjects.C80_objects"],"Sightings at the truncated weights the code uses.")
c("C81","proved",["ExactReport."+x for x in "C81_reports truthful Example.hypotheses Example.end0 Example.end1 Example.seen".split()],"Numerical parts are parameters, exact on exact data by hypothesis; the example has three cameras with poses that do not commute, one of which shares no view with the others. The reports are those of Model/Finish.")
c("C82","proved",["Disk."+x for x in "C82_written C82_run C82_again C82_run_again C82_overwritten C82_idempotent C82_lost C82_analysis C82_analysis_renamed Example.sound Example.clear".split()]+["Crash.C82_exact"],"`.`, `..`, links, permissions and full disks are not modelled; `cv::FileStorage` and `cv::imwrite` write nothing when the directory is absent.")
c("C83","proved",["Program."+x for x in "C83_thin C83_run C83_ends C83_calibration Example.C83_good Example.C83_three Example.C83_six Example.C83_nothing".split()],"The searches are any that keep a sub-list and fail on fewer than four points (C29, C30); averages and refinements are given.")
c("C84","proved",["Pixels."+x for x in "C84_search C84_searches C84_calibration C84_reports C84_single C84_files".split()],"Exactness of solvePnP, of averages, of refinements and of hand-eye calibration on exact data is assumed, and holds in the example (Props/PixelExample). Groups without common views under the conditions of C70.")
c("C85","proved",["Whole."+x for x in "C85_directory C85_from_keypoints C85_rerun SameObs.connected Example.exactParts Example.ready Example.tasks Example.connected".split()],"The file system is read before the output directory is made, and written after everything has been computed; exactness of the numerical parts as in C84.")
c("C86","proved",["WholeSame."+x for x in "C86_written C86_schedules C86_reload Example.dataOnly Example.orderFree Example.settled".split()],"Randomness of the searches is not modelled: the searches are functions of camera and points (`DataOnly`); that the refinement does not depend on the order of its residuals (`OrderFree`) is an assumption, exact arithmetic makes it plausible and floating point does not.")
c("C87","proved",["Crash."+x for x in "C87_steps C87_crash C87_ready C87_recover C87_rerun C87_rerun_schedules C87_own_keypoints Example.ready Example.shapes WholeExample.runs".split()],"Directories are made atomically and in order, files are damaged only while they are written (no reordering by a disk cache; C87_recover allows it: any set of damaged or absent results).")
c("C88","proved",["Print."+x for x in "C88_refused C88_printed C88_ends C88_blocked C88_looked_for C88_again Example.C88_demo Example.C88_demo_refused Example.hypotheses".split()],"Drawing and reading of files are parameters; permissions and full disks are not modelled.")
c("C89","proved",["Agree."+x for x in "C89_agree C89_detected C89_images Example.parts".split()],"Of the parts that are not modelled: searches succeed on four points or more and keep a sub-list, the refinement keeps the detections, points are projected one by one.")
c("C90","proved",["Order.C90_complete","Order.C90_left","Order.C90_early","Order.C90_last","Order.C90_ready","Order.C90_outcome","Order.C90_fails_again","Order.C90_rerun","Order.C90_exit","Order.C90_exit_zero"],"The program in the order of the code, with the files as state that a failure keeps: the output directory is made first, images are written one by one, a result file is opened before its contents are computed. C90_complete: a run succeeds just when the run of C85 to C87 does, with the same files. Undefined behaviour is taken to leave the files alone; the keypoint path must not be that of the output directory.")
c("C91","proved",["Poses.C91_reads", "Poses.C91_answers", "Poses.C91_entries", "Poses.C91_matrix", "Poses.C91_never_set", "Poses.C91_observation", "Poses.C91_observation_reads", "Poses.C91_hand_over", "Poses.C91_floats", "Poses.C91_floats_short"],"Every accessor of the five classes, as calls on a map that creates missing entries or on a field without initialiser. cv::Rodrigues is a parameter (C28), and Rodrigues' formula over the reals for the identity of an unset pose; double arithmetic is exact, the conversion to float is any function.")
c("C92","proved",["FromConfig.C92_runs", "FromConfig.C92_rejected", "FromConfig.C92_where", "FromConfig.C92_keys", "FromConfig.C92_ignored", "FromConfig.C92_missing", "FromConfig.C92_images", "FromConfig.C92_flags", "FromConfig.C92_from_keypoints", "FromConfig.C92_same_results", "FromConfig.C92_params", "FromConfig.C92_boards", "FromConfig.C92_values", "FromConfig.C92_exit"],"Full. Assertions of the constructor are taken as enabled (for positive numbers of cameras and boards no difference); float values of the file are exact. The numerical parts are parameters that see exactly the values they are given in the code. Example: the scene of C85 set up from a configuration (Props/FromConfigExample).")
c("C93","proved",["Rigs.C93_files", "Rigs.C93_runs"],"Any number of rigs around the first. Assumed of the numerical parts: pose searches exact on exact data (C84_searches shows what of the library that needs), refinements end at the true poses, hand-eye calibration is exact for six or more pairs. As in C70 the poses commute, or each rig has at most two cameras or two common views with its first camera (averages of equal chains). Example: cameras 0 and 2 with board 1 in nine frames, camera 1 with boards 0 and 2 in the first six, camera 3 with board 3 in the last six (Props/RigsExample).")
c("C94","proved",["Majority.C94_median", "Majority.C94_average", "Majority.C94_exact", "Majority.C94_half", "Majority.C94_mean", "Majority.C94_boards", "Majority.C94_cameras", "TrustObjects.C94_objects", "HalfTurn.C94_half_turn"],"Cameras: for those placed directly from the reference camera (C80); longer chains are composed in the wrong order (C19). C94_half_turn uses Rodrigues' formula with rotation vectors up to a half turn, as cv::Rodrigues returns them.")
c("C95","proved",["Noise.C95_rotation", "Noise.C95_average", "Noise.C95_boards", "Noise.C95_cameras", "NoiseObjects.C95_objects", "NoiseHandEye.C95_quaternions", "NoiseHandEye.C95_handeye"],"Poses are rigid 4x4 matrices over the reals; cv::Rodrigues is Rodrigues' formula; rounding is not modelled.")
c("C96","proved",["Units.C96_run", "Units.C96_reports", "Units.C96_search", "Units.C96_numerics", "Units.C96_length", "Units.C96_pixel", "Units.C96_boards", "Units.C96_detection", "Units.C96_problems", "Units.C96_refine", "Units.C96_minimum", "Units.C96_solvers", "Units.C96_libraries"],"Over the reals. The library functions (P3P, solvePnP, fitLine, k-means, hand-eye solvers, Ceres) are assumed to give the same in other units (`SameLib`, `ScaleFree`, `ScaleFreeFit`, `SameSolver`); the one constant of the code with a unit of length is the stopping accuracy 0.01 given to cv::kmeans (geometrytools.cpp:433-436), inside this assumption.")
c("C97","proved",["Reorder.C97_images", "Reorder.C97_objects", "Reorder.C97_calibrateObjects", "Reorder.C97_groups", "ReorderRun.C97_overlapping", "ReorderRun.C97_workflow", "ReorderRun.C97_saved","ReorderErrors.C97_errors", "ReorderRun.C97_averages"],"The poses are estimated from each observation alone and the refined poses (Ceres) are parameters, equal in both runs; for the whole workflow the hand-eye calibration is taken not to depend on the order of its pairs of poses (the bootstrapped one draws pairs at random in the order of the images, so it does).")
c("C98","proved",["Pool.C98_no_deadlock", "Pool.C98_terminates", "Pool.C98_no_endless", "Pool.C98_exclusive", "Pool.C98_complete", "Pool.C98_one_worker", "Pool.C98_every_order", "Pool.C98_schedules", "Pool.C98_possible", "Pool.C98_files", "Pool.C98_no_worker", "Pool.C98_example"],"The queue of boost::asio::thread_pool is modelled as a list with atomic operations. The theorems also justify the set of schedules over which C07, C60, C85, C86, C93 quantify. C98_no_worker: the hypothesis of at least one thread is needed (std::thread::hardware_concurrency may return 0).")
c("C99","proved",["ScriptsExact.C99_bars", "ScriptsExact.C99_truth", "ScriptsExact.C99_rig_bars", "ScriptsExact.C99_rig_truth"],"Props/RealExample has a scene of pinhole cameras and rigid motions of space that meets all hypotheses (also those of C84, C85): four corners of a square parallel to the image determine its pose (Lemmas/Pinhole).")
c("C100","proved",["Joined.C100_overlapping", "Joined.C100_run", "Joined.C100_linked"],"In general the boards of the final objects lie between the two closures (the non-overlapping groups may or may not be joined, C52); they coincide if the cameras are linked. Concrete case: few_hypotheses, C101_joined.")
c("C101","proved",["Joined.C101_together", "Joined.C101_objects", "Joined.C101_one_group", "Joined.C101_fewer", "Joined.C101_joined"],"The inclusion of the corners left is a hypothesis: with more images the search for outliers may draw differently. C101_joined: two further detections join two objects although no image shows both boards.")
c("C102","proved",["Idle.C102_workflow", "Idle.C102_saved", "IdleReport.C102_report", "IdleWhole.C102_whole"],"C102_whole: from images to files, with the intrinsics given; the initial calibration of an unused camera without given intrinsics is left out (C45). C102_report: all files of results and images, from the stored detections. Concrete case: two cameras and boards of which two more cameras and one more board are never used.")
c("C103","proved",["Feedback.C103_fixed", "Feedback.C103_same", "Feedback.C103_incomplete"],"That no later step changes fixed intrinsics is C38 and built into `feed`. The text encoding of the file (rounding of decimals) is not modelled. Reading parameters that the file does not have is taken to fail at the first pose search. Concrete case: the scene of C92 is calibrated and then calibrated again from the camera file of the first run, which it replaces.")
c("C104","proved",["Initial.C104_own", "Initial.C104_order", "Initial.C104_all", "Initial.C104_schedules"],"Shuffles are arbitrary permutations; the OpenCV calibration is a function of the correspondences it is given and of the image size. Concrete case: three detections of two cameras stored in two orders.")
c("C105","proved",["Hang.C105_calibration", "Hang.C105_search", "Hang.C105_handEye", "Hang.C105_program", "Hang.C105_unlinked"],"Library calls and optimisations are assumed to end (Spec/Steady); waiting for the thread pool is C98. C105_unlinked shows that the path search does hang on vertices of two components. Concrete case: the scene of C85 to C92 meets the hypotheses of C105_program.")
c("C106","proved",["Recordings.C106_recordings", "Recordings.C106_repeat"],"The conditions of each recording are those of C70 (structure Recording). Concrete case: two recordings with six and seven frames, cameras and boards 0 and 1 exchanged and another motion, with a camera that shares no view with the others.")
c("C107","proved",["AnalysisWhole.C107_whole", "Analysis.C107_complete", "Analysis.C107_groups", "Analysis.C107_missing", "Analysis.C107_shown", "Analysis.C107_all"],"C107_whole is about runs of the whole program; C107_complete says what is shown, for a run from observations to files. The pictures the scripts save and the drawing itself are left out; how the ground truth is read is a parameter. Concrete case: the last example of Props/AnalysisWhole, the run of Props/RealExample (two cameras, two boards, two frames) in a directory with a ground truth file.")
c("C108","proved",["Place.C108_place"],"The keypoint file is read from the same place in both runs. Places in which nothing is in the way: predicate Ready (Spec/Whole). Concrete case: Props/PlaceExample, the run of RealExample with another directory and name and without images of detections.")
c("C109","proved",["Figure.C109_view", "Figure.C109_ranges", "Figure.C109_unique", "Figure.C109_scale", "Figure.C109_again", "Figure.C109_moved"],"Limits are real numbers. matplotlib's own choice of limits while plotting, and its widening of two equal limits, are not modelled; nor is the shape of the box in which it draws the axes.")
c("C110","proved",["Display.C110_drawn", "Display.C110_schedule", "DetectionImages.C110_saved"],"The workflow itself does not call displayBoards (its call is commented out, McCalib.cpp:258). Observations and boards are taken to be alive (they are owned by the calibration); coordinates are real numbers, truncated to pixels.")
exec(open(os.path.join(os.path.dirname(__file__),"manifest_more.py")).read()) if os.path.exists(os.path.join(os.path.dirname(__file__),"manifest_more.py")) else None
out=os.path.join(os.path.dirname(__file__),"..","MANIFEST.json")
C.sort(key=lambda x:x["property"])
json.dump({"claims":C}, open(out,"w"), indent=1, ensure_ascii=False)
print(len(C))
