# Formal model of MC-Calib in Lean 4 — design

## Layout

* `lean/Verif/Core/*` — outcome monad (undefined behaviour, divergence and
  exceptions are distinct results), `std::map` as a sorted association list.
* `lean/Verif/Model/*` — the model, one file per source file or group of functions.
  Every definition cites the file and lines it models and says what is simplified.
* `lean/Verif/Lemmas/*` — helper lemmas.
* `lean/Verif/Props/*` — the property theorems with their small independent
  specifications, each followed by a non-vacuity `example`.

## Modelling decisions

* **Numbers.** `double`/`float` are modelled by an arbitrary (linearly ordered) field, rounding
  is not modelled. Indices are `Nat`; `int` overflow is not modelled.
* **Poses.** The code stores Rodrigues vector + translation and converts to 4x4 matrices
  to compose. The bookkeeping functions are modelled over an arbitrary group `G` of poses
  acting on points; the 4x4 algebra itself is modelled concretely in `Model/Rigid`.
* **External code** (OpenCV, Ceres, Boost): detector, PnP solver, optimiser, random shuffles
  are universally quantified parameters. Boost's Dijkstra is modelled with an arbitrary
  tie-breaking among minimal queue elements.
* **Concurrency.** The pool's tasks only touch the shared state through `insertNewBoard`,
  under one mutex; a schedule is a permutation (interleaving) of these atomic insertions.
* **UB.** Out of range indexing, null dereference and uninitialised reads are `Outcome.ub`;
  exceptions and failed assertions are `Outcome.throw`, endless loops `Outcome.diverge`.
* **Defects of the code.** The model follows the code, not the intention. Where the code does not do
  what a user would expect, the property in `properties.jsonl` states both, and the theorems prove what
  the code does, when that agrees with the expectation, and a concrete case in which it does not.

## Plan per property

| id | model | proof |
|---|---|---|
| C01 | `Graph` state machine over call histories | invariant by induction over calls; an id first mentioned by a self-edge counts twice |
| C02 | component labelling by search from each vertex in insertion order | closure lemma = reachability (inductive `Linked`) |
| C03, C04 | Dijkstra loop with integer-truncated weights and arbitrary queue choice | loop invariant; predecessor tree; minimality by standard exchange; negation witness for real weights |
| C05 | `getPath` as an unbounded loop | unreachable vertex is its own predecessor: no number of steps ends the loop |
| C06, C10 | store with all indexes | invariant by induction over insertions; witness for C10 negation |
| C07 | permutation of insertions | saved output is a function of the observation set |
| C08 | save/load as list transformation | round trip |
| C09 | acceptance predicate in detection loop | direct, loop induction |
| C11–C15, C17 | `init3DObjects` and its inputs | from C02/C03 plus fold invariants |
| C16 | `init3DObjectObs` | fold invariants |
| C18, C19 | `initCameraGroup` | as C11; exact condition for C19, witnesses in a non-commutative group |
| C20 | `initCameraGroupObs` | fold invariants |
| C21–C23 | non-overlap functions, `mergeCameraGroup` | fold invariants; witness for stale numbers |
| C24, C25 | `mergeObjects`, `mergeAllObjectObs` | as C11–C15; exact multiplicity |
| C26, C27 | group observation poses | list algebra |
| C28, C32 | 3x3 / 4x4 / quaternion algebra | polynomial identities; Rodrigues' formula; chordal mean |
| C29, C30, C55 | RANSAC loop over an arbitrary stream of shuffles | loop invariant; logarithms for the number of trials |
| C31 | median by sorting | order statistics |
| C33–C35 | hand-eye bootstrap | data independence theorems, witnesses |
| C36, C37 | residual functors, parameter vector | algebra |
| C38, C51 | construction of the Ceres problems, workflow with arbitrary optimiser | frame property of the solver, invariants |
| C39–C41, C56, C57 | output functions as lists of written entries | list lemmas, witnesses |
| C42, C58 | generation of charuco boards | induction over boards, arithmetic on id ranges |
| C43, C44 | constructor `Calibration`, `Board`, reader of the configuration | direct computation for every file |
| C45, C46 | `checkBorderToleranceFisheye`, `initializeCalibration` | direct; fold invariants |
| C47–C49, C59 | point_refinement.h: kernel, filter, interpolation, iteration | loop invariants over `Ext` numbers; least squares normal equations |
| C50 | folder names, image lists, decimal text | induction on digits |
| C60, C61 | the workflow on two stores with the same detections per frame; save and load | homomorphism: the stages ignore observation numbers; order of rows in the file |
| C62 | terms handed to the optimiser by each refinement | fold lemmas; permutation-free list equality |
| C63 | world with the saved poses, any sequence of refinements | frame property |
| C66 | error sums, `initIntrinsic` with the check of all boards | loop lemmas; composition with C30 |
| C64, C65 | drawing loops as lists of circles | fold lemmas; decimal file names |
| C67 | `main`, choice of the input files, detection tasks per image, intrinsics that may be unset | lemmas on paths; list of tasks per camera; witness runs |
| C68 | rows of the linear system, SVD as a parameter; robust search | geometry of rays (null space of dimension one); loop invariant |
| C69 | traces of shared accesses by any number of workers, happens-before | invariant: the holder of the mutex; witness trace |
| C70 | the whole workflow with numerics exact on exact data, in any group | invariant: all recorded poses are the true ones, stage by stage (C13, C19, C22, C23, C27) |
| C71 | tables of addresses: what is owned, what refers to what, through all stages of the workflow | invariant over all histories of merges |
| C72–C75 | the scripts of `python_utils` applied to the files that the model of the program writes | composition with C39, C40, C41, C56, C57; trace and angle of a rotation; a rigid motion that fixes a triangle is the identity |
| C76–C78 | the whole sequence of `runCalibrationWorkflow` after the detection (Model/Finish), composed of the stages modelled before, and the reports after it | invariants of each stage (`Joins`, `Ends`) carried through the sequence; composition with C30, C39–C41, C52, C53, C56, C57, C63–C65 |
| C79, C80 | the pair tables, graphs and placements already modelled (Model/Structure, Graph); Spec/Trust counts the joint sightings directly from the list of observations | the table entries are a permutation of the sightings (grouping lemma); weights 1/n truncate to 1 for n = 1 and to 0 otherwise, so C04 counts steps measured once; a search invariant (`Near`) shows that a shortest direct edge keeps the source as predecessor |
| C81 | `Finish.run` and `Finish.report` (Model/Finish) from exact observations (Spec/Exact, `SeenExactly`) | C70 gives true poses at the end of the workflow; the last refinement keeps them by hypothesis; C77 and C70_corners predict every observed corner at its pixel, C76 says what the reports contain |
| C82 | `saveAll` (Model/Disk): the directories made and the files written, on a file system that is part of the state; `analysisInputs` | an invariant of the image loops (Lemmas/DiskSave) keeps everything outside the places of images; the five writes are then evaluated place by place; `C82_run` starts from what C76 says of the reports |
| C83 | `Program.run`, `Program.calibrate` (Model/Program): the workflow with `estimatePoseAllObjects` in its places; Spec/Program counts the points of a view of linked boards from the detections | every object at every stage is a union of classes of linked boards (`Closed`), so a view with enough points at the start has enough at each stage; the run is then equal to `Finish.run` with the estimated poses |
| C84 | `Program.calibrate` with searches `Ransac.searches` (Model/Ransac); Spec/Pixels: detections at the projected corners, searches exact on exact data | a search in which one model fits all points keeps them all (C84_search, from C29); views of boards and objects then have their true poses (Lemmas/Pixels), so C83 reduces the calibration to `Finish.run` with true poses and C81 applies; with all boards and cameras linked, every object has the first board and every group the first camera at each stage (Lemmas/Rooted), which gives the conditions on refinements |
| C85 | `Whole.run` (Model/Whole): `boardExtraction` from images or keypoint file, then `ReproErr.initIntrinsic`, `Program.run`, `Finish.report`, `Keypoints.save`, `Disk.saveAll`; Spec/Whole: what the directory holds, when data are connected | `core`: C84_files (C84_single and what the files list, Props/PixelFiles) with C82_run and C82_run_again (after a run the directory can be written again); from images by C67 (every schedule inserts the detections of the images), from the keypoint file by C08 and the invariance of all conditions under reordering of detections (`SameObs`) |
| C86 | as C85, for any data; Spec/Whole: `DataOnly`, `OrderFree` (what is asked of the numerical parts), `Settled` | C61's relation between stores of two schedules, with paths (`Alike`), is carried through the first step (Lemmas/WholeSame), the workflow with estimated poses (Lemmas/ProgramSame), the reports (Lemmas/ReportSame) and the keypoint file; `report_shaped` gives C82 for any report; C82_idempotent: writing the same results again changes nothing |
| C87 | `Crash.steps` (Model/Crash): `saveAll` as a list of steps, `Torn`: half of a step, `Crash`: a prefix and perhaps half of the next step; Spec/Crash: `Left`, what an interrupted run may leave | C87_steps: the steps are those of `saveAll`; each step and half-step stays within the directories and files of results (induction over the prefix), so all crash states are `Left`; two complete writes from `Left`-related disks agree on every directory and file (C82_written on both) |
| C88 | `Print.main` (Model/Print) with `Config.printBoards` on the file system of Model/Disk; Spec/Print: `Printed`, `requested` | inversion of `main`; the files are written one by one at distinct places (induction, C50_board_files); the configuration file is none of them, by its ending; C58 for the link with the calibration |
| C89 | Spec/Agree: `corners`, `share` (corners of an object in an image), `Agree`, stated on the files alone | `Ends` (the final tables) and `Correct` (the reports) give each clause; `corners_saved`: the keypoint file lists the kept corners; through `Whole.run` with C83 and C76 |
| C90 | Model/Order: the workflow as a program with the file system as state, kept on failure; `main` around it | Hoare-style rules for what a part may change and how it ends; the run of C85 as its successful case |
| C91 | Model/Poses: the pose accessors of the five classes, as calls on a map with inserting `[]` and on fields without initialiser | induction over the sequence of calls; answers compared with the last write in the history |
| C92 | `Model/FromConfig`: constructor with the keys it reads, in the order of the code, then `Order.workflow`; `main` reads the file | refinement to C90's workflow (`ensure` is idempotent, the intrinsics file is not touched by making directories); congruence of every reader of a key; frame rules of C90 for single folders |
| C93 | `Spec/Rigs`: rigs with a target each, frames in which two rigs have detections | tables at each stage of the workflow: an object and a group per rig, numbered by their first board or camera, until the hand-eye calibration, which records both directions of each pair with six common frames; a recorded pair is the path chosen between its groups (Lemmas/GroupDirect), so all groups are posed from the first directly; then one group and, as it sees each target together with that of the first rig in a frame, one object; the second merge with the stale pairs changes nothing; so the contract of C84 holds with the true poses of separate rigs before and of one rig after the merge |
| C94 | `median`, `medianPose`, `interAverage` (Model/Average), `buildObjects`, `buildGroups`; `Most`, `Near` (Spec/Majority) | more than half on either side of the median (C31_half); C79, C80 say which averages place a board or camera; the half turn by evaluating Rodrigues' formula at both sides of a half turn |
| C95 | the same, with poses in `Rigid.Pose ℝ` (rigid 4x4 matrices) and Rodrigues' formula; `len`, `Off` (Spec/Noise) | the exponential map to unit quaternions does not increase distances, nor does conjugation by them more than twofold; a distance of poses that is invariant on the left and grows with the size of the pose on the right; induction along the path of C79; a rotation with the least sum of squared distances is as close to one of the averaged rotations as the true one is |
| C96 | the program of C83, the reports of C76, the refinements of C38/C62 and the detection of C07, run twice: `Spec/Units` says when poses, points and tables are the same in other units | every function of the run commutes with the change of unit (a homomorphism of the pose groups, equivariant on points); medians, quaternion averages and the hand-eye bootstrap commute with multiplication of lengths; the cost terms are equal because pixels are |
| C97 | the detection tasks of C07, the objects of C11, the observations of C16 and the groups of C18, run twice: `Spec/Reorder` says when two lists of detections hold the same images numbered differently | the entries of the tables of pairs are permutations of the measurements of C79, hence of each other; averages do not depend on order; so the tables and the graphs are equal; the merging stages are carried through with a relation on their outcomes (`SameOutcome`, `SameCalibration`): same objects and groups, observations up to order and image number |
| C98 | the pool as a transition system: main thread posting, queue, workers, mutex, log (`Model/Pool`) | an invariant ties the holder of the mutex to the worker in the middle of an insertion, a counter decreases by one in every step, and what remains to be inserted can always be interleaved after what was |
| C99 | the composition of `Model/Whole` and `Model/Scripts` | `Calibrated` (C85) now says that the error file has one group with exactly the frames and cameras of the detections; the scripts are evaluated on such files |
| C100 | `Model/Pipeline`, `Model/Finish` (existing); `Spec/Joined` gives the closures from the detections alone | each merge of objects yields the classes of the old objects and of joint views of a group (`Lemmas/Joined`), induction along paths in both directions |
| C101 | as C100 | both closures are monotone in the detections |
| C102 | `Model/Pipeline`, `Model/Finish`, `Model/Output` (existing) | the larger run does what the smaller does unless that reads out of bounds (`Lemmas/Idle`), and the smaller does not, by C52 |
| C103 | `Model/Feedback`: `initializeCalibrationAllCam` with a file, in `Model/FromConfig` | every entry written comes from `getIntrinsics` of a camera (invariant over the writes), every camera from an entry read; C37, C90, C92 |
| C104 | `Model/InitCamera`, `Model/Store`, `Model/Detection` (existing) | the boards are used in the order in which the shuffle puts the detections of the camera; any order of a list is a shuffle of it; C06 for the positions |
| C105 | whole program model (existing), `Spec/Hang`, `Spec/Steady` | the outcome `diverge` only comes from following predecessors; all four uses are inside a component of a graph without negative weights, so C02 and C03 apply; everything else is loops over lists; then up through all stages |
| C106 | `Model/Pipeline` (existing), `Spec/Exact` | both results are true for their worlds (C70), and the worlds differ by a renumbering and changes of frame, which relative poses do not see |
| C107 | `Model/Analysis`: the scripts in the order they are called, on the contents of the files | what the run left (C76, C77) meets the conditions of C72–C75; one group and all cameras are needed by C72, C73 |
| C108 | `Model/Whole` (existing) | the reports do not read the place (C64, C65 for the images), and are written there (C82) |
| C109 | `Model/Figure` (new): axis_equal_3d | order and absolute values over the reals |
| C110 | `Model/Display` (new): displayBoards | the index of a (camera, frame) pair lists exactly its observations (C06); schedules (C07) |
| C52–C54 | the workflow from the stored observations to the last merge | composition of the stage theorems |

## What is modelled, file by file

| source | modelled in | not modelled |
|---|---|---|
| `Graph.cpp/.hpp` | `Model/Graph` | DOT output (nothing calls it) |
| `McCalib.cpp` 24-135 (constructor), `Board.cpp` 22-82, `utilities.cpp` 23-112, `create_charuco_boards.cpp` | `Model/Config` | paths, creation of directories, images drawn |
| `McCalib.cpp` 140-170, 234-261 (folders, thread pool) | `Model/Folders`, `Model/Detection` | the file system (a parameter with the glob contract) |
| `McCalib.cpp` 172-213, 493-548 (keypoint files) | `Model/Keypoints` | text encoding of `cv::FileStorage` |
| `McCalib.cpp` 270-365, `geometrytools.cpp` 127-146 | `Model/Detection` | the charuco detector (a parameter) |
| `point_refinement.h` | `Model/Saddle` | rounding; `cv::invert`, `cv::filter2D` (parameters with contracts, proved satisfiable) |
| `McCalib.cpp` 594-642, Frame/CameraObs/BoardObs insertions | `Model/Store` | |
| `Camera.cpp` 24-126 | `Model/Camera` | |
| `Camera.cpp` 162-262, `McCalib.cpp` 689-694 | `Model/InitCamera` | `cv::calibrateCamera`, `cv::fisheye::calibrate` (parameters) |
| `geometrytools.cpp` 233-326, 709-751, `BoardObs.cpp` 121-163, `Object3DObs.cpp` 222-247 | `Model/Ransac` | `cv::solvePnP` (a parameter); NaN distances |
| `McCalib.cpp` 735-975, 1713-1814, `Object3D.cpp` 249-268 | `Model/Objects`, `Model/Structure` | `float` rounding of object points |
| `McCalib.cpp` 1024-1202, 1505-1629 | `Model/Groups` | |
| `CameraGroup.cpp` 153-183, `CameraGroupObs.cpp` 42-108, `McCalib.cpp` 1635-1707 | `Model/GroupPose` | |
| `McCalib.cpp` 1229-1499 | `Model/NonOverlap` | |
| `geometrytools.cpp` 357-686 | `Model/HandEye` | `cv::calibrateHandEye`, `cv::kmeans` (parameters) |
| `geometrytools.cpp` conversions, median, quaternions | `Model/Rigid`, `Model/Average`, `Model/Quaternion` | rounding |
| `OptimizationCeres.h` | `Model/Residual` | automatic differentiation types |
| refinement functions of `Camera.cpp`, `Object3D.cpp`, `CameraGroup.cpp` | `Model/Refine` | Ceres itself (a parameter: may change only the free blocks of its problem) |
| `McCalib.cpp` 1893-2070, `CameraGroupObs.cpp` 208-218 | `Model/Images` | decoding, drawing and encoding of images (parameters) |
| `BoardObs.cpp` 165-203, `Object3DObs.cpp` 255-291, `McCalib.cpp` 722-726, 999-1008, 2085-2092, `CameraGroup.cpp` 285-358 | `Model/ReproErr` | `float` rounding |
| `calibrate.cpp` 87-106, `McCalib.cpp` 140-170, 219-261, 662-695 | `Model/Start` | the file system (a parameter) |
| `geometrytools.cpp` 32-42, 98-124, 151-228 | `Model/Triangulate` | `float` rounding; `SVDecomp` (a parameter with a contract, proved satisfiable) |
| `McCalib.cpp` 234-261, 355-365, the thread pool | `Model/Pool` | the implementation of the pool: its queue is a list with atomic operations; exceptions in tasks |
| `McCalib.cpp` 234-365, accesses to shared data | `Model/Race` | accesses inside OpenCV and the logger; the number of workers is arbitrary |
| `McCalib.hpp` 93-107, every `weak_ptr` to what is destroyed (McCalib.cpp 936-975, 1149-1202, 1529-1629, 1712-1860) | `Model/Lifetime` | references to cameras, boards, frames (never destroyed); a lock under a condition is taken to be made |
| `McCalib.cpp` 374-483, 662-687, 2168-2341 | `Model/Output` | text encoding of `cv::FileStorage` |
| `python_utils/*.py` | `Model/Scripts`; `Model/Analysis` (`post_calibration_analysis.py`: all of them in turn) | windows, colours, image files; rounding; how the ground truth is read |
| `calibrate.cpp` 9-85 | `Model/Pipeline` (bookkeeping), `Model/Refine` (parameters), `Model/Finish` (reports), `Model/Program` (with pose estimation), `Model/Whole` (from files to files), `Model/Order` (in the order of the code, with failures) | logging |
| every access to the file system by `calibrate` | `Model/Disk`, `Model/Crash` (one by one) | links, permissions, full disks |
| `create_charuco_boards.cpp` 10-91, `utilities.cpp` 53-76, 114-138 | `Model/Print` | how boards are drawn (a parameter) |

Not modelled at all: the logger, the Blender scripts, the tests, `int` overflow, memory exhaustion.

## Assumptions made about code outside the repository

* `cv::FileStorage` gives back what was written; writing to a released storage does nothing; of two
  equal keys the first is read; a missing node reads as 0 / empty / the empty string.
* `cv::glob` returns the matching files of a directory, sorted (C50 only).
* `cv::Rodrigues` is `Rodrigues.Sound` (Rodrigues' formula over the reals is proved to be), the singular
  vectors of `cv::SVD` are eigenvectors of the largest eigenvalue (existence proved),
  `cv::invert(DECOMP_SVD)` gives the inverse of a regular matrix, `cv::filter2D` the weighted sum.
* `cv::kmeans` leaves no cluster empty (C34).
* Ceres changes only parameter blocks that the problem does not hold constant (C38, C51); two such
  solvers are constructed.
* `boost::connected_components` and `boost::dijkstra_shortest_paths` are themselves part of the model
  (with every tie-break of the queue). `std::stoi(std::to_string(v)) = v` is proved in `C50_stoi`.
* The check of the number of ids in the constructor of `cv::aruco::CharucoBoard` is a parameter (C42).
* Assertions are taken as enabled in `Model/Config`, and bounds checks of `cv::Mat::at` as disabled.

## Defects of the code found while proving

| property | defect |
|---|---|
| C01 | `addEdge(v, v)` on a new id creates two vertices |
| C04 | real weights are truncated to `int`, so every weight below 1 counts as 0 and the path is not the one with most joint observations |
| C05 | `shortestPathBetween` on unlinked vertices never returns |
| C07 | numbering of observations depends on the thread schedule (the result does not) |
| C08 | a camera without detections makes the keypoint loader abort |
| C10 | the frame lists of cameras and boards omit frames |
| C19 | the transforms along a path of cameras are composed in the wrong order |
| C33 | the hand-eye consistency check does not look at the poses |
| C35 | the fallback passes the same list of poses twice |
| C39 | only the first camera group is written to the camera parameter file |
| C40 | the list of frames is not reset between groups in the error file |
| C43 | per-board grid sizes are ignored, or read out of range, without per-board square sizes |
| C44 | the key of `quaternion_averaging` is misspelt, the option is never on |
| C48 | after the first corner that cannot be refined no later corner is updated |
| C49 | the counter of kernel weights is not initialised |
| C53 | the second merge of camera groups uses stale numbers: null dereference or unrelated cameras joined |
| C67 | a missing camera parameter file is only logged: the run goes on with uninitialised intrinsics; without argument `main` reads a null pointer; a mistyped keypoint path is ignored silently |
| C68 | the robust triangulation reads four shuffled indexes though it uses two: out of range for two or three views |
| C69 | data race: every detection task writes `charuco_params_` outside the mutex |
| C66 | a board view without inliers aborts the run in `computeReproErrAllBoard` |
| C63 | the saved object poses are single-camera estimates from before the last refinement |
| C72 | two objects seen by one camera in one frame: the statistic counts the first twice; cameras from number 100 on make it fail |
| C74 | the object is drawn at its coordinates in the observing camera among cameras drawn in the frame of the group |
| C75 | two of the 23 lines of a drawn camera end at a wrong corner |
| C55 | a view with one to three inliers makes the object pose estimation read out of range |

## Trusted base

Lean's kernel; the axioms `propext`, `Classical.choice`, `Quot.sound` (each theorem depends on a subset of
these three, as printed by `vcheck`; no axiom is added, nothing is evaluated by compiled code); the
faithfulness of the reading of the C++ source, documented definition by definition in `Model/*`; the
assumptions listed above, which appear as parameters or hypotheses of the theorems, never as axioms.

## Testing the theorems

`tools/mutate.py` applies edits to a scratch copy of the model, rebuilds, and appends the theorems that
fail to `seeded/LOG.jsonl`. An edit that breaks a claim and is not noticed leads to a stronger theorem.
