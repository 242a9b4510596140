{"id": "C01", "title": "Graph: one vertex per user id", "statement": "For every history of addVertex/addEdge/clearGraph calls, the ids that name vertices are those mentioned since the last clear, listed in order of first mention; an id first mentioned by addEdge(v,v) names two vertices (a defect of the code), every other mentioned id names exactly one; mentioning an id again adds nothing.", "quantifier": "all finite call histories, all integer ids, all weights", "why_tests_cant": "a test fixes one history; uniqueness must survive every ordering and repetition of calls", "anchors": ["McCalib/src/Graph.cpp:Graph::addVertex", "McCalib/src/Graph.cpp:Graph::addEdge", "McCalib/src/Graph.cpp:Graph::clearGraph"]}
{"id": "C02", "title": "Graph: connected components are the reachability partition", "statement": "connectedComponents() lists every vertex exactly once, puts two vertices in the same list iff a chain of edges links them, lists components in order of their first-inserted vertex and members in insertion order; the empty graph gives no component.", "quantifier": "all graphs built by the API (graphs of histories without addEdge(v,v) on a vertex not yet present, see C01)", "why_tests_cant": "reachability quantifies over chains of every length", "anchors": ["McCalib/src/Graph.cpp:Graph::connectedComponents"]}
{"id": "C03", "title": "Graph: a returned path is a genuine simple path", "statement": "For two linked vertices shortestPathBetween(v1,v2) terminates and returns a list starting at v1, ending at v2, whose consecutive members are joined by edges of the graph and which visits no vertex twice, whatever tie-breaking the priority queue uses.", "quantifier": "all graphs, all weights whose integer part is non-negative, all vertex pairs, all heap tie-break orders (graphs of histories without addEdge(v,v) on a vertex not yet present, see C01)", "why_tests_cant": "heap tie-breaking and graph shape are unbounded", "anchors": ["McCalib/src/Graph.cpp:Graph::shortestPathBetween", "McCalib/src/Graph.cpp:Graph::getPath"]}
{"id": "C04", "title": "Graph: which path is shortest", "statement": "The returned path minimises the sum of the integer parts of the weights among all paths between the vertices. It does not in general minimise the sum of the real weights (the distance map is a vector of int), so the most-observed chain may lose to a less-observed one.", "quantifier": "all graphs, all tie-breaks, all competing paths of any length (graphs of histories without addEdge(v,v) on a vertex not yet present, see C01)", "why_tests_cant": "minimality compares against every path", "anchors": ["McCalib/src/Graph.cpp:Graph::shortestPathBetween"]}
{"id": "C05", "title": "Graph: shortestPathBetween on unknown or unlinked vertices", "statement": "If either vertex is unknown the result is the empty path; if both exist but are not linked the call never returns.", "quantifier": "all graphs, all pairs (graphs of histories without addEdge(v,v) on a vertex not yet present, see C01)", "why_tests_cant": "non-termination cannot be observed by a finite test", "anchors": ["McCalib/src/Graph.cpp:Graph::shortestPathBetween", "McCalib/src/Graph.cpp:Graph::getPath"]}
{"id": "C06", "title": "Observation store: all indexes agree", "statement": "After any sequence of board insertions, every inserted observation is found through the global table, its camera, its board, its frame and its (camera,frame) observation, exactly once through each, in insertion order, and no index mentions anything else.", "quantifier": "all insertion sequences over any cameras, frames and boards", "why_tests_cant": "cross-index agreement must hold for all histories", "anchors": ["McCalib/src/McCalib.cpp:Calibration::insertNewBoard"]}
{"id": "C07", "title": "Detection result does not depend on the thread schedule", "statement": "For every interleaving in which the pool's workers insert the boards they detect, the set of stored observations is the same, and the saved keypoint file is byte-for-byte the same as in the sequential run.", "quantifier": "all permutations of the concurrent insertions", "why_tests_cant": "schedules cannot be enumerated by tests", "anchors": ["McCalib/src/McCalib.cpp:Calibration::detectBoardsWithCamera", "McCalib/src/McCalib.cpp:Calibration::insertNewBoard", "McCalib/src/McCalib.cpp:Calibration::saveDetectedKeypoints"]}
{"id": "C08", "title": "Keypoint file round trip", "statement": "Saving the detected keypoints and loading them in a fresh calibration gives the same set of (camera, frame, board, points, ids) observations with the same frame paths, and saving again reproduces the file.", "quantifier": "all reachable observation stores", "why_tests_cant": "round trip over unbounded stores", "anchors": ["McCalib/src/McCalib.cpp:Calibration::saveDetectedKeypoints", "McCalib/src/McCalib.cpp:Calibration::loadDetectedKeypoints"]}
{"id": "C09", "title": "Detection acceptance rule", "statement": "A detected marker board is stored iff it has strictly more corners than the rounded minimum percentage of the board's points, more than four corners, and its corners are not collinear within a tenth of the square size; boards are considered independently and in ascending index.", "quantifier": "all detector outputs", "why_tests_cant": "combination over all detector outputs", "anchors": ["McCalib/src/McCalib.cpp:Calibration::detectBoardsInImageWithCamera"]}
{"id": "C10", "title": "Frames listed by a camera or a board", "statement": "The frames listed by a camera (or board) are among the frames in which it was observed; they need not be all of them: a frame is listed only by the camera and board that created it.", "quantifier": "all insertion sequences", "why_tests_cant": "needs every order of insertion", "anchors": ["McCalib/src/McCalib.cpp:Calibration::insertNewBoard"]}
{"id": "C11", "title": "Boards are partitioned into 3D objects by co-visibility", "statement": "After init3DObjects every board with an observation is in exactly one 3D object, boards without any are in none, and two boards share an object iff a chain of pairwise co-observations links them.", "quantifier": "all observation stores", "why_tests_cant": "co-visibility chains of every length", "anchors": ["McCalib/src/McCalib.cpp:Calibration::init3DObjects", "McCalib/src/McCalib.cpp:Calibration::initInterBoardsGraph", "McCalib/src/McCalib.cpp:Calibration::computeBoardsPairPose"]}
{"id": "C12", "title": "Reference board of an object", "statement": "The reference board of every object is its board of least index and its pose in the object is the identity; objects are numbered in increasing order of reference board.", "quantifier": "all observation stores", "why_tests_cant": "all component shapes", "anchors": ["McCalib/src/McCalib.cpp:Calibration::init3DObjects"]}
{"id": "C13", "title": "Board structure is recovered exactly from exact measurements", "statement": "If every pairwise board transform used is the true relative pose, then each board's pose in its object is its true pose relative to the reference board, for any length of chain and any choice among shortest paths.", "quantifier": "all stores with consistent measurements, all tie-breaks", "why_tests_cant": "chain length and geometry are unbounded", "anchors": ["McCalib/src/McCalib.cpp:Calibration::init3DObjects", "McCalib/src/McCalib.cpp:Calibration::initInterTransform"]}
{"id": "C14", "title": "Object point indexes are a bijection", "statement": "The points of an object are numbered 0..n-1 without gaps; the (board, corner) to number and number to (board, corner) maps are inverse of each other, and n is the sum of the corner counts of the object's boards.", "quantifier": "all sets of boards of all sizes", "why_tests_cant": "all board counts and sizes", "anchors": ["McCalib/src/McCalib.cpp:Calibration::init3DObjects", "McCalib/src/Object3D.cpp:Object3D::insertBoardInObject"]}
{"id": "C15", "title": "Object points are the posed board points", "statement": "Every object point equals the board's pose in the object applied to the board's own corner; this holds after initialisation, after merging of objects and after every refinement.", "quantifier": "all objects, all workflows", "why_tests_cant": "invariant over every sequence of stages", "anchors": ["McCalib/src/McCalib.cpp:Calibration::init3DObjects", "McCalib/src/Object3D.cpp:Object3D::updateObjectPts"]}
{"id": "C16", "title": "Object observations cover exactly the observed boards", "statement": "For each (camera,frame) observation and each object there is at most one object observation; it exists iff that camera saw a point of a board of the object in that frame, and lists the seen corners, under their object numbers, in order with their pixels. A corner id outside the board is silently taken to be object point 0.", "quantifier": "all stores, all objects", "why_tests_cant": "all combinations of boards, objects, views", "anchors": ["McCalib/src/McCalib.cpp:Calibration::init3DObjectObs", "McCalib/src/Object3DObs.cpp:Object3DObs::insertNewBoardObs"]}
{"id": "C17", "title": "Every pairwise transform a chain needs was measured", "statement": "Along each path used to place a board, camera or object, the transform of each consecutive pair is present in the table of measured transforms, in the orientation looked up: no default (empty) matrix is ever composed.", "quantifier": "all stores, all tie-breaks", "why_tests_cant": "lookup must succeed on every path", "anchors": ["McCalib/src/McCalib.cpp:Calibration::init3DObjects", "McCalib/src/McCalib.cpp:Calibration::initCameraGroup", "McCalib/src/McCalib.cpp:Calibration::computeBoardsPairPose"]}
{"id": "C18", "title": "Cameras are partitioned into groups by shared objects", "statement": "After initCameraGroup each camera with an observation is in exactly one group; two cameras share a group iff linked by a chain of frames in which both saw the same object; the reference camera is the least index and has identity pose.", "quantifier": "all object-observation stores", "why_tests_cant": "chains of every length", "anchors": ["McCalib/src/McCalib.cpp:Calibration::initCameraGroup", "McCalib/src/McCalib.cpp:Calibration::computeCamerasPairPose", "McCalib/src/McCalib.cpp:Calibration::initInterCamerasGraph"]}
{"id": "C19", "title": "Camera poses from exact measurements", "statement": "With exact pairwise transforms each camera's pose in its group should be its true pose relative to the reference camera. The code composes chains in the wrong order: the pose is the product of the true relative poses along the chosen path in path order, so it is the true one exactly when that product equals the product in the opposite order. It is true for cameras placed by a path of at most one edge, hence in groups of at most two cameras, and whenever the transforms commute; on a two-edge path only if the two transforms commute, and even a camera seen together with the reference camera may be placed by a longer path.", "quantifier": "all exact measurement sets, all paths", "why_tests_cant": "chain geometry is unbounded", "anchors": ["McCalib/src/McCalib.cpp:Calibration::initCameraGroup"]}
{"id": "C20", "title": "Camera group observations collect the group's object observations", "statement": "For each camera group and frame there is one group observation iff a camera of the group saw an object in the frame, and it contains each of those object observations exactly once.", "quantifier": "all stores and groupings", "why_tests_cant": "all combinations", "anchors": ["McCalib/src/McCalib.cpp:Calibration::initCameraGroupObs", "McCalib/src/CameraGroupObs.cpp:CameraGroupObs::insertObjectObservation"]}
{"id": "C21", "title": "Choice of the object pair for non-overlapping groups", "statement": "For two camera groups, the pair of objects used is the one with most joint sightings over common frames, the lexicographically first among equals.", "quantifier": "all frame/observation histories", "why_tests_cant": "argmax over unbounded tables", "anchors": ["McCalib/src/McCalib.cpp:Calibration::findPairObjectForNonOverlap"]}
{"id": "C22", "title": "Hand-eye is attempted only with enough common poses", "statement": "A transform between two camera groups is recorded iff more than three common frames contain the chosen pair; its weight is the number of these frames; nothing is recorded otherwise.", "quantifier": "all histories", "why_tests_cant": "all counts", "anchors": ["McCalib/src/McCalib.cpp:Calibration::initNonOverlapPair"]}
{"id": "C23", "title": "Merging camera groups preserves the cameras", "statement": "Merging camera groups with the transforms found by the non-overlapping step never uses a missing group: it gives groups numbered from 0, one per class of observing groups joined by recorded transforms, each with exactly the cameras of its class, its least camera as reference at the identity, and every camera posed by its old pose composed with the transforms along a path, which is the direct one if the group has a recorded transform from the reference group itself; or it throws, which can happen only if a transform was recorded in one direction and not in the other (see C54).", "quantifier": "all consistent tables, all recorded transforms, all tie-breaks", "why_tests_cant": "all graphs and histories", "anchors": ["McCalib/src/McCalib.cpp:Calibration::mergeCameraGroup", "apps/calibrate/src/calibrate.cpp:runCalibrationWorkflow"]}
{"id": "C24", "title": "Merging objects preserves boards and structure", "statement": "After mergeObjects the objects partition exactly the boards of observed objects, the reference board is still the least board, point numbering is again a bijection, and exact inter-object poses give exact board poses.", "quantifier": "all objects, all inter-object graphs, all tie-breaks", "why_tests_cant": "all graphs", "anchors": ["McCalib/src/McCalib.cpp:Calibration::mergeObjects", "McCalib/src/McCalib.cpp:Calibration::initInterObjectsGraph"]}
{"id": "C25", "title": "Object observations after merging", "statement": "After merging objects each (camera,frame) should have one observation per merged object. The code rebuilds the observations of every object once per object: with n merged objects each observation appears n times (so it is right only for n = 1).", "quantifier": "all stores, all numbers of objects", "why_tests_cant": "all sizes", "anchors": ["McCalib/src/McCalib.cpp:Calibration::mergeAllObjectObs"]}
{"id": "C26", "title": "Pose of an object in a group frame", "statement": "The pose computed for an object in a group observation is that of the reference camera when it saw the object, else the mean over the observations; repeating the index list changes nothing.", "quantifier": "all group observations", "why_tests_cant": "all list shapes", "anchors": ["McCalib/src/CameraGroupObs.cpp:CameraGroupObs::computeObjectsPose"]}
{"id": "C27", "title": "Exact poses stay exact in the group frame", "statement": "If every object observation has the exact pose of the object seen from its camera and camera poses are exact then all pose-in-group values of one object in one frame agree and their pairwise object transforms are exact.", "quantifier": "all scenes", "why_tests_cant": "geometry unbounded", "anchors": ["McCalib/src/CameraGroup.cpp:CameraGroup::computeObjPoseInCameraGroup", "McCalib/src/McCalib.cpp:Calibration::computeObjectsPairPose"]}
{"id": "C28", "title": "Pose conversions and inversion", "statement": "Building a 4x4 projection from rotation and translation and splitting it again is the identity; inverting a pose twice gives it back; the inverse undoes the transformation of every point; composition corresponds to matrix product.", "quantifier": "all rotations, translations, points", "why_tests_cant": "infinite domain", "anchors": ["McCalib/src/geometrytools.cpp:RT2Proj", "McCalib/src/geometrytools.cpp:Proj2RT", "McCalib/src/geometrytools.cpp:invertRvecT", "McCalib/src/geometrytools.cpp:transform3DPts"]}
{"id": "C29", "title": "RANSAC pose estimation bookkeeping", "statement": "For every stream of random samples and every pose solver, RANSAC stops after at most the allowed trials, reports as inliers points whose reprojection error is below threshold for a tried model, no tried model had more inliers, and on fewer than four points the sampling reads out of range.", "quantifier": "all samples, solvers, data", "why_tests_cant": "randomised search over all schedules of samples", "anchors": ["McCalib/src/geometrytools.cpp:ransacP3P"]}
{"id": "C30", "title": "Outlier removal keeps pixels and ids aligned", "statement": "After pose estimation the kept pixel/id pairs are a sub-list of the previous pairs, at the inlier positions; the observation is marked invalid iff fewer than four are kept and never becomes valid again.", "quantifier": "all observations and inlier sets", "why_tests_cant": "all data", "anchors": ["McCalib/src/BoardObs.cpp:BoardObs::estimatePose", "McCalib/src/Object3DObs.cpp:Object3DObs::estimatePose"]}
{"id": "C31", "title": "Median", "statement": "median of a list is independent of its order, lies between minimum and maximum, has at least half of the values on either side, commutes with shift and positive scaling, equals the common value of constant lists, and is 0 for the empty list.", "quantifier": "all lists", "why_tests_cant": "all lengths and orders", "anchors": ["McCalib/src/geometrytools.cpp:median"]}
{"id": "C32", "title": "Quaternion conversions and rotation averaging", "statement": "Quaternion to matrix yields a rotation for unit quaternions, matrix to quaternion to matrix is the identity, a quaternion and its negation give the same matrix and the same averaging matrix, which does not depend on order.", "quantifier": "all rotations / lists of rotations", "why_tests_cant": "continuous domain", "anchors": ["McCalib/src/geometrytools.cpp:convertRotationMatrixToQuaternion", "McCalib/src/geometrytools.cpp:convertQuaternionToRotationMatrix", "McCalib/src/geometrytools.cpp:getAverageRotation"]}
{"id": "C33", "title": "Hand-eye consistency check", "statement": "The set-consistency error should measure how well the hand-eye transform explains the pose pairs. In the code it does not depend on the poses at all, only on the transform.", "quantifier": "all pose lists and transforms", "why_tests_cant": "for all data", "anchors": ["McCalib/src/geometrytools.cpp:checkSetConsistency"]}
{"id": "C34", "title": "Hand-eye bootstrap sampling", "statement": "Cluster indexes used by the bootstrap are in range and distinct only when there are at least six clusters; with four or five common poses the selection reads out of range. Poses selected are members of the chosen clusters.", "quantifier": "all counts, all shuffles", "why_tests_cant": "random shuffles", "anchors": ["McCalib/src/geometrytools.cpp:selectClusters", "McCalib/src/geometrytools.cpp:selectPoses", "McCalib/src/geometrytools.cpp:handeyeBootstraptTranslationCalibration"]}
{"id": "C35", "title": "Hand-eye fallback", "statement": "When at most three bootstrap rounds succeed the fallback should use both pose lists; the code passes the first list twice, so its result is independent of the second.", "quantifier": "all data", "why_tests_cant": "for all data", "anchors": ["McCalib/src/geometrytools.cpp:handeyeBootstraptTranslationCalibration"]}
{"id": "C36", "title": "Cost functions agree on one projection model", "statement": "The five cost functions compute, for consistent arguments, the same residual: projection with the declared distortion model minus observed pixel (for an unknown distortion model no residual is written); for the reference camera (board) the corresponding pose block has no influence.", "quantifier": "all parameter values", "why_tests_cant": "continuous domain", "anchors": ["McCalib/include/OptimizationCeres.h:ReprojectionError", "McCalib/include/OptimizationCeres.h:ReprojectionError_CameraGroupAndObjectRefAndIntrinsics"]}
{"id": "C37", "title": "Intrinsic parameter vector", "statement": "Setting the camera matrix then reading it back gives it back, likewise distortion, for both models; the two setters do not disturb each other.", "quantifier": "all matrices and distortion vectors, both models", "why_tests_cant": "continuous domain", "anchors": ["McCalib/src/Camera.cpp:Camera::getCameraMat", "McCalib/src/Camera.cpp:Camera::setCameraMat", "McCalib/src/Camera.cpp:Camera::setDistortionVector", "McCalib/src/Camera.cpp:Camera::getDistortionVectorVector"]}
{"id": "C38", "title": "fix_intrinsic is honoured", "statement": "With fix_intrinsic set the calibrate workflow leaves each camera's intrinsic parameters exactly as initialised; without it the bundle adjustments with intrinsics are run.", "quantifier": "all optimiser behaviours and data", "why_tests_cant": "must hold for any optimiser result", "anchors": ["apps/calibrate/src/calibrate.cpp:runCalibrationWorkflow", "McCalib/src/McCalib.cpp:Calibration::initIntrinsic"]}
{"id": "C39", "title": "Saved camera parameters", "statement": "The camera parameter file should contain every camera of every group with the inverse of its group pose. Only the first group is written since the file is released inside the loop; with a single group the property holds.", "quantifier": "all group tables", "why_tests_cant": "all sizes", "anchors": ["McCalib/src/McCalib.cpp:Calibration::saveCamerasParams"]}
{"id": "C40", "title": "Saved reprojection errors", "statement": "For each group the file's frame list should be that group's frames; the code never resets it, so group k's list also contains the frames of the earlier groups.", "quantifier": "all stores", "why_tests_cant": "all sizes", "anchors": ["McCalib/src/McCalib.cpp:Calibration::saveReprojectionErrorToFile"]}
{"id": "C41", "title": "Average reprojection error", "statement": "The reported average is the mean over observations of mean point distances: it lies between the smallest and largest point distance and is zero iff every point is reprojected exactly; with nothing to average it is undefined (0/0).", "quantifier": "all error tables", "why_tests_cant": "all sizes", "anchors": ["McCalib/src/McCalib.cpp:Calibration::computeAvgReprojectionError"]}
{"id": "C42", "title": "Charuco marker ids are disjoint between boards", "statement": "Marker ids of different generated boards never collide, ids of board k begin where those of board k-1 end (plus offset).", "quantifier": "all board counts and sizes", "why_tests_cant": "all sizes", "anchors": ["McCalib/src/utilities.cpp:createCharucoBoards"]}
{"id": "C43", "title": "Board geometry", "statement": "A board's model points are the inner corners of its grid, row-major, spaced by the square size, all distinct, their number (nx-1)(ny-1). The per-board sizes are honoured only if per-board square sizes are also given; a mismatch leads to out of range access.", "quantifier": "all sizes and configurations", "why_tests_cant": "all sizes", "anchors": ["McCalib/src/Board.cpp:Board::Board"]}
{"id": "C44", "title": "quaternion_averaging option", "statement": "The configured value of quaternion_averaging should select the averaging method; the key is misspelt in the reader so the option is always off.", "quantifier": "all configuration files", "why_tests_cant": "all configurations", "anchors": ["McCalib/src/McCalib.cpp:Calibration::Calibration"]}
{"id": "C45", "title": "Fisheye board border tolerance", "statement": "A board is used for fisheye initialisation only if all its points are at least the tolerance away from every image border.", "quantifier": "all boards, image sizes", "why_tests_cant": "all point sets", "anchors": ["McCalib/src/Camera.cpp:Camera::checkBorderToleranceFisheye"]}
{"id": "C46", "title": "Boards chosen for intrinsic initialisation", "statement": "For every shuffle the boards used for initialising intrinsics are distinct observations of that camera, at most 50 (500 for fisheye), all of them if there are fewer.", "quantifier": "all shuffles", "why_tests_cant": "random", "anchors": ["McCalib/src/Camera.cpp:Camera::initializeCalibration"]}
{"id": "C47", "title": "Patch interpolation stays in the image", "statement": "Sub-pixel patch interpolation never reads outside the image for any point, and returns failure whenever the patch would cross the border; inside, the value is the bilinear blend.", "quantifier": "all images, windows, points", "why_tests_cant": "memory safety for all inputs", "anchors": ["McCalib/include/point_refinement.h:interpolatePatch"]}
{"id": "C48", "title": "Saddle refinement outcome", "statement": "Each refined corner is either within the allowed drift of its initial position or marked infinite; the number and order of corners are unchanged; after the first infinite corner no later corner is updated.", "quantifier": "all images and corner sets", "why_tests_cant": "all data", "anchors": ["McCalib/include/point_refinement.h:saddleSubpixelRefinement", "McCalib/src/McCalib.cpp:Calibration::detectBoardsInImageWithCamera"]}
{"id": "C49", "title": "Smoothing kernel count", "statement": "The count of non-zero kernel weights should be the number of positive taps; the counter is read uninitialised so the behaviour is undefined.", "quantifier": "all window sizes", "why_tests_cant": "indeterminate value", "anchors": ["McCalib/include/point_refinement.h:initConeSmoothingKernel"]}
{"id": "C50", "title": "Camera folders and image filter", "statement": "Distinct cameras read distinct folders; exactly the files with one of the known extensions are used.", "quantifier": "all camera indexes, file names", "why_tests_cant": "all strings", "anchors": ["McCalib/src/McCalib.cpp:Calibration::detectBoards"]}
{"id": "C51", "title": "Refinements keep the gauge", "statement": "Bundle adjustments never change the pose of the reference camera of a group nor of the reference board of an object (both remain identity through the workflow).", "quantifier": "all optimiser results, all stages", "why_tests_cant": "invariant over every stage", "anchors": ["McCalib/src/CameraGroup.cpp:CameraGroup::refineCameraGroup", "McCalib/src/Object3D.cpp:Object3D::refineObject"]}
{"id": "C52", "title": "The stages of the calibration succeed and leave consistent tables", "statement": "For detections of existing cameras and boards, whatever the outlier removal and all numerical results (poses, averages, refinements, hand-eye transforms), building objects, building camera groups and merging objects succeeds; objects and groups are proper collections, an object observation exists exactly where a corner of the object was seen, group observations agree with object observations; the camera groups are the classes of cameras that saw, in common frames, boards linked by images showing two boards. The first merge of groups and the merge of objects after it succeed likewise, or throw only because of a one-directional transform.", "quantifier": "all detections, all numerical results, all tie-breaks", "why_tests_cant": "A composition of unbounded stages over every history and every solver behaviour.", "anchors": ["apps/calibrate/src/calibrate.cpp:runCalibrationWorkflow", "McCalib/src/McCalib.cpp:calibrate3DObjects", "McCalib/src/McCalib.cpp:calibrateCameraGroup", "McCalib/src/McCalib.cpp:merge3DObjects"]}
{"id": "C53", "title": "The second merge of camera groups", "statement": "calibrate merges camera groups twice, the second time with transforms recorded under the numbers the groups had before the first merge. If the transforms are symmetric the workflow ends normally or dereferences a null pointer, the latter iff some recorded pair is linked only to numbers that no merged group has; when it ends normally, merged groups are joined iff their new numbers are linked by pairs of old numbers, so unrelated cameras can be put in one group.", "quantifier": "all detections, all numerical results, all tie-breaks, any number of groups", "why_tests_cant": "Depends on the history of group numbers over unboundedly many groups.", "anchors": ["apps/calibrate/src/calibrate.cpp:runCalibrationWorkflow", "McCalib/src/McCalib.cpp:mergeCameraGroup", "McCalib/src/McCalib.cpp:initInterCamGroupGraph"]}
{"id": "C54", "title": "Transforms between groups are recorded in both directions", "statement": "If for any two groups with a joint sighting the most often jointly seen pair of objects is unique, transforms are recorded in both directions and the first merge of groups succeeds. With a tie they may be recorded in one direction only, and the calibration then throws.", "quantifier": "all detections, all numerical results", "why_tests_cant": "Holds for every history of sightings; the failing ones are rare ties.", "anchors": ["McCalib/src/McCalib.cpp:findPairObjectForNonOverlap", "McCalib/src/McCalib.cpp:initNonOverlapPair", "McCalib/src/McCalib.cpp:mergeCameraGroup"]}
{"id": "C55", "title": "Observations with few points left after outlier removal", "statement": "If, after the boards' poses were estimated and outliers removed, some camera has one to three points left of the boards of one object in some frame, the estimation of the object poses reads out of range; if there is no such view it succeeds. A board with no inlier at all keeps the uninitialised pose and still links boards into objects.", "quantifier": "all detections, solvers, shuffles, outlier patterns", "why_tests_cant": "depends on which points survive random sampling in every view", "anchors": ["McCalib/src/BoardObs.cpp:BoardObs::estimatePose", "McCalib/src/Object3DObs.cpp:Object3DObs::estimatePose", "McCalib/src/McCalib.cpp:Calibration::init3DObjectObs", "McCalib/src/McCalib.cpp:Calibration::computeBoardsPairPose"]}
{"id": "C56", "title": "Saved calibrated objects", "statement": "The file of calibrated objects has one entry per object; its point table has exactly one column per corner of the boards of the object, written once, holding the corner moved by the pose of its board in the object, with the board number and the corner number.", "quantifier": "all objects, all boards, all poses", "why_tests_cant": "Ranges over all object tables of any size and every pose.", "anchors": ["McCalib/src/McCalib.cpp:Calibration::save3DObj"]}
{"id": "C57", "title": "Saved object poses", "statement": "The file of object poses has one column per stored object observation, holding its pose in the camera. The observations rebuilt after a merge are stored once per object, so every image that shows an object then contributes as many equal columns as there are objects.", "quantifier": "all stores of observations, all merges", "why_tests_cant": "Depends on the history of merges, for stores of any size.", "anchors": ["McCalib/src/McCalib.cpp:Calibration::save3DObjPose", "McCalib/src/McCalib.cpp:Calibration::mergeAllObjectObs"]}
{"id": "C58", "title": "Printed boards are the ones looked for", "statement": "The boards printed by create_charuco_boards and those the calibration looks for, from the same configuration file and the same OpenCV version, have the same numbers of squares and the same marker ids, unless the file gives per-board heights without per-board widths or the like.", "quantifier": "all configuration files", "why_tests_cant": "all configurations, boards of all sizes", "anchors": ["apps/create_charuco_boards/src/create_charuco_boards.cpp:main", "McCalib/src/utilities.cpp:createCharucoBoards", "McCalib/src/McCalib.cpp:Calibration::Calibration"]}
{"id": "C59", "title": "Refinement is a least squares fit and exact on saddles", "statement": "The surface fitted to a patch is the unique quadratic surface with the smallest sum of squared differences; smoothing does not move a saddle; a corner at most one pixel from an exact, strong enough saddle of the input image is refined to the saddle exactly (if the uninitialised counter happens to be zero).", "quantifier": "all images, window sizes, corner positions", "why_tests_cant": "continuous domain, all images", "anchors": ["McCalib/include/point_refinement.h:saddleSubpixelRefinement", "McCalib/include/point_refinement.h:initSaddleFitting", "McCalib/include/point_refinement.h:initConeSmoothingKernel"]}
{"id": "C60", "title": "The calibration does not depend on the detection schedule", "statement": "Whatever the order in which the pool of threads stores the detections, the whole calibration yields the same objects (boards, poses, points), object observations (pixels, ids), camera groups, camera poses and group observations, or fails in the same way, provided pose estimation and the other numerical steps are functions of the data they are given.", "quantifier": "all configurations, images, detector outputs, interleavings of the detection tasks, numerical results", "why_tests_cant": "the number of interleavings is unbounded and a race shows up rarely", "anchors": ["McCalib/src/McCalib.cpp:Calibration::detectBoardsWithCamera", "McCalib/src/McCalib.cpp:Calibration::insertNewBoard", "apps/calibrate/src/calibrate.cpp:runCalibrationWorkflow"]}
{"id": "C61", "title": "Calibrating again from the saved keypoints", "statement": "The keypoint file written at the end of a run holds what outlier removal left of the detections. A run started from it behaves exactly as a run on these filtered detections; it fails while estimating board poses (reads out of range) iff the first run marked some board observation invalid, i.e. kept fewer than four of its points.", "quantifier": "all detections, outlier removals, saved files and later runs", "why_tests_cant": "all histories of two runs", "anchors": ["McCalib/src/McCalib.cpp:Calibration::saveDetectedKeypoints", "McCalib/src/McCalib.cpp:Calibration::loadDetectedKeypoints", "McCalib/src/BoardObs.cpp:BoardObs::estimatePose"]}
{"id": "C62", "title": "Refinements minimise exactly the reprojection errors", "statement": "Each refinement (intrinsics per camera, object, camera group, group with objects, group with objects and intrinsics) hands the optimiser one reprojection error per observed corner of exactly the observations in its scope, each at the composed poses of its camera, object and board, and nothing else; reading an observation that does not match the data is undefined. From the start to the end of a run the problem of every camera, object and group is solved, in this order, each once per step.", "quantifier": "all stores, scopes, poses and optimisers", "why_tests_cant": "all inputs", "anchors": ["McCalib/src/CameraGroup.cpp:CameraGroup::refineCameraGroup", "McCalib/src/CameraGroup.cpp:refineCameraGroupAndObjects", "McCalib/src/CameraGroup.cpp:refineCameraGroupAndObjectsAndIntrinsics", "McCalib/src/Object3D.cpp:refineObject", "McCalib/src/Camera.cpp:refineIntrinsicCalibration"]}
{"id": "C63", "title": "Saved object poses", "statement": "The object poses written to the result file are the poses estimated for each single observation before the final refinement, in the frame of the observing camera; no refinement changes them.", "quantifier": "all scenes, optimisers and histories of refinements", "why_tests_cant": "all inputs and optimisers", "anchors": ["McCalib/src/McCalib.cpp:Calibration::save3DObjPose", "McCalib/src/McCalib.cpp:Calibration::estimatePoseAllObjects"]}
{"id": "C64", "title": "Reprojection images", "statement": "For each camera and each frame in which it has a readable image, one image file is written, with a red circle where each seen corner is expected by the calibration and a green one where it was seen; the distances between them are the reported errors; no two images share a file.", "quantifier": "all scenes, image sets, cameras and frames", "why_tests_cant": "all inputs", "anchors": ["McCalib/src/McCalib.cpp:Calibration::saveReprojectionImages", "McCalib/src/CameraGroupObs.cpp:CameraGroupObs::updateObjObsPose"]}
{"id": "C65", "title": "Detection images", "statement": "For each camera and each frame in which it has a readable image, one image file is written, with a circle in the colour of the object at each corner seen by that camera in that frame and no other. At the end of any run of the calibration these are exactly the corners that the removal of outliers left.", "quantifier": "all scenes, image sets, cameras and frames", "why_tests_cant": "all inputs", "anchors": ["McCalib/src/McCalib.cpp:Calibration::saveDetectionImages"]}
{"id": "C66", "title": "Reprojection errors during the workflow", "statement": "The errors computed for boards, objects and camera groups are the mean distances between seen corners and projections; warnings are exactly the boards above ten pixels; but a board observation that loses all its points to outlier removal makes the initialisation of the intrinsics abort (OpenCV throws on an empty list) for a perspective camera.", "quantifier": "all observations, outlier removals, poses, cameras, with or without refinement of the intrinsics", "why_tests_cant": "all inputs and outcomes of the search", "anchors": ["McCalib/src/BoardObs.cpp:BoardObs::computeReprojectionError", "McCalib/src/Object3DObs.cpp:Object3DObs::computeReprojectionError", "McCalib/src/McCalib.cpp:Calibration::computeReproErrAllBoard", "McCalib/src/McCalib.cpp:Calibration::initIntrinsic", "McCalib/src/CameraGroup.cpp:CameraGroup::reproErrorCameraGroup"]}
{"id": "C67", "title": "Where the input comes from", "statement": "The program runs the calibration iff its first argument is an existing file with a non-empty name ending in .yml, and otherwise returns -1; keypoints are read from the keypoint file iff the option names an existing path, otherwise from the images; each detected observation belongs to an image of the folder of its camera, with its position in the sorted list as frame number; intrinsics come from the parameter file iff one is named, and a named file that is missing or not a .yml file does not stop the run but leaves the intrinsics unset and read.", "quantifier": "all arguments, file systems, options, detections and schedules of the tasks", "why_tests_cant": "all file names, file systems and schedules", "anchors": ["apps/calibrate/src/calibrate.cpp:main", "McCalib/src/McCalib.cpp:Calibration::boardExtraction", "McCalib/src/McCalib.cpp:Calibration::detectBoards", "McCalib/src/McCalib.cpp:Calibration::detectBoardsWithCamera", "McCalib/src/McCalib.cpp:Calibration::initializeCalibrationAllCam"]}
{"id": "C68", "title": "Triangulation", "statement": "Triangulation of exact pixels of one point, seen in different directions by at least two cameras without distortion, gives that point; with one view it throws, with fewer pixels or translations than rotations it reads out of range. The robust variant returns, for at least four views, a tried point with which the largest number of views agrees, or leaves the result as it was if no tried point agrees with any view; for exact pixels it gives the point; with two or three views it reads out of range.", "quantifier": "all numbers of views, poses, intrinsics, points, shuffles, stopping rules, thresholds", "why_tests_cant": "all geometries and random choices", "anchors": ["McCalib/src/geometrytools.cpp:triangulateNViewLinearEigen", "McCalib/src/geometrytools.cpp:ransacTriangulation", "McCalib/src/geometrytools.cpp:RVecT2ProjInt"]}
{"id": "C69", "title": "Data races between detection tasks", "statement": "In every execution of the detection tasks by any number of threads, the accesses to the tables of observations are ordered by happens-before, so free of data races; the parameters of the detector are written by every task without lock, so two threads with a readable image race on them, and this is the only data race.", "quantifier": "all numbers of threads, images, detections and interleavings", "why_tests_cant": "all schedules; a data race shows in few of them", "anchors": ["McCalib/src/McCalib.cpp:Calibration::detectBoardsInImageWithCamera", "McCalib/src/McCalib.cpp:Calibration::detectBoardsWithCamera"]}
{"id": "C70", "title": "Exact data give the true calibration", "statement": "If the observations are exact and every numerical part is exact on exact data (pose estimation, averages of equal poses, refinements that start at the true poses, hand-eye calibration), then the whole workflow succeeds and returns the true pose of every board in its object and of every camera in its group, and every corner is predicted at its true position in every camera. This holds when no composition order matters (C19, C80: in each group linked by common views there are at most two cameras or all cameras saw boards together with the first one at least twice, or poses commute), when no two such groups share exactly four or five frames (C34), when, if any two share six or more frames, the first shares six or more with each of the others, and the motions in these frames have no common axis, and when the transforms between groups are found in both directions (C54).", "quantifier": "all worlds of cameras, boards and motions, all detections, all numerics that are exact on exact data, all tie-breaks", "why_tests_cant": "all rigs, motions and detection patterns; synthetic tests check a few scenes up to a tolerance", "anchors": ["apps/calibrate/src/calibrate.cpp:runCalibrationWorkflow", "McCalib/src/McCalib.cpp:Calibration::calibrate3DObjects", "McCalib/src/McCalib.cpp:Calibration::calibrateCameraGroup", "McCalib/src/McCalib.cpp:Calibration::merge3DObjects", "McCalib/src/McCalib.cpp:Calibration::findPoseNoOverlapAllCamGroup", "McCalib/src/McCalib.cpp:Calibration::mergeCameraGroup"]}
{"id": "C71", "title": "No expired reference is followed", "statement": "The 3D objects, camera groups and their observations are destroyed and created anew each time objects or groups are merged, while boards, cameras, frames and observations keep non-owning references to them. Whatever the numerical parts find, and however often and in whatever order merge3DObjects and the merge of the camera groups are called after the first calibration, every reference that is followed is alive, it leads to the object or group listed under the number stored beside it, and none dangles between two calls. Between mergeObjects and mergeAllObjectObs, and between mergeCameraGroup and mergeAllCameraGroupObs, every such reference has expired.", "quantifier": "all scenes, all outcomes of the numerical parts, all histories of merges", "why_tests_cant": "all histories of creation and destruction; a dangling reference shows only where it is followed", "anchors": ["McCalib/src/McCalib.cpp:Calibration::mergeObjects", "McCalib/src/McCalib.cpp:Calibration::mergeAllObjectObs", "McCalib/src/McCalib.cpp:Calibration::mergeCameraGroup", "McCalib/src/McCalib.cpp:Calibration::mergeAllCameraGroupObs", "McCalib/include/McCalib.hpp:Calibration"]}
{"id": "C72", "title": "The error statistic is that of the calibration", "statement": "For a calibration that ends with one camera group, the script compute_error_statistic shows one bar per frame of the group, the mean over the cameras of the frame of their mean reprojection errors; if no camera sees two objects in a frame, the mean of the bars, weighted by the number of observations, is the average error the program reports. It stops with an exception for any other number of groups, for a camera number of 100 or more, and for a listed frame without observation; two objects seen by one camera in one frame make it count the first twice and skip the second.", "quantifier": "all calibrations and all reprojection errors", "why_tests_cant": "all results and all patterns of observations", "anchors": ["python_utils/compute_error_statistic.py:compute_error_statistic", "McCalib/src/McCalib.cpp:Calibration::saveReprojectionErrorToFile"]}
{"id": "C73", "title": "The error against the ground truth", "statement": "The script compute_pose_error_vs_gt prints, for a calibration with one group of all cameras and a ground truth of as many rigid poses, the means of the distances between the places, of the angles (in degrees, at most 180) of the turns between the orientations and of the absolute differences of the intrinsics; the rotation error is symmetric, does not depend on the frame, and is 0 exactly for equal rotations; all printed values are 0 exactly if result and ground truth agree. If a camera is missing in the file the script stops with an exception.", "quantifier": "all camera poses, intrinsics, ground truths", "why_tests_cant": "all rotations, including those by half a turn", "anchors": ["python_utils/compute_pose_error_vs_gt.py:compute_errors", "python_utils/compute_pose_error_vs_gt.py:read_est_results", "McCalib/src/McCalib.cpp:Calibration::saveCamerasParams"]}
{"id": "C74", "title": "Object drawn among the cameras", "statement": "The script display_cam_obj_pose draws object 0 for the first, the 51st, ... of its saved poses with all its points; but the saved pose is relative to the observing camera, while the cameras are drawn in the frame of the group: the object appears at its place if and only if the pose of the observing camera is the identity.", "quantifier": "all calibrations, objects that are not on a line, poses", "why_tests_cant": "all poses", "anchors": ["python_utils/display_cam_obj_pose.py:display_cam_obj_pose", "McCalib/src/McCalib.cpp:Calibration::save3DObjPose"]}
{"id": "C75", "title": "Drawing of an object, of the cameras and of the axes", "statement": "The script display_calib_object shows each board of object 0 with exactly its corners at their calibrated places. display_calib_cameras shows each camera turned and placed by the inverse of its pose in the group, with 23 lines; of these the third and the twentieth end at a wrong corner except for particular orientations. axis_equal_3d gives the three axes the same length and hides nothing that was shown.", "quantifier": "all calibrations, all poses and sizes of the drawn cameras, all axis limits", "why_tests_cant": "all poses", "anchors": ["python_utils/display_calib_object.py:display_calib_object", "python_utils/display_calib_cameras.py:plot_camera", "python_utils/display_calib_cameras.py:add_camera_to_subplot", "python_utils/utils.py:axis_equal_3d"]}
{"id": "C76", "title": "A run that ends leaves complete tables and correct reports", "statement": "If the whole calibration sequence of the program ends without error, then every board and every camera with a corner left after outlier removal is in an object and in a camera group, groups are numbered from 0, each kept corner, frame list and group list is complete and without repetition, and all reports (average reprojection error, reprojection error file, log, detection and reprojection images, parameter file, object file, object pose file) are written without error and say what the tables contain, each observation being counted once.", "quantifier": "all detections, all sets of outliers, all results of the numerical parts, all tie-breaks", "why_tests_cant": "all inputs and all outcomes of the numerical parts", "anchors": ["apps/calibrate/src/calibrate.cpp:runCalibrationWorkflow", "McCalib/src/McCalib.cpp:Calibration::mergeCameraGroup", "McCalib/src/McCalib.cpp:Calibration::mergeAllObjectObs", "McCalib/src/McCalib.cpp:Calibration::saveReprojectionErrorToFile", "McCalib/src/McCalib.cpp:Calibration::computeAvgReprojectionError", "McCalib/src/McCalib.cpp:Calibration::saveCamerasParams"]}
{"id": "C77", "title": "No corner is lost or invented between outlier removal and the end", "statement": "At the end of the calibration a corner of a board, seen at a pixel by a camera in a frame, is among the object observations, as a point of the object that contains its board, if and only if it was among the board observations left by outlier removal.", "quantifier": "all detections, outliers, numerical results, mergings of objects and groups", "why_tests_cant": "all histories of mergings", "anchors": ["apps/calibrate/src/calibrate.cpp:runCalibrationWorkflow", "McCalib/src/McCalib.cpp:Calibration::mergeCameraGroup", "McCalib/src/McCalib.cpp:Calibration::mergeAllObjectObs", "McCalib/src/McCalib.cpp:Calibration::merge3DObjects", "McCalib/src/McCalib.cpp:Calibration::calibrate3DObjects"]}
{"id": "C78", "title": "Cameras linked by common views end in one group and one parameter file", "statement": "If any two cameras with detections are linked by a chain of common views of linked boards, and some corner is left after outlier removal, then the run ends without error in exactly one camera group that has every camera with detections, and the parameter file lists every one of them with its parameters and its pose relative to the reference camera.", "quantifier": "all detections whose views link the cameras, all numerical results", "why_tests_cant": "all inputs, all numerical results", "anchors": ["apps/calibrate/src/calibrate.cpp:runCalibrationWorkflow", "McCalib/src/McCalib.cpp:Calibration::mergeCameraGroup", "McCalib/src/McCalib.cpp:Calibration::mergeAllObjectObs", "McCalib/src/McCalib.cpp:Calibration::saveCamerasParams", "McCalib/src/McCalib.cpp:Calibration::initCameraGroup"]}
{"id": "C79", "title": "Which measurements place a board and a camera", "statement": "The pose of a board in its 3D object (of a camera in its group) is the product, along a path from the reference board (camera), of the averages of all measured relative poses of two consecutive boards seen together in an image (cameras that saw a common object in a frame). Among all such paths the one taken has the fewest steps that rest on a single joint sighting; the average does not depend on the order of the sightings. The same holds for the merging of objects seen together in a frame by cameras of one group: the boards of an object are moved as a whole by such a product.", "quantifier": "all lists of stored observations, all measured poses, all tie-breaks of the shortest path search, all objects, boards, groups and cameras", "why_tests_cant": "a test fixes one co-visibility graph; the choice of path depends on the whole graph and on the truncation of the weights 1/n to integers", "anchors": ["McCalib/src/McCalib.cpp:initInterTransform", "McCalib/src/McCalib.cpp:initInterBoardsGraph", "McCalib/src/McCalib.cpp:initInterCamerasGraph", "McCalib/src/Graph.cpp:shortestPathBetween"]}
{"id": "C80", "title": "Direct measurements win", "statement": "A board seen together with the reference board in at least two images (or in one, when every other path has a step resting on a single image) is placed by the average of these joint sightings alone; likewise a camera that saw an object together with the reference camera at least twice, and with exact data its pose is then its true pose relative to the reference camera however large the group; likewise the boards of an object merged with one seen together with it at least twice. In general a shortest-path query returns the direct edge whenever no walk has a smaller sum of integer parts of weights.", "quantifier": "all call histories of the graph, all lists of observations, all poses and tie-breaks", "why_tests_cant": "ties between equally short paths are broken by the heap of the graph library; the claim holds for every tie-break and every graph", "anchors": ["McCalib/src/Graph.cpp:shortestPathBetween", "McCalib/src/McCalib.cpp:init3DObjects", "McCalib/src/McCalib.cpp:initCameraGroup"]}
{"id": "C81", "title": "With exact data the reports show no error", "statement": "If corners are detected exactly where the cameras see them and every numerical part is exact on exact data (under the conditions of C70), the program ends, writes all reports, and: the average reprojection error is 0, every distance in the file of reprojection errors and every mean in the log is 0, the pose of every camera in the parameter file is its true pose seen from the reference camera, and every corner in the file of objects has its true position seen from the reference board.", "quantifier": "all worlds of cameras, boards and motions, all detections, all exact numerics, all tie-breaks, with and without the final refinement of intrinsics", "why_tests_cant": "all rigs, motions and detection patterns; a wrong index or a missed composition anywhere between detection and report makes some distance non-zero in some scene", "anchors": ["apps/calibrate/src/calibrate.cpp:runCalibrationWorkflow", "McCalib/src/McCalib.cpp:Calibration::saveCamerasParams", "McCalib/src/McCalib.cpp:Calibration::save3DObj", "McCalib/src/McCalib.cpp:Calibration::saveReprojectionErrorToFile", "McCalib/src/McCalib.cpp:Calibration::computeAvgReprojectionError"]}
{"id": "C82", "title": "Where the results are", "statement": "If the output directory exists or its path does not end with a slash, and nothing of another kind stands where a result goes, then a run that reaches the reports leaves in that directory the camera parameters (under the configured name, or calibrated_cameras_data.yml), the objects, their poses, the reprojection errors and the detected keypoints under their fixed names, and every drawn image under Detection/ or Reprojection/, its camera and its frame; every other file is as before, and no directory disappears. The analysis script then finds its inputs if the default name is used and the ground truth is beside the directory; with another name it stops. Three silent losses are also theorems: a missing directory whose path ends with a slash (without images) receives nothing, a parameter file named like another report loses the camera parameters, and in neither case is an error reported.", "quantifier": "all file systems, output paths, names of the parameter file, report contents and sets of images", "why_tests_cant": "a test runs on one file system with one path; the claim is about every prior content of the disk and every path and name", "anchors": ["McCalib/src/McCalib.cpp:99-102 Calibration", "McCalib/src/McCalib.cpp:374-380 saveCamerasParams", "McCalib/src/McCalib.cpp:414-416 save3DObj", "McCalib/src/McCalib.cpp:455-458 save3DObjPose", "McCalib/src/McCalib.cpp:493-496 saveDetectedKeypoints", "McCalib/src/McCalib.cpp:1893-1909 saveReprojectionImages", "McCalib/src/McCalib.cpp:2005-2021 saveDetectionImages", "McCalib/src/McCalib.cpp:2251-2255 saveReprojectionErrorToFile", "python_utils/post_calibration_analysis.py:14-25"]}
{"id": "C83", "title": "When the whole calibration ends", "statement": "From stored detections of four or more corners each, with sound robust pose searches: if outlier removal leaves nothing of some view by a perspective camera, the calibration aborts with an exception; if every view keeps a corner but some camera keeps, in some frame, only one to three corners of a set of boards linked by common images, it reads out of range; otherwise it does exactly the sequence of stages of C52-C54 and C76-C78 on what is left, each stage working with the poses estimated from the tables as they stand when it begins. If moreover the cameras with detections are linked by common views of linked boards, it ends, with all of them in one group.", "quantifier": "all detections, board models, robust searches (what they remove and which pose they give), averages, refinements and tie-breaks", "why_tests_cant": "whether a run crashes depends on how many inliers the random search leaves in each view and on which boards are linked; tests see a few data sets and seeds", "anchors": ["apps/calibrate/src/calibrate.cpp:runCalibrationWorkflow", "McCalib/src/McCalib.cpp:Calibration::calibrate3DObjects", "McCalib/src/McCalib.cpp:Calibration::merge3DObjects", "McCalib/src/McCalib.cpp:Calibration::estimatePoseAllObjects", "McCalib/src/McCalib.cpp:Calibration::initIntrinsic", "McCalib/src/geometrytools.cpp:ransacP3P"]}
{"id": "C84", "title": "From exact pixels to exact results", "statement": "If every detected corner is at the pixel where its camera sees it, every detection has four or more corners and allows one pose of its board only, and the pose routines of the library are exact on exact data (some sample gives a model that fits all points, and refinement of a fitting model finds the pose that explains all), then the robust search removes no corner and gives the true pose for every view of a board, and for every view of an object at each stage; and if averages of equal poses are that pose and refinements and hand-eye calibration keep true poses, the whole calibration ends, with any number of groups of cameras that share no view, under the conditions of C70, writes all reports, their errors are all 0, and cameras and corners have their true positions. For boards linked by common images and cameras linked by common views, the condition on refinements is only that they give one set of true poses.", "quantifier": "all worlds of cameras, boards and motions, all projections, detections, libraries exact on exact data, tie-breaks, with and without refinements of intrinsics", "why_tests_cant": "a synthetic test has one rig and one motion; a mixed-up index, a point lost or a pose composed in the wrong order shows only in some of them", "anchors": ["McCalib/src/geometrytools.cpp:ransacP3P", "McCalib/src/geometrytools.cpp:ransacP3PDistortion", "McCalib/src/BoardObs.cpp:BoardObs::estimatePose", "McCalib/src/Object3DObs.cpp:Object3DObs::estimatePose", "apps/calibrate/src/calibrate.cpp:runCalibrationWorkflow"]}
{"id": "C85", "title": "From images to files, and from the keypoint file again", "statement": "If the detector finds exact corners, an image of every camera can be read, images link all boards and common views link all cameras, nothing is in the way of the output directory, and the numerical parts are exact on exact data, then a run of the program ends, whatever the order in which its detection threads insert boards. The output directory then holds every file of results, images included, and other files are unchanged; reported errors are 0; the camera file lists just the cameras with detections, in their true poses relative to the first; the object file lists each corner of each detected board once, in its true place relative to the first board; the error file has an entry for every detection. A second run that is given the keypoint file of this directory does not look at the images, ends too, with complete and true results of the same detections, even if it writes to the same directory, and leaves the same keypoint file.", "quantifier": "All numbers of cameras, boards and frames, all poses, all images, all schedules of the detection threads, all file systems in which the output directory can be written, all options of the second run.", "why_tests_cant": "A test runs one schedule on one data set and compares with tolerances; completeness of the directory, and agreement of the two runs, for all scenes, schedules and file systems cannot be tested.", "anchors": ["apps/calibrate/src/calibrate.cpp:9-85", "McCalib/src/McCalib.cpp: Calibration::boardExtraction", "McCalib/src/McCalib.cpp: Calibration::detectBoards", "McCalib/src/McCalib.cpp: Calibration::loadDetectedKeypoints", "McCalib/src/McCalib.cpp: Calibration::saveDetectedKeypoints"]}
{"id": "C86", "title": "Reproducible files", "statement": "Whatever the data: a run that ends has written all its results to the output directory, its keypoint file holds exactly the corners that the first estimation of the board poses kept, and the directory is ready for the next run. If the pose searches answer the same questions in the same way and the refinement does not depend on the order of its observations, then two runs from the same images leave the same files, whatever the order in which their detection threads insert boards (or neither ends). If moreover the first pose estimation, asked about the corners it has kept, keeps them and finds the same poses, then a second run that is given the keypoint file in the output directory ends and leaves every file of the file system as it is.", "quantifier": "All images and detections (also inexact or disconnected ones), all numerical parts that depend on their arguments only, all schedules of the detection threads of both runs, all configurations, all file systems in which the output directory can be written.", "why_tests_cant": "A test runs a handful of schedules on one data set; equality of all files for every schedule and every data set cannot be tested, and a schedule-dependent result may show up once in thousands of runs.", "anchors": ["apps/calibrate/src/calibrate.cpp:9-85", "McCalib/src/McCalib.cpp: Calibration::boardExtraction", "McCalib/src/McCalib.cpp: Calibration::detectBoardsWithCamera", "McCalib/src/McCalib.cpp: Calibration::loadDetectedKeypoints", "McCalib/src/McCalib.cpp: Calibration::saveDetectedKeypoints", "McCalib/src/McCalib.cpp: Calibration::initIntrinsic"]}
{"id": "C87", "title": "Interrupted runs", "statement": "Whenever a run is interrupted while it writes its results (between two operations, while it makes directories, or in the middle of a file, which may then contain anything): no file or directory is gone, and nothing is new or changed except the files of results and the directories for them. The next run finds nothing in its way. If the run is started again it leaves exactly the file system that it would have left without the interruption, also with another schedule of its threads. There is one exception: a run configured to read the keypoint file of its own output directory if it exists can be interrupted so that the next run takes the damaged file for its detections and does not look at the images.", "quantifier": "All crash points and all contents of a half-written file, all data, configurations and schedules, all file systems in which the output directory can be written.", "why_tests_cant": "There are as many crash points as write operations and as many damaged files as there are contents; tests would have to kill the program at each of them for each data set.", "anchors": ["apps/calibrate/src/calibrate.cpp:11,66-83", "McCalib/src/McCalib.cpp: Calibration::Calibration (99-102)", "McCalib/src/McCalib.cpp: Calibration::saveReprojectionImages", "McCalib/src/McCalib.cpp: Calibration::saveDetectionImages", "McCalib/src/McCalib.cpp: Calibration::boardExtraction", "McCalib/src/McCalib.cpp: Calibration::saveDetectedKeypoints"]}
{"id": "C88", "title": "Printing boards", "statement": "The program that prints boards returns -1, and touches nothing, exactly if it is not given one argument that names an existing `*.yml`. In all other cases it either fails (unreadable configuration, impossible board, picture that cannot be drawn) before anything is written, or returns 0; then, unless a file is named `charuco_boards`, there is a directory of that name in the working directory whose file `charuco_board_iii.bmp` is, for every i below the number of boards, the picture of board i with the squares and in the size the configuration asks for, and no other file or directory is new, changed or gone (also boards printed earlier under higher numbers stay). The pictures are those of the patterns that a calibration with the same configuration looks for. Printing again changes nothing. If a file is named `charuco_boards`, nothing is printed, and 0 is returned all the same.", "quantifier": "All argument lists, configurations and file systems, both versions of OpenCV.", "why_tests_cant": "A test prints one configuration in one directory; which files appear, and that none else changes, must hold for all numbers of boards, lists of sizes and contents of the working directory.", "anchors": ["apps/create_charuco_boards/src/create_charuco_boards.cpp: main", "apps/create_charuco_boards/src/create_charuco_boards.cpp: saveBoards", "McCalib/src/utilities.cpp: createCharucoBoardsImages", "McCalib/src/utilities.cpp: createCharucoBoards"]}
{"id": "C89", "title": "The files of results agree", "statement": "Whatever the data: after a run that ends, the files it has written fit together. Every corner in the keypoint file is a detected one, and has exactly one column in the file of objects. Objects are listed once, in the same order in the files of objects and of object poses, and an object has as many poses as there are images that show a corner of it (times the number of objects). In the file of reprojection errors groups are numbered from 0, each camera is in one group, no frame is listed twice, the images listed are exactly those with a corner in the keypoint file, and for each of them there is, object by object, one distance per corner in the keypoint file (all this repeated as many times as there are objects). Of the cameras listed there, the camera parameter file has exactly those of group 0, and gives them the image sizes of the keypoint file; both files give the same number of cameras.", "quantifier": "All images and detections (also inexact or disconnected ones), all numerical results, pose searches and refinements, all schedules of the detection threads, all configurations, and both sources of detections (images and keypoint files).", "why_tests_cant": "The files are written by different loops over different tables; that they count the same things for every data set, every outcome of outlier removal and every merge of groups and objects needs an invariant over the whole run.", "anchors": ["apps/calibrate/src/calibrate.cpp:9-85", "McCalib/src/McCalib.cpp: Calibration::saveDetectedKeypoints", "McCalib/src/McCalib.cpp: Calibration::saveCamerasParams", "McCalib/src/McCalib.cpp: Calibration::save3DObj", "McCalib/src/McCalib.cpp: Calibration::save3DObjPose", "McCalib/src/McCalib.cpp: Calibration::saveReprojectionErrorToFile"]}
{"id": "C90", "title": "A run that fails leaves nothing half-done in the way", "statement": "However a run of the calibrate program ends (normally, by an exception, or never), no file or directory that existed is gone, and nothing is new or changed except files at the places of results and the directories for them. A run that fails before its calibration is finished changes no file. The keypoint file is written last: if it was changed and every camera has images, the run succeeded. A failed run fails again in the same way when repeated, and never makes a later run fail or give other results. Exit status 0 means that all results were written; -1 means that the argument was not an existing .yml file and nothing was touched.", "quantifier": "all configurations, images, file systems, schedules of detection, points of failure, contents of half-written files, and later runs with the same output directory", "why_tests_cant": "A test fails at the points and on the file systems its author thought of; the claim is about every point of failure, every state of the disk and every later run.", "anchors": ["apps/calibrate/src/calibrate.cpp: runCalibrationWorkflow, main", "McCalib/src/McCalib.cpp: Calibration::Calibration, saveDetectionImages, saveReprojectionImages, saveCamerasParams, save3DObj, save3DObjPose, saveReprojectionErrorToFile, saveDetectedKeypoints"]}
{"id": "C91", "title": "Pose accessors return what was last stored", "statement": "In any sequence of calls on an object, a camera group or a group observation, each read of the pose of an id (vectors, matrix, rotation or translation) answers with the last pose written for that id, by vectors or by a matrix; a rigid matrix that was set is read back unchanged; writing one id changes no other and reading changes no answer. The pose of an id never set reads as the identity, and reading it creates an entry. The pose of an observation in its camera and in its group are kept apart; one that was never written cannot be read. Handing the poses of a group to its observations gives every living observation the pose of its own object and changes nothing else. A pose written as six floats is read back as the pose of the rounded numbers.", "quantifier": "all sequences of set and get calls, all ids, all poses, all roundings", "why_tests_cant": "A test tries a few calls in one order; the claim is about every history of calls and every pose.", "anchors": ["McCalib/src/Object3D.cpp: getBoardPoseVec, getBoardPoseMat, setBoardPoseVec, setBoardPoseMat, getBoardRotVec, getBoardTransVec", "McCalib/src/CameraGroup.cpp: getCameraPoseVec, setCameraPoseMat", "McCalib/src/CameraGroupObs.cpp: getObjectPoseVec, setObjectPoseMat, updateObjObsPose", "McCalib/src/BoardObs.cpp: getPoseVec, setPoseMat", "McCalib/src/Object3DObs.cpp: getPoseVec, setPoseInGroupVec, getPoseInGroupVec", "McCalib/src/geometrytools.cpp: vectorProj, ProjToVec"]}
{"id": "C92", "title": "From the configuration file to the run", "statement": "For every configuration the constructor accepts, the calibration program behaves as the whole-run workflow (C85-C90) with exactly the values of the file in exactly the places the code puts them: save path, file name of the camera results, flags for saving images, keypoint file, image folders, intrinsics file, boards, number of cameras. A configuration that is not accepted never ends well and leaves no file, at most the output directory; with a non-positive number of cameras or boards it leaves nothing at all. Two configurations that agree on the listed keys give the same run; any other key (for instance `quaternion_averaging` without the colon) has no effect, and leaving out a key is the same as giving it an empty or zero value of its type; save_detection and save_reprojection count only by being 1, fix_intrinsic and he_approach only by being 0. Without the flag, the folder of the images of that kind is left as it was. With a keypoint file, the keys about images and detection do not matter. Two configurations that differ only in where and what is saved give five result files with equal contents. An intrinsics file that is asked for but not available makes every run that detects a board fail, without leaving a file. The exit status is 0 iff the run on the configuration in the named file succeeded, and then the files are those of that run. Each value is used for what its key says: the boards looked for and calibrated have the numbers of squares and the square sizes of the file, corner (a, b) lying a squares to the right and b squares down.", "quantifier": "all configuration files (any values, of any type, for any keys), all states of the file system, all schedules of the detections, all numerical parts", "why_tests_cant": "tests run a handful of configuration files; that no other key has influence, and that options do not interact, is a statement about all pairs of files and all states of the disk", "anchors": ["McCalib/src/McCalib.cpp: Calibration::Calibration, Calibration::boardExtraction, Calibration::initializeCalibrationAllCam, Calibration::saveDetectionImages, Calibration::saveReprojectionImages", "apps/calibrate/src/calibrate.cpp: runCalibrationWorkflow, main"]}
{"id": "C93", "title": "Rigs without common views: from exact images to exact files", "statement": "Rigs of cameras, any number of them, look at a target of boards each, and no camera of one rig ever sees the target of another. If each rig has detections together with the first one in six or more frames, whose motions have no common axis, no two rigs have detections together in exactly four or five frames (the case of C34), and detections, pose estimation, refinement and hand-eye calibration are exact on exact data, then for every schedule of the detection threads the run ends and writes complete and true files: the parameter file has the pose of every camera of all rigs with respect to the first camera, the file of objects has one object with every corner of all targets once, at its true place with respect to the first board, every image with a detection has an entry in the error file, and all errors are 0. A second run from the keypoint file of the first gives the same results.", "quantifier": "all sets of detections of any number of rigs (any number of cameras, boards, frames, any numbering of cameras and boards between the rigs, any links inside the rigs), all groups of poses, all schedules of the detection threads, all directories, both values of fix_intrinsic", "why_tests_cant": "tests have a few recorded sequences; which objects and groups are found, in which order they are numbered and merged, and whether stale results of the pair search are used twice depends on the whole history of detections", "anchors": ["McCalib/src/McCalib.cpp: Calibration::calibrate3DObjects, Calibration::calibrateCameraGroup, Calibration::merge3DObjects, Calibration::findPairObjectForNonOverlap, Calibration::initNonOverlapPair, Calibration::findPoseNoOverlapAllCamGroup, Calibration::mergeCameraGroup", "apps/calibrate/src/calibrate.cpp: runCalibrationWorkflow"]}
{"id": "C94", "title": "A minority of wrong measurements is harmless", "statement": "The relative pose of two boards (cameras, objects) is averaged from all joint sightings. If more than half of the measurements are within a tolerance of the true pose in each of the six stored numbers, so is the average, however wrong the others are; with exact measurements in the majority for every pair of boards seen together, every board is at its true pose in its object, also after objects have been merged, and a camera with two or more joint sightings with the reference camera is at its true pose (or within the tolerance). Exactly half is not enough. Not protected are the translation of an object in a group, which is a mean (one wrong camera among n others moves it by its error over n + 1), and rotations near a half turn: measurements arbitrarily close to one half turn can average to the identity, because medians are taken of rotation vectors.", "quantifier": "all lists of measurements, all tolerances, all sets of detections, all wrong poses, all tie-breaks", "why_tests_cant": "tests have a few wrong poses at most; the claim is about every minority of arbitrary errors, and about the averages of every pair on every path", "anchors": ["McCalib/src/geometrytools.cpp:median", "McCalib/src/geometrytools.cpp:getAverageRotation", "McCalib/src/McCalib.cpp:Calibration::initInterTransform", "McCalib/src/CameraGroupObs.cpp:CameraGroupObs::computeObjectsPose", "McCalib/src/McCalib.cpp:Calibration::init3DObjects", "McCalib/src/McCalib.cpp:Calibration::initCameraGroup"]}
{"id": "C95", "title": "Noise in the initial structure grows at most linearly", "statement": "Let more than half of the measured relative poses of any two boards seen together be within δ of the true one in each of the six stored numbers (rotation vector and translation), and the n boards of an object be at most D apart. Then every point p of a board (|p| from its origin) is placed in the object at most (n - 1) √3 δ (1 + 2 D + |p|) from its true place. A camera with at least two joint sightings with the reference camera of its group, most of them within δ, sees every point p of the reference frame at most √3 δ (1 + |p|) from its true place. Two rotations are never further apart than their rotation vectors. If every camera of a group places an object within δ of a pose in each of the six numbers, the group places every point p of it at most √3 δ (1 + |p|) from where that pose has it. The average of rotations by quaternions turns every vector v at most 2 √3 α |v| away from where a rotation turns it that all averaged rotations are within α of, half turns included; so the hand-eye calibration with more than three accepted solutions is at most √3 δ + 2 √3 α |p| off at a point p, if all accepted solutions turn within α of the true pose and most have each coordinate of the translation within δ of its.", "quantifier": "all rigid poses over the reals, all noise levels and distances, all sets of detections, any chain of boards, all tie-breaks, all sets of accepted hand-eye solutions", "why_tests_cant": "a test samples one noise; the bound is for the worst noise and the worst chain", "anchors": ["McCalib/src/McCalib.cpp:Calibration::initInterTransform", "McCalib/src/McCalib.cpp:Calibration::init3DObjects", "McCalib/src/McCalib.cpp:Calibration::initCameraGroup", "McCalib/src/geometrytools.cpp:RVecT2Proj", "McCalib/src/geometrytools.cpp:Proj2RT", "McCalib/src/geometrytools.cpp:transform3DPts", "McCalib/src/geometrytools.cpp:getAverageRotation", "McCalib/src/geometrytools.cpp:handeyeBootstraptTranslationCalibration", "McCalib/src/CameraGroupObs.cpp:CameraGroupObs::computeObjectsPose"]}
{"id": "C96", "title": "The unit of length does not matter", "statement": "Multiply the configured size of the squares of all boards by k > 0 (give it in another unit) and leave the images alone. Then the same corners are accepted in every image; the calibration succeeds or fails as before, forms the same objects, camera groups and observations, and the reports hold the same intrinsics, images and reprojection errors; every reported translation and 3D point is k times the one before, every rotation is the same. The problems given to the optimiser have the same cost at corresponding parameters, so their optima correspond. The same holds for any other change of coordinates of poses and points that is compatible with products of poses and their action on points.", "quantifier": "all k > 0, all sets of detections and boards, all configurations, all runs including failing ones; library functions that do not depend on the unit of length", "why_tests_cant": "a test compares two runs on one data set; a constant with a hidden unit (a threshold, a step) shows only on data near it", "anchors": ["apps/calibrate/src/calibrate.cpp:runCalibrationWorkflow", "McCalib/src/McCalib.cpp:Calibration::detectBoardsInImageWithCamera", "McCalib/src/McCalib.cpp:Calibration::calibrate3DObjects", "McCalib/src/McCalib.cpp:Calibration::calibrateCameraGroup", "McCalib/src/McCalib.cpp:Calibration::merge3DObjects", "McCalib/src/McCalib.cpp:Calibration::initNonOverlapPair", "McCalib/src/geometrytools.cpp:ransacP3P", "McCalib/src/geometrytools.cpp:handeyeBootstraptTranslationCalibration", "McCalib/src/geometrytools.cpp:calcLinePara", "McCalib/src/OptimizationCeres.h:ReprojectionError"]}
{"id": "C97", "title": "The order of the images does not matter", "statement": "Renumber the images, in the same way for all cameras (rename the files so that they are listed in another order). Then the detections are the same up to the number of their image, whatever the thread schedules of the two runs; the objects have the same boards, points and poses; the object observations are the same up to order and image number; the camera groups have the same cameras and poses, also after objects and camera groups have been merged and, when the hand-eye calibration does not depend on the order of its pairs, joined; then the files of cameras and objects are the same, the average reprojection error is the same, and the file of reprojection errors has the same errors for every camera, image and group, under the new numbers of the images. If a stage fails, it fails in the same way.", "quantifier": "all permutations of the images, all images and configurations, all thread schedules of both runs, all tie-breaks; pose estimation and outlier removal that do not look at the number of the image", "why_tests_cant": "the number of orders is the factorial of the number of images, and the dependence could come from one order only", "anchors": ["McCalib/src/McCalib.cpp:Calibration::detectBoardsWithCamera", "McCalib/src/McCalib.cpp:Calibration::computeBoardsPairPose", "McCalib/src/McCalib.cpp:Calibration::initInterTransform", "McCalib/src/McCalib.cpp:Calibration::initInterBoardsGraph", "McCalib/src/McCalib.cpp:Calibration::init3DObjects", "McCalib/src/McCalib.cpp:Calibration::initAll3DObjectObs", "McCalib/src/McCalib.cpp:Calibration::computeCamerasPairPose", "McCalib/src/McCalib.cpp:Calibration::initInterCamerasGraph", "McCalib/src/McCalib.cpp:Calibration::initCameraGroup", "McCalib/src/McCalib.cpp:computeAvgReprojectionError", "McCalib/src/McCalib.cpp:saveReprojectionErrorToFile"]}
{"id": "C98", "title": "The detection ends, and inserts every detection once", "statement": "Whatever the threads of the detection pool do, they never block each other for ever: as long as the pool is not joined, some thread can go on; no execution has more than 3 steps per image, 3 per insertion and 1 per thread, and one that is over has exactly that many. At most one thread inserts at a time. When the pool is joined, every accepted detection was inserted exactly once, those of an image in the order of the boards; with one thread, in the order of the images; with enough threads, every such order is possible. The files left by the calibration do not depend on the number of threads.", "quantifier": "all numbers of images, detections and threads (at least one), all executions of the main thread and the workers", "why_tests_cant": "all schedules; a deadlock or a lost task shows in few of them", "anchors": ["McCalib/src/McCalib.cpp:Calibration::detectBoards", "McCalib/src/McCalib.cpp:Calibration::detectBoardsWithCamera", "McCalib/src/McCalib.cpp:Calibration::detectBoardsInImageWithCamera"]}
{"id": "C99", "title": "With exact images the analysis scripts report zero", "statement": "After a run on exact images (of linked cameras as in C85, or of rigs without common views as in C93), compute_error_statistic.py given the file of reprojection errors draws one bar of height 0 for each frame with a detection, and no others; and if every camera has a detection, compute_pose_error_vs_gt.py given the parameter file and a ground truth of as many rigid poses prints six numbers, all of them 0 exactly if the ground truth is that of the scene (the pose of each camera with respect to the first one, two axes reversed, and the intrinsics the run ended with).", "quantifier": "all scenes, exact detections and schedules as in C85 or C93 with at most 100 cameras, all ground truths", "why_tests_cant": "composes the whole program with the scripts, for all scenes", "anchors": ["python_utils/compute_error_statistic.py:compute_error_statistic", "python_utils/compute_pose_error_vs_gt.py:compute_pose_error_vs_gt", "apps/calibrate/src/calibrate.cpp:runCalibrationWorkflow"]}
{"id": "C100", "title": "Which boards end in one object", "statement": "At the end of every run that ends, a board belongs to an object iff it, or a board linked to it by images showing two boards, has a corner left by the removal of outliers, and then to exactly one; boards linked by images showing both, and by frames in which cameras linked by common views see both, belong to one object; boards of one object are linked by images showing both and by frames in which both are seen. If any two cameras with detections are linked, the run ends and two boards belong to one object exactly if they are linked by images or frames showing both, by any cameras.", "quantifier": "all lists of detections of existing cameras and boards, all removals of outliers, all numerical results", "why_tests_cant": "an equivalence between two closures, over all sets of detections and all numerical results", "anchors": ["McCalib/src/McCalib.cpp:init3DObjects", "McCalib/src/McCalib.cpp:initInterObjectsGraph", "McCalib/src/McCalib.cpp:merge3DObjects", "McCalib/src/McCalib.cpp:mergeObjects", "apps/calibrate/src/calibrate.cpp:runCalibrationWorkflow"]}
{"id": "C101", "title": "More images never separate", "statement": "If images are added (every detection is still made and every corner left is still left), cameras that were in one group, and boards that were in one object, after the joint calibration of cameras with common views, still are, whatever the numerical results of the two runs; boards that ended in one object of a run with linked cameras end in one object of every larger run that ends; if the cameras were linked and no detection of another camera is added, the larger run ends with one group of the same cameras; and if no board becomes usable that was not, the number of objects does not rise.", "quantifier": "all pairs of lists of detections one of which includes the other, all removals of outliers that keep the corners kept before, all numerical results of both runs", "why_tests_cant": "relates two runs on arbitrary inputs", "anchors": ["McCalib/src/McCalib.cpp:init3DObjects", "McCalib/src/McCalib.cpp:initCameraGroup", "McCalib/src/McCalib.cpp:merge3DObjects", "McCalib/src/McCalib.cpp:calibrateCameraGroup"]}
{"id": "C102", "title": "Cameras and boards that are never seen change nothing", "statement": "If the configuration has further cameras that detect nothing, and further boards that are never detected, numbered after the others, then the detections are stored as well and the calibration from them is the same: it fails in the same way or gives the same objects, observations, groups and poses; the files of objects, object poses and reprojection errors, the average error and the images are the same, no images are written for the further cameras, and the file of cameras differs only in the number of cameras.", "quantifier": "all lists of detections of existing cameras and boards, all numbers of further cameras and boards with any corners, all removals of outliers, all numerical results", "why_tests_cant": "relates runs on two configurations, for arbitrary inputs and numbers of unused cameras and boards", "anchors": ["McCalib/src/McCalib.cpp:insertNewBoard", "McCalib/src/McCalib.cpp:initInterBoardsGraph", "McCalib/src/McCalib.cpp:initInterCamerasGraph", "McCalib/src/McCalib.cpp:initCameraGroup", "McCalib/src/McCalib.cpp:saveCamerasParams", "McCalib/src/McCalib.cpp:save3DObj", "apps/calibrate/src/calibrate.cpp:runCalibrationWorkflow"]}
{"id": "C103", "title": "A camera file can be given back as intrinsics", "statement": "If cam_params_path names a camera parameter file and fix_intrinsic is set, every camera in the camera file of the run has the focal lengths, the principal point and the distortion coefficients that the given file has for it. So a run that is given the camera file of an earlier run over cameras of the same distortion models writes the same camera matrices and distortion vectors. If the given file lacks a camera, or has too few coefficients for its model (as after a run that left several groups of cameras), a run that detects a board does not end well and leaves no file.", "quantifier": "all configurations, disks, contents of the given camera file, earlier runs, orders of detection and numerical results", "why_tests_cant": "relates two arbitrary runs through a file, and says what happens for every content of that file", "anchors": ["McCalib/src/McCalib.cpp:initializeCalibrationAllCam", "McCalib/src/McCalib.cpp:saveCamerasParams", "McCalib/src/McCalib.cpp:initIntrinsic", "McCalib/src/Camera.cpp:setIntrinsics", "apps/calibrate/src/calibrate.cpp:runCalibrationWorkflow"]}
{"id": "C104", "title": "A camera is initialised from its own detections, in no preferred order", "statement": "The initial intrinsics of a camera, when they are computed from images, depend on its own detections, distortion model, image size and random shuffle only: detections of other cameras, and where they come among those of the camera, make no difference. If the detections of the camera are stored in another order, every result (or failure) that one shuffle gives is given by some shuffle of the other order. So all schedules of the detection threads allow the same initial intrinsics of all cameras.", "quantifier": "all lists of detections, all shuffles, all schedules of the detection threads, all cameras and results of the OpenCV calibration", "why_tests_cant": "ranges over all thread schedules and random shuffles and relates runs on different data", "anchors": ["McCalib/src/Camera.cpp:initializeCalibration", "McCalib/src/McCalib.cpp:initializeCalibrationAllCam", "McCalib/src/McCalib.cpp:detectBoards"]}
{"id": "C105", "title": "The program never hangs", "statement": "Whatever the arguments, the files there are, the configuration and what is seen in the images, main comes back: it returns a value, throws or has undefined behaviour, but it does not run for ever, provided that the optimisations and library calls it makes do not. In particular the path search between boards, cameras, objects or camera groups, which never ends for two that are not linked (C05), is never asked for two that are not linked, even if the tables are inconsistent; and the pose search and the hand-eye calibration end for every random choice.", "quantifier": "all arguments, file systems, configurations, images, detection orders, contents of the tables, random choices and results of the numerical parts", "why_tests_cant": "a hang is a statement about infinitely many steps, here for every input; a test can only time out", "anchors": ["apps/calibrate/src/calibrate.cpp:main", "McCalib/src/Graph.cpp:getPath", "McCalib/src/McCalib.cpp:init3DObjects", "McCalib/src/McCalib.cpp:initCameraGroup", "McCalib/src/McCalib.cpp:mergeCameraGroup", "McCalib/src/McCalib.cpp:mergeObjects", "McCalib/src/geometrytools.cpp:ransacP3P", "McCalib/src/geometrytools.cpp:handeyeBootstraptTranslationCalibration"]}
{"id": "C106", "title": "Two recordings of the same rig agree", "statement": "Two recordings of the same rigidly mounted cameras and the same body of boards, both exact and meeting the conditions of C70, give the same calibration: the poses of the cameras relative to each other and of the boards relative to each other are the same, whatever the numbers given to cameras and boards, the frames taken, the motion, which camera saw which board, the choice of world frame, and every random or arbitrary choice in the program. Cameras and boards whose references correspond get equal poses.", "quantifier": "all pairs of recordings (detections, numberings, motions), all numerical parts exact on exact data, all random draws and ties", "why_tests_cant": "it ranges over all pairs of runs with different inputs and choices", "anchors": ["McCalib/src/McCalib.cpp:calibrateCameraGroup", "McCalib/src/McCalib.cpp:initCameraGroup", "McCalib/src/McCalib.cpp:init3DObjects", "McCalib/src/McCalib.cpp:mergeCameraGroup", "apps/calibrate/src/calibrate.cpp:runCalibrationWorkflow"]}
{"id": "C107", "title": "The analysis script works on the results of a run", "statement": "After a run that ends and leaves its results under the default names, for at most 100 cameras, and with a ground truth of as many rigid poses beside the directory, post_calibration_analysis.py works to the end on the directory exactly if the reprojection error file has one group and the parameter file has all cameras. It then shows every camera (twice, once small and once large), the points of object 0 in every pose, each board of it, one bar for every frame of the group, and prints six numbers. If the cameras ended in several groups, or a camera is missing, it stops with an error. Several directories are analysed in order, exactly if the analysis of each works.", "quantifier": "all inputs (images, keypoints), all schedules, all answers of the numerical parts, all ground truths of the right length", "why_tests_cant": "it ranges over all results the program can leave behind", "anchors": ["python_utils/post_calibration_analysis.py:post_calibration_analysis", "python_utils/display_cam_obj_pose.py:display_cam_obj_pose", "python_utils/display_calib_cameras.py:display_calib_cameras", "python_utils/display_calib_object.py:display_calib_object", "python_utils/compute_error_statistic.py:compute_error_statistic", "McCalib/src/McCalib.cpp:saveReprojectionErrorToFile", "McCalib/src/McCalib.cpp:saveCamerasParams"]}
{"id": "C108", "title": "Where results are saved, and whether images are, does not matter", "statement": "If a run ends, so does the run with another save_path, another camera_params_file_name and other choices of save_detection and save_reprojection: it leaves, in the other place, the same files of camera parameters, objects, object poses, reprojection errors and keypoints, and its images, if asked for, are those of the same frames with the same circles. No choice of images changes a result or makes a run fail.", "quantifier": "all inputs, all schedules, all numerical results, all directories and names in which nothing is in the way, all choices of images", "why_tests_cant": "it relates any two configurations that differ in these values, on any data", "anchors": ["apps/calibrate/src/calibrate.cpp:runCalibrationWorkflow", "McCalib/src/McCalib.cpp:saveCamerasParams", "McCalib/src/McCalib.cpp:saveDetectionImages", "McCalib/src/McCalib.cpp:saveReprojectionImages", "McCalib/src/McCalib.cpp:saveReprojectionErrorToFile"]}
{"id": "C109", "title": "Figures lose nothing when their axes are made equal", "statement": "When a display script makes the axes of its figure equal, every point that was within the limits of the axes still is, also on an inverted axis; the three ranges get one length, that of the longest range before, around the same centers, and these limits are the only such ones; so equal differences take equal parts of their axes, whichever axes they are along. Doing it again changes nothing, and the limits move and scale with everything plotted.", "quantifier": "all limits of the three axes, all points, all translations and scales", "why_tests_cant": "it holds for every set of real limits and every point; a figure shows one", "anchors": ["python_utils/utils.py:axis_equal_3d", "python_utils/utils.py:prepare_figure"]}
{"id": "C110", "title": "displayBoards draws what was detected in the image, and nothing else", "statement": "displayBoards(image, cam, frame) draws on the image one filled circle for each point stored for that camera and that frame, at the point and in the colour of its board, in the order of insertion, and nothing if there is none. After a detection of all images it shows, for every order in which the tasks of the pool ran, exactly the points accepted in that image. Every place marked in a saved detection image of a run is marked by displayBoards too, and conversely if no outlier was removed there.", "quantifier": "all sequences of insertions, all cameras and frames, all schedules of the detection, all colours", "why_tests_cant": "it ranges over all histories of insertions and all interleavings of the tasks", "anchors": ["McCalib/src/McCalib.cpp:displayBoards", "McCalib/src/CameraObs.cpp:insertNewBoard", "McCalib/src/McCalib.cpp:insertNewBoard"]}
