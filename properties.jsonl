{"id": "C01", "title": "Data association is one-to-one", "statement": "When an Evaluator is built from a submission and a ground truth scene, then at every similarity threshold no ground truth element is matched to two detections and no detection to two ground truth elements.", "quantifier": "all submissions, ground truths, scores (ties included), similarity functions, threshold lists and matched pairs", "why_tests_cant": "Number of elements and the tie structure of scores and similarities are unbounded; a test samples a few scenes.", "anchors": ["sumo-api/sumo/metrics/evaluator.py:Evaluator._compute_agnostic_data_assoc", "sumo-api/sumo/metrics/evaluator.py:Evaluator._make_similarity_cache"]}
{"id": "C02", "title": "Every match meets its threshold and describes a real pair", "statement": "Every correspondence reported at threshold t joins a submitted element with a ground truth element whose shape similarity is at least t, and carries exactly that similarity, that detection's score and that ground truth element's evaluated flag.", "quantifier": "all scenes, similarity functions, thresholds and reported correspondences", "why_tests_cant": "Needs every pair of elements at every threshold after any number of cache edits by earlier thresholds.", "anchors": ["sumo-api/sumo/metrics/evaluator.py:Evaluator._make_similarity_cache", "sumo-api/sumo/metrics/evaluator.py:Evaluator._compute_agnostic_data_assoc", "sumo-api/sumo/metrics/evaluator.py:Corr"]}
{"id": "C03", "title": "Matching is greedy by score then by similarity, with no blocking pair", "statement": "At threshold t, if a detection and a ground truth element have similarity at least t and are not matched together, then either the detection is matched to an element at least as similar, or the ground truth element is matched to a detection with at least as high a score. In particular a detection stays unmatched only if all its feasible ground truth elements were taken by detections with at least as high a score.", "quantifier": "all scenes, thresholds and (detection, ground truth) pairs", "why_tests_cant": "A statement about the absence of any better pair in unboundedly many pairs.", "anchors": ["sumo-api/sumo/metrics/evaluator.py:Evaluator._compute_agnostic_data_assoc", "sumo-api/sumo/metrics/evaluator.py:sort_corrs_by_similarity"]}
{"id": "C04", "title": "The association is the unique greedy one", "statement": "With pairwise distinct scores and, per detection, distinct similarities, any one-to-one threshold-respecting assignment without a blocking pair equals the association the evaluator computes.", "quantifier": "all scenes with distinct scores/similarities and all candidate assignments", "why_tests_cant": "Uniqueness quantifies over all assignments (exponentially many).", "anchors": ["sumo-api/sumo/metrics/evaluator.py:Evaluator._compute_agnostic_data_assoc"]}
{"id": "C05", "title": "Association at one threshold does not depend on the other thresholds", "statement": "The association reported at threshold t is the same whichever other thresholds are in the settings and in whatever order the settings listed them: reusing the pruned similarity cache across thresholds never changes a result.", "quantifier": "all scenes, all threshold lists containing t", "why_tests_cant": "Correctness of the cache-reuse optimisation concerns every list of thresholds and every history of earlier prunings.", "anchors": ["sumo-api/sumo/metrics/evaluator.py:Evaluator.__init__", "sumo-api/sumo/metrics/evaluator.py:Evaluator._compute_agnostic_data_assoc"]}
{"id": "C06", "title": "Association does not depend on the order of elements in the scenes", "statement": "If scores are pairwise distinct and each detection's similarities are pairwise distinct, permuting the elements of either scene leaves the set of matched pairs unchanged at every threshold.", "quantifier": "all scenes and all permutations of their elements", "why_tests_cant": "Factorially many orders.", "anchors": ["sumo-api/sumo/metrics/evaluator.py:Evaluator._compute_agnostic_data_assoc", "sumo-api/sumo/metrics/evaluator.py:sort_corrs_by_similarity"]}
{"id": "C07", "title": "Category association is association restricted to the category", "statement": "For each configured category present in either scene, the category-aware association equals the category-agnostic association of the two scenes restricted to that category; so a category match always joins two elements of that category. It never raises on scenes whose keys are the element ids.", "quantifier": "all scenes, category lists, thresholds", "why_tests_cant": "Ranges over all partitions of scenes into categories and over all cache contents.", "anchors": ["sumo-api/sumo/metrics/evaluator.py:Evaluator._compute_category_data_assoc"]}
{"id": "C08", "title": "Only the ranking of detection scores matters for association", "statement": "Replacing every detection score by f(score) for a strictly increasing f changes no matched pair at any threshold.", "quantifier": "all scenes and all strictly increasing f", "why_tests_cant": "Infinitely many rescalings.", "anchors": ["sumo-api/sumo/metrics/evaluator.py:Evaluator._compute_agnostic_data_assoc"]}
{"id": "C09", "title": "Average precision lies in [0,1)", "statement": "compute_ap returns a value in [0,1) whenever the number of true positives does not exceed n_gt > 0.", "quantifier": "all match vectors, score vectors and n_gt, and every score-sorting permutation argsort may choose", "why_tests_cant": "Unbounded lengths and all tie-breaks of the sort.", "anchors": ["sumo-api/sumo/metrics/utils.py:compute_ap", "sumo-api/sumo/metrics/utils.py:compute_auc_ap"]}
{"id": "C10", "title": "Average precision equals the interpolated area formula", "statement": "compute_ap equals (1/n_gt) times the sum, over the true positives in score order, of the best precision attained at that rank or later.", "quantifier": "all match/score vectors, n_gt", "why_tests_cant": "The in-place backward loop must agree with the declarative formula at every length.", "anchors": ["sumo-api/sumo/metrics/utils.py:compute_auc_ap"]}
{"id": "C11", "title": "The returned precision-recall curve is interpolated and monotone", "statement": "The returned precision at rank i is the maximum raw precision at ranks >= i; precision is non-increasing, recall is non-decreasing and ends at TP/n_gt.", "quantifier": "all match/score vectors and ranks", "why_tests_cant": "Every position in every vector.", "anchors": ["sumo-api/sumo/metrics/utils.py:compute_auc_ap", "sumo-api/sumo/metrics/utils.py:compute_pr"]}
{"id": "C12", "title": "False positives never help and trailing ones never hurt", "statement": "Inserting a false positive anywhere in the ranking never increases AP, and appending false positives scored below every true positive leaves AP unchanged.", "quantifier": "all rankings, insertion points and numbers of added false positives", "why_tests_cant": "Unbounded positions and lengths.", "anchors": ["sumo-api/sumo/metrics/utils.py:compute_auc_ap"]}
{"id": "C13", "title": "Turning a false positive into a true positive never lowers AP", "statement": "Changing one 0 in det_matches into a non-zero value (scores and n_gt fixed) never decreases AP, and strictly increases the final recall.", "quantifier": "all match vectors and positions", "why_tests_cant": "Unbounded.", "anchors": ["sumo-api/sumo/metrics/utils.py:compute_auc_ap"]}
{"id": "C14", "title": "AP does not depend on the order in which detections are listed", "statement": "Permuting detections (matches and scores together) does not change AP when scores are pairwise distinct.", "quantifier": "all vectors and permutations, all admissible argsort results", "why_tests_cant": "Factorially many permutations; with ties the claim is false and depends on the unstable sort.", "anchors": ["sumo-api/sumo/metrics/utils.py:compute_auc_ap", "sumo-api/sumo/metrics/utils.py:compute_pr"]}
{"id": "C15", "title": "AP only depends on score ranking", "statement": "Replacing scores by f(score) with f strictly increasing does not change AP or the returned curve, whichever order the sort gives to ties.", "quantifier": "all vectors and strictly increasing f", "why_tests_cant": "Infinitely many rescalings.", "anchors": ["sumo-api/sumo/metrics/utils.py:compute_auc_ap"]}
{"id": "C16", "title": "Sampled precision is read off the curve to the right", "statement": "compute_pr with recall samples returns, at each sample r, the (interpolated) precision at the first rank whose recall is at least r, and 0 if the final recall is below r; interpolated sampled precision is non-increasing in r.", "quantifier": "all match/score vectors, n_gt, sample vectors", "why_tests_cant": "Unbounded vectors and arbitrary sample locations.", "anchors": ["sumo-api/sumo/metrics/utils.py:compute_pr"]}
{"id": "C17", "title": "AP of perfect, empty and all-wrong rankings", "statement": "If all detections are correct and there are n_gt of them, AP is n_gt/(n_gt+eps); with no true positive AP is 0; true positives ranked first give AP at least (TP/n_gt)*(1/(1+eps)).", "quantifier": "all n_gt and vector lengths", "why_tests_cant": "Unbounded lengths.", "anchors": ["sumo-api/sumo/metrics/utils.py:compute_auc_ap"]}
{"id": "C18", "title": "Shape score lies in [0,1)", "statement": "shape_score() is in [0,1) for every submission when the ground truth has an evaluated element and the threshold list is not empty; it is undefined (NaN) when no ground truth element is evaluated.", "quantifier": "all scenes, similarity functions, settings", "why_tests_cant": "Combines one-to-one matching and AP over all scenes.", "anchors": ["sumo-api/sumo/metrics/evaluator.py:Evaluator.shape_score"]}
{"id": "C19", "title": "shape_score honours the recall_samples setting", "statement": "The documented setting recall_samples (recall values where the PR curve is sampled for average precision) influences shape_score.", "quantifier": "all scenes and recall_samples settings", "why_tests_cant": "A claim over every pair of settings; one must show no pair of sample vectors ever matters.", "anchors": ["sumo-api/sumo/metrics/evaluator.py:Evaluator.shape_score", "sumo-api/sumo/metrics/utils.py:compute_ap"]}
{"id": "C20", "title": "Detections matched to unevaluated ground truth are ignored", "statement": "A detection whose match is a ground truth element with evaluated == False counts neither as correct nor as false positive in shape_score: deleting that detection together with that ground truth element leaves shape_score unchanged.", "quantifier": "all scenes and thresholds", "why_tests_cant": "All scenes; the deletion must not disturb the greedy matching of the others.", "anchors": ["sumo-api/sumo/metrics/evaluator.py:Evaluator.shape_score"]}
{"id": "C21", "title": "Semantics score is the mean of per-category AP and lies in [0,1)", "statement": "semantics_score() is the mean, over thresholds and configured categories with an evaluated ground truth element, of the AP of that category alone, and lies in [0,1).", "quantifier": "all scenes, category lists and thresholds", "why_tests_cant": "All partitions into categories.", "anchors": ["sumo-api/sumo/metrics/evaluator.py:Evaluator.semantics_score"]}
{"id": "C22", "title": "Perceptual score lies in [0,1]", "statement": "perceptual_score() is in [0,1] for every submission, provided the configured weights are non-negative and room_scale's weight is positive and every bounding box has non-negative volume.", "quantifier": "all scenes, settings, similarity functions", "why_tests_cant": "Real-valued sums over arbitrary scenes.", "anchors": ["sumo-api/sumo/metrics/evaluator.py:Evaluator.perceptual_score", "sumo-api/sumo/metrics/evaluator.py:Evaluator._perceptual_score_1", "sumo-api/sumo/metrics/evaluator.py:_gaussian_function"]}
{"id": "C23", "title": "A perfect submission gets perceptual score 1", "statement": "If every element is matched to a ground truth element with the same category, bounds and position, none is missed or extra, every ground truth floor is evaluated and the ground truth has a floor of positive area, the perceptual score is exactly 1 under the default means.", "quantifier": "all scenes", "why_tests_cant": "All scenes.", "anchors": ["sumo-api/sumo/metrics/evaluator.py:Evaluator._perceptual_score_1", "sumo-api/sumo/metrics/evaluator.py:Evaluator._room_scale"]}
{"id": "C24", "title": "Missing or hallucinating objects never raises the perceptual score", "statement": "For fixed matches and room scale, adding an id to missed or to extra never increases the perceptual score; the raw score drops by exactly weight times volume.", "quantifier": "all scenes and sets of missed and extra ids", "why_tests_cant": "All sets.", "anchors": ["sumo-api/sumo/metrics/evaluator.py:Evaluator._perceptual_score_1"]}
{"id": "C25", "title": "Pose error is infinite exactly when nothing evaluated was matched", "statement": "pose_error() returns (inf, inf) iff no evaluated correspondence exists at any threshold; otherwise both errors are finite and non-negative, and both are 0 when all matched elements have exactly the ground truth pose.", "quantifier": "all scenes and thresholds", "why_tests_cant": "All scenes.", "anchors": ["sumo-api/sumo/metrics/evaluator.py:Evaluator.pose_error"]}
{"id": "C26", "title": "Rotation error is a bounded distance", "statement": "rotation_error_1 lies in [0, pi], is 0 for a spherically symmetric ground truth element, is 0 when the detection has the ground truth rotation and no axis is cylindrical, and without symmetry is 0 only for equal rotations.", "quantifier": "all pairs of rotations and symmetries", "why_tests_cant": "A continuum of rotations.", "anchors": ["sumo-api/sumo/metrics/evaluator.py:Evaluator.rotation_error_1"]}
{"id": "C27", "title": "Rotation error ignores the declared two- and four-fold symmetries", "statement": "Rotating a detection about an axis of the object by any rotation generated by the declared twoFold/fourFold symmetries does not change rotation_error_1 (non-cylindrical symmetries).", "quantifier": "all rotations and all non-cylindrical symmetry values admitted by ObjectSymmetry", "why_tests_cant": "A continuum of rotations.", "anchors": ["sumo-api/sumo/metrics/evaluator.py:Evaluator.rotation_error_1", "sumo-api/sumo/metrics/evaluator.py:Evaluator.symmetric_rot", "sumo-api/sumo/semantic/object_symmetry.py:ObjectSymmetry"]}
{"id": "C28", "title": "Rotation error ignores a declared cylindrical symmetry", "statement": "If the ground truth declares cylindrical symmetry about an axis, a detection that differs from the ground truth only by a rotation about that axis has rotation error 0.", "quantifier": "all rotations and angles, each axis", "why_tests_cant": "A continuum of rotations and angles; fails at particular angles only.", "anchors": ["sumo-api/sumo/metrics/evaluator.py:Evaluator.cylindrical_symmetric_rot", "sumo-api/sumo/metrics/utils.py:matrix_to_euler", "sumo-api/sumo/metrics/utils.py:euler_to_matrix"]}
{"id": "C29", "title": "Room scale is the ratio of floor areas", "statement": "The room scale is the total submitted floor area over the total evaluated ground truth floor area, 0 when the latter is 0; it is unaffected by non-floor elements and by element order.", "quantifier": "all scenes and orders", "why_tests_cant": "Unbounded sums.", "anchors": ["sumo-api/sumo/metrics/evaluator.py:Evaluator._room_scale"]}
{"id": "C30", "title": "Point IoU is a symmetric similarity in [0,1]", "statement": "points_iou is in [0,1], is symmetric in its two arguments, is 1 for a non-empty set against itself with a threshold >= 0, and 0 when either set is empty.", "quantifier": "all finite point sets, boxes and thresholds", "why_tests_cant": "All point sets.", "anchors": ["sumo-api/sumo/metrics/utils.py:points_iou", "sumo-api/sumo/metrics/utils.py:nearest_neighbors"]}
{"id": "C31", "title": "The bounding-box quick rejection of points_iou is sound", "statement": "When points_iou returns 0 by comparing the bounding boxes, no point of one set is within the threshold of a point of the other, so the early exit never changes the value.", "quantifier": "all point sets with boxes containing them, all thresholds >= 0", "why_tests_cant": "All point sets and boxes.", "anchors": ["sumo-api/sumo/metrics/utils.py:points_iou"]}
{"id": "C32", "title": "The bounding-box track similarity is sound", "statement": "BBEvaluator's quick rejection returns 0 only if the posed boxes share no point, and the ratio it computes from the three volumes lies in [0,1] and is symmetric, whenever the intersection volume is at most either box volume.", "quantifier": "all poses and boxes", "why_tests_cant": "A continuum of poses and boxes.", "anchors": ["sumo-api/sumo/metrics/bb_evaluator.py:BBEvaluator._shape_similarity", "sumo-api/sumo/metrics/bb_evaluator.py:_bbox2pymesh"]}
{"id": "C33", "title": "VoxelEvaluator evaluates the submission against the ground truth", "statement": "VoxelEvaluator(submission, ground_truth) gives the scores of the submission with respect to the ground truth, as MeshEvaluator and BBEvaluator do.", "quantifier": "all voxel scenes", "why_tests_cant": "All scenes.", "anchors": ["sumo-api/sumo/metrics/voxel_evaluator.py:VoxelEvaluator.__init__"]}
{"id": "C34", "title": "RMS surface errors", "statement": "points_rmsssd is the mean over all (threshold, correspondence) pairs of the per-pair RMS distance (its cache never changes a value); it is infinite iff there is no correspondence, non-negative otherwise, and 0 when matched point sets coincide.", "quantifier": "all scenes, point sets and thresholds", "why_tests_cant": "Cache histories and point sets are unbounded.", "anchors": ["sumo-api/sumo/metrics/utils.py:points_rmsssd", "sumo-api/sumo/metrics/utils.py:color_rmsssd"]}
{"id": "C35", "title": "Pose3 is a group acting on points", "statement": "Pose composition is associative with Pose3() as identity and inverse() as two-sided inverse; transform_from of a composition is the composition of transform_from; transform_to inverts transform_from; transform_all_* act column-wise; matrix() turns composition into matrix product.", "quantifier": "all poses with orthogonal rotation and all points", "why_tests_cant": "A continuum of poses.", "anchors": ["sumo-api/sumo/geometry/pose3.pyx:Pose3.compose", "sumo-api/sumo/geometry/pose3.pyx:Pose3.inverse", "sumo-api/sumo/geometry/pose3.pyx:Pose3.transform_from", "sumo-api/sumo/geometry/pose3.pyx:Pose3.transform_to", "sumo-api/sumo/geometry/pose3.pyx:Pose3.transform_all_from", "sumo-api/sumo/geometry/pose3.pyx:Pose3.transform_all_to", "sumo-api/sumo/geometry/pose3.pyx:Pose3.__mul__", "sumo-api/sumo/geometry/pose3.pyx:Pose3.matrix"]}
{"id": "C36", "title": "Rotation constructors produce rotations", "statement": "Rx, Ry, Rz, ENU_camera, Maya_camera and products/inverses of rotations are proper rotations (orthogonal, determinant 1); angles add (Rz(a)Rz(b)=Rz(a+b)); unrotate inverts rotate; camera constructors map the optical axis to the documented heading. A rotation given by columns maps a vector to their combination by its coordinates, and is proper exactly if the columns are a right-handed orthonormal frame; a camera pose adds the given position.", "quantifier": "all angles, all rotations", "why_tests_cant": "A continuum.", "anchors": ["sumo-api/sumo/geometry/rot3.pyx:Rot3.Rx", "sumo-api/sumo/geometry/rot3.pyx:Rot3.Ry", "sumo-api/sumo/geometry/rot3.pyx:Rot3.Rz", "sumo-api/sumo/geometry/rot3.pyx:Rot3.ENU_camera", "sumo-api/sumo/geometry/rot3.pyx:Rot3.Maya_camera", "sumo-api/sumo/geometry/rot3.pyx:Rot3.inverse", "sumo-api/sumo/geometry/rot3.pyx:Rot3.unrotate"]}
{"id": "C37", "title": "Rotation representations convert back and forth", "statement": "For every rotation matrix M, quat_to_matrix(matrix_to_quat(M)) = M and matrix_to_quat returns a unit quaternion; euler_to_matrix(e) = quat_to_matrix(euler_to_quat(e)); euler_to_matrix(matrix_to_euler(M)) = M.", "quantifier": "all rotation matrices and Euler angles", "why_tests_cant": "Four branches and singular orientations inside a continuum.", "anchors": ["sumo-api/sumo/metrics/utils.py:matrix_to_quat", "sumo-api/sumo/metrics/utils.py:quat_to_matrix", "sumo-api/sumo/metrics/utils.py:quat_to_euler", "sumo-api/sumo/metrics/utils.py:euler_to_quat", "sumo-api/sumo/metrics/utils.py:euler_to_matrix", "sumo-api/sumo/metrics/utils.py:matrix_to_euler"]}
{"id": "C38", "title": "Poses survive serialisation", "statement": "Pose3.from_xml(pose.to_xml()), from_json(to_json) and from_surreal(to_surreal) return the pose; malformed documents raise.", "quantifier": "all poses and all documents", "why_tests_cant": "All numbers and all malformed trees.", "anchors": ["sumo-api/sumo/geometry/pose3.pyx:Pose3.to_xml", "sumo-api/sumo/geometry/pose3.pyx:Pose3.from_xml", "sumo-api/sumo/geometry/pose3.pyx:Pose3.to_json", "sumo-api/sumo/geometry/pose3.pyx:Pose3.from_json", "sumo-api/sumo/geometry/pose3.pyx:Pose3.to_surreal", "sumo-api/sumo/geometry/pose3.pyx:Pose3.from_surreal", "sumo-api/sumo/geometry/rot3.pyx:Rot3.to_xml", "sumo-api/sumo/geometry/rot3.pyx:Rot3.from_xml"]}
{"id": "C39", "title": "Box3d corners, volume and centre", "statement": "The eight corners() are exactly the vertices of the box, center() is their mean, volume() is non-negative and the product of the edge lengths for well-ordered corners, point_in_box holds exactly for points strictly between the corners, and the two constructor corners may be given in any order.", "quantifier": "all boxes and points", "why_tests_cant": "A continuum.", "anchors": ["sumo-api/sumo/threedee/box_3d.pyx:Box3d.__init__", "sumo-api/sumo/threedee/box_3d.pyx:Box3d.corners", "sumo-api/sumo/threedee/box_3d.pyx:Box3d.volume", "sumo-api/sumo/threedee/box_3d.pyx:Box3d.center", "sumo-api/sumo/threedee/box_3d.pyx:Box3d.point_in_box"]}
{"id": "C40", "title": "Box3d.merge is the least enclosing box", "statement": "merge(boxes) contains every box in the list and is contained in every box that does; hence independent of order and grouping.", "quantifier": "all non-empty lists of boxes", "why_tests_cant": "Unbounded lists.", "anchors": ["sumo-api/sumo/threedee/box_3d.pyx:Box3d.merge"]}
{"id": "C41", "title": "Computed bounding boxes are tight", "statement": "ComputeBbox.from_point_cloud/from_mesh/from_meshes/from_gltf_object return a box that contains every point and every face of which touches a point.", "quantifier": "all non-empty point clouds and all non-empty lists of non-empty meshes", "why_tests_cant": "Unbounded clouds.", "anchors": ["sumo-api/sumo/threedee/compute_bbox.pyx:ComputeBbox.from_point_cloud", "sumo-api/sumo/threedee/compute_bbox.pyx:ComputeBbox.from_mesh", "sumo-api/sumo/threedee/compute_bbox.pyx:ComputeBbox.from_meshes", "sumo-api/sumo/threedee/compute_bbox.pyx:ComputeBbox.from_gltf_object"]}
{"id": "C42", "title": "Boxes survive serialisation", "statement": "Box3d.from_xml(box.to_xml()) is the box, and from_xml raises on documents lacking a corner.", "quantifier": "all boxes and documents", "why_tests_cant": "All numbers and trees.", "anchors": ["sumo-api/sumo/threedee/box_3d.pyx:Box3d.to_xml", "sumo-api/sumo/threedee/box_3d.pyx:Box3d.from_xml"]}
{"id": "C43", "title": "A box converts to a closed, outward mesh", "statement": "Box3d.to_mesh gives 12 triangles whose oriented edges cancel in pairs, each lying in a face of the box with its normal pointing outward (inward if requested).", "quantifier": "all boxes of positive size", "why_tests_cant": "A continuum of boxes.", "anchors": ["sumo-api/sumo/threedee/box_3d.pyx:Box3d.to_mesh", "sumo-api/sumo/threedee/box_3d.pyx:_to_mesh_helper"]}
{"id": "C44", "title": "Voxel indices and linear indices correspond one-to-one", "statement": "Linearising a voxel index and vectorising it back is the identity for every voxel inside a grid whose x and y sizes have a product below 2^31, and distinct in-grid voxels get distinct linear indices.", "quantifier": "all grid sizes and voxels", "why_tests_cant": "Unbounded grid sizes.", "anchors": ["sumo-api/sumo/threedee/voxel_grid.py:VoxelGrid._linearize", "sumo-api/sumo/threedee/voxel_grid.py:VoxelGrid._vectorize"]}
{"id": "C45", "title": "Adding points occupies exactly the cells that contain points", "statement": "After add_points on a fresh grid the occupied voxels are exactly the cells (axis-aligned cubes of the voxel size from the minimum corner) containing at least one point, without duplicates, as long as the x and y extents in cells have a product below 2^31.", "quantifier": "all finite point sets, grid corners and voxel sizes", "why_tests_cant": "Unbounded point sets.", "anchors": ["sumo-api/sumo/threedee/voxel_grid.py:VoxelGrid.add_points"]}
{"id": "C46", "title": "Adding points repeatedly occupies the union", "statement": "After any sequence of add_points calls the occupied voxels are exactly those of adding all points at once.", "quantifier": "all sequences of point sets", "why_tests_cant": "Unbounded histories.", "anchors": ["sumo-api/sumo/threedee/voxel_grid.py:VoxelGrid.add_points"]}
{"id": "C47", "title": "Rejected points leave the grid unchanged", "statement": "add_points raises ValueError when a point lies below the grid's minimum corner on some axis, and then the grid is unchanged; it does not raise otherwise (for non-empty input less than 2^31 cells away).", "quantifier": "all grids and point sets", "why_tests_cant": "Unbounded.", "anchors": ["sumo-api/sumo/threedee/voxel_grid.py:VoxelGrid.add_points"]}
{"id": "C48", "title": "Voxel bounds contain the points", "statement": "bounds() contains every point added, and voxel_centers() are within half a voxel (per axis) of some added point; each added point is within half a voxel of some centre.", "quantifier": "all grids built by one add", "why_tests_cant": "Unbounded point sets.", "anchors": ["sumo-api/sumo/threedee/voxel_grid.py:VoxelGrid.bounds", "sumo-api/sumo/threedee/voxel_grid.py:VoxelGrid.voxel_centers"]}
{"id": "C49", "title": "Voxel grids survive save and load", "statement": "Loading a saved grid gives the same occupied voxels, centers and bounds.", "quantifier": "all grids", "why_tests_cant": "Unbounded.", "anchors": ["sumo-api/sumo/threedee/voxel_grid.py:VoxelGrid.save", "sumo-api/sumo/threedee/voxel_grid.py:VoxelGrid.from_file"]}
{"id": "C50", "title": "Voxelizer accepts everything it samples", "statement": "Voxelizer.run on a non-empty sampled model spanning fewer than 2^31 voxels per axis never has its points rejected by the grid it creates.", "quantifier": "all models", "why_tests_cant": "Unbounded.", "anchors": ["sumo-api/sumo/threedee/voxelizer.pyx:Voxelizer.run"]}
{"id": "C51", "title": "Mesh.merge is disjoint union", "statement": "After m.merge(m2, k) vertices are m's followed by m2's from k on, each triangle of m is unchanged and each triangle of m2 refers to the same coordinates as before when its vertices are not among the common first k (or those k coincide); index bounds are preserved.", "quantifier": "all meshes and numbers of common vertices", "why_tests_cant": "Unbounded meshes.", "anchors": ["sumo-api/sumo/threedee/Mesh.cpp:Mesh::merge", "sumo-api/sumo/threedee/TexturedMesh.cpp:TexturedMesh::merge"]}
{"id": "C52", "title": "TexturedMesh.renumber preserves geometry", "statement": "renumber changes vertex numbering only: every triangle keeps its coordinates, normals and uv.", "quantifier": "all meshes, orderings and numbers of renumbered vertices", "why_tests_cant": "Unbounded meshes and permutations.", "anchors": ["sumo-api/sumo/threedee/TexturedMesh.cpp:TexturedMesh::renumber"]}
{"id": "C53", "title": "merge_quadrant_meshes joins four quadrants without moving a vertex", "statement": "Merging four quadrant meshes that share border vertices keeps every triangle's coordinates.", "quantifier": "all quadruples of meshes", "why_tests_cant": "Unbounded meshes.", "anchors": ["sumo-api/sumo/threedee/textured_mesh.pyx:TexturedMesh.merge_quadrant_meshes"]}
{"id": "C54", "title": "Mesh clean-up removes exactly the offending triangles", "statement": "cleanup_long_edges and cleanup_edges_to_origin keep, in order, exactly the triangles all of whose edges are short enough / none of whose vertices is the origin, and are idempotent.", "quantifier": "all meshes and thresholds", "why_tests_cant": "Unbounded.", "anchors": ["sumo-api/sumo/threedee/Mesh.cpp:Mesh::cleanupLongEdges", "sumo-api/sumo/threedee/Mesh.cpp:Mesh::cleanupEdgesToOrigin"]}
{"id": "C55", "title": "Face and vertex normals", "statement": "Face normals are orthogonal to the face and equivariant under rotation; estimate_normals gives each vertex the (normalised) sum of the normals of its incident faces.", "quantifier": "all meshes", "why_tests_cant": "Unbounded.", "anchors": ["sumo-api/sumo/threedee/Mesh.cpp:Mesh::CalculateFaceNormals", "sumo-api/sumo/threedee/Mesh.cpp:Mesh::EstimateNormals"]}
{"id": "C56", "title": "Point cloud merge concatenates", "statement": "Merging point clouds concatenates points and colors so that point i keeps its color; mixed colored/uncolored merges are refused.", "quantifier": "all sequences of clouds", "why_tests_cant": "Unbounded sequences.", "anchors": ["sumo-api/sumo/threedee/point_cloud.pyx:PointCloud.merge", "sumo-api/sumo/threedee/point_cloud.pyx:PointCloud.append", "sumo-api/sumo/threedee/PointCloud.h:PointCloud"]}
{"id": "C57", "title": "Mesh sampling covers every triangle and stays on it", "statement": "Sampling gives every triangle at least one sample and every sample is a convex combination of its triangle's corners, for all random draws in [0,1].", "quantifier": "all meshes, densities and random numbers", "why_tests_cant": "All random draws.", "anchors": ["sumo-api/sumo/metrics/mesh_evaluator.py:sample_mesh", "sumo-api/sumo/threedee/model_sampler.pyx:ModelSampler._sample_mesh"]}
{"id": "C58", "title": "replaceGeometry keeps meshes well-formed", "statement": "Mesh/TexturedMesh replace_geometry makes the mesh's geometry that of the argument while material and textures stay.", "quantifier": "all meshes", "why_tests_cant": "Unbounded.", "anchors": ["sumo-api/sumo/threedee/Mesh.cpp:Mesh::replaceGeometry", "sumo-api/sumo/threedee/TexturedMesh.cpp:TexturedMesh::replaceGeometry"]}
{"id": "C59", "title": "ObjectSymmetry accepts exactly the documented combinations", "statement": "The constructor accepts a triple of symmetries iff it satisfies the documented rules, and raises ValueError otherwise; equality is equality of the three fields.", "quantifier": "all triples of symmetry values", "why_tests_cant": "Rules versus a hand-written table: needs all combinations.", "anchors": ["sumo-api/sumo/semantic/object_symmetry.py:ObjectSymmetry.__init__", "sumo-api/sumo/semantic/object_symmetry.py:ObjectSymmetry.is_valid", "sumo-api/sumo/semantic/object_symmetry.py:_valid_symmetries"]}
{"id": "C60", "title": "Symmetry survives serialisation and malformed symmetry is reported", "statement": "from_xml(to_xml(s)) = s, and from_xml raises ValueError on unknown or inadmissible symmetry names.", "quantifier": "all symmetries and all documents", "why_tests_cant": "All malformed documents.", "anchors": ["sumo-api/sumo/semantic/object_symmetry.py:ObjectSymmetry.from_xml", "sumo-api/sumo/semantic/object_symmetry.py:ObjectSymmetry.to_xml", "sumo-api/sumo/semantic/object_symmetry.py:ObjectSymmetry.from_strings"]}
{"id": "C61", "title": "Objects survive save and load", "statement": "Loading a saved object gives an object with the same id, category, pose, symmetry, score, evaluated flag and shape; missing id is reported as ValueError.", "quantifier": "all objects and documents", "why_tests_cant": "All field values and documents.", "anchors": ["sumo-api/sumo/semantic/project_object.py:ProjectObject.save", "sumo-api/sumo/semantic/project_object.py:ProjectObject.load", "sumo-api/sumo/semantic/project_object.py:ProjectObject._to_xml", "sumo-api/sumo/semantic/project_object.py:ProjectObject._parse_xml"]}
{"id": "C62", "title": "Object dictionaries survive save and load", "statement": "Loading a saved ProjectObjectDict whose keys are the ids of its elements gives the same keys and elements in the same order.", "quantifier": "all dictionaries", "why_tests_cant": "Unbounded.", "anchors": ["sumo-api/sumo/semantic/project_object_dict.py:ProjectObjectDict.save", "sumo-api/sumo/semantic/project_object_dict.py:ProjectObjectDict.load"]}
{"id": "C63", "title": "Scenes survive save and load", "statement": "ProjectScene.load(ProjectScene.save) gives the same project type, settings and elements, also for scenes produced by transform_pose.", "quantifier": "all scenes", "why_tests_cant": "Unbounded.", "anchors": ["sumo-api/sumo/semantic/project_scene.py:ProjectScene.save", "sumo-api/sumo/semantic/project_scene.py:ProjectScene.load", "sumo-api/sumo/semantic/project_scene.py:ProjectScene.transform_pose"]}
{"id": "C64", "title": "Scene transform_pose is a group action that keeps everything else", "statement": "scene.transform_pose(p).transform_pose(q) = scene.transform_pose(q p); identity acts trivially; ids, order, category, bounds, score and settings are unchanged; p then inverse restores the scene.", "quantifier": "all scenes and poses", "why_tests_cant": "A continuum of poses and unbounded scenes.", "anchors": ["sumo-api/sumo/semantic/project_scene.py:ProjectScene.transform_pose", "sumo-api/sumo/semantic/project_object.py:ProjectObject.transform_pose"]}
{"id": "C65", "title": "Project conversion keeps identity, pose and annotation", "statement": "ProjectConverter.run yields a scene of the target type with the same ids, poses, categories, symmetries, scores, evaluated flags and equal but independent settings; disallowed conversions raise.", "quantifier": "all scenes and target types", "why_tests_cant": "Unbounded.", "anchors": ["sumo-api/sumo/semantic/project_converter.py:ProjectConverter.run", "sumo-api/sumo/semantic/project_converter.py:ProjectConverter.convert_element"]}
{"id": "C66", "title": "GLB files are well formed", "statement": "export_string produces header, JSON chunk and BIN chunk with correct magic, version, lengths and 4-byte alignment, from which header and body are recovered by a conforming parser.", "quantifier": "all JSON headers and bodies", "why_tests_cant": "All lengths.", "anchors": ["sumo-api/sumo/threedee/glb_converter.pyx:Body.export_string"]}
{"id": "C67", "title": "gltf2glb preserves buffer and image data", "statement": "After conversion each buffer view denotes the same bytes as in the original gltf and each image its own file's bytes; views do not overlap images.", "quantifier": "all gltf documents", "why_tests_cant": "Unbounded numbers of buffers and views.", "anchors": ["sumo-api/sumo/threedee/glb_converter.pyx:gltf2glb", "sumo-api/sumo/threedee/glb_converter.pyx:BodyEncoder.add_to_body"]}
{"id": "C68", "title": "GltfModel returns the meshes that were added", "statement": "After any sequence of add_primitive_mesh/add_textured_primitive_mesh calls, extracting mesh i returns the i-th added mesh's indices, vertices, normals (uv) and material; out-of-range requests raise.", "quantifier": "all sequences of meshes", "why_tests_cant": "Unbounded histories over a shared byte buffer.", "anchors": ["sumo-api/sumo/threedee/GltfModel.cpp:GltfModel::addPrimitiveMesh", "sumo-api/sumo/threedee/GltfModel.cpp:GltfModel::extractPrimitiveMesh", "sumo-api/sumo/threedee/GltfModel.cpp:GltfModel::pushData", "sumo-api/sumo/threedee/GltfModel.cpp:GltfModel::numPrimitiveMeshes"]}
{"id": "C69", "title": "Accessor min/max bound the data", "statement": "The min/max stored with an accessor are the componentwise minimum and maximum of the data.", "quantifier": "all data vectors", "why_tests_cant": "All values including those beyond the initial sentinels.", "anchors": ["sumo-api/sumo/threedee/GltfModel.cpp:completeAccessor"]}
{"id": "C70", "title": "Inverse depth coding", "statement": "Depth to inverse depth code and back: all codes decode into [min_depth, max_depth] or invalid, encoding of decoding is the identity on codes, quantisation is monotone and its error is within half a code.", "quantifier": "all depths, codes and ranges", "why_tests_cant": "A continuum of depths.", "anchors": ["sumo-api/sumo/geometry/inverse_depth.pyx:depth_of_inverse_depth", "sumo-api/sumo/geometry/inverse_depth.pyx:inverse_depth_of_depth", "sumo-api/sumo/geometry/inverse_depth.pyx:depth_of_uint8", "sumo-api/sumo/geometry/inverse_depth.pyx:uint8_inverse_depth_of_depth", "sumo-api/sumo/geometry/inverse_depth.pyx:uint16_map_of_uint8_inverse_depth_map"]}
{"id": "C71", "title": "Multi-page TIFF round trip", "statement": "Saving a valid page map and loading it returns the same pages (depth up to inverse-depth quantisation), and invalid page maps are rejected before anything is written.", "quantifier": "all page maps", "why_tests_cant": "All subsets of pages and image contents.", "anchors": ["sumo-api/sumo/images/rgbd_tiff.pyx:load", "sumo-api/sumo/images/rgbd_tiff.pyx:save", "sumo-api/sumo/images/rgbd_tiff.pyx:_validate", "sumo-api/sumo/images/RgbdTiff.cpp:readRgbdTiff", "sumo-api/sumo/images/RgbdTiff.cpp:writeRgbdTiff"]}
{"id": "C72", "title": "ColoredCategory lookups are total on known ids and raise otherwise", "statement": "category_id_to_rgb returns the color of a known id and the documented error for any other id; name lookup agrees with id lookup.", "quantifier": "all tables and ids", "why_tests_cant": "All ids.", "anchors": ["sumo-api/sumo/base/colored_category.pyx:ColoredCategory.category_id_to_rgb", "sumo-api/sumo/base/colored_category.pyx:ColoredCategory.category_name_to_rgb", "sumo-api/sumo/base/colored_category.pyx:ColoredCategory.convert_to_rgb_im"]}
{"id": "C73", "title": "Cube map unprojection is consistent across faces", "statement": "Every pixel of a cubemap image unprojects to a ray on the surface of the unit cube through the face the pixel lies on; distinct interior pixels give distinct rays, and rays agree along shared seams.", "quantifier": "all image sides and pixels", "why_tests_cant": "All sides and pixel positions.", "anchors": ["sumo-api/sumo/images/CubeMap.h:CubeMap.unproject", "sumo-api/sumo/images/CubeMap.h:CubeMap.sensorOfPixel"]}
{"id": "C74", "title": "Point clouds from range images", "statement": "create_point_cloud emits, in raster order, exactly one point per pixel of valid range at exactly that distance from the camera along the pixel's ray with the pixel's color (and zero/black points for the others if all_points).", "quantifier": "all range and color images", "why_tests_cant": "All images.", "anchors": ["sumo-api/sumo/images/Rgbdci360.cpp:createPointCloud", "sumo-api/sumo/images/Rgbdci360.cpp:pointFromRange"]}
{"id": "C75", "title": "Interrupted downloads are resumed, not trusted", "statement": "After any sequence of runs of the dataset downloader interrupted at any point, a finished run leaves every requested archive fully extracted and never treats a partial file as complete.", "quantifier": "all crash points, failure patterns and restart histories", "why_tests_cant": "All crash points and histories.", "anchors": ["tools/download_sumo_datasets.py:download_one", "tools/download_sumo_datasets.py:unzip_one", "tools/download_sumo_datasets.py:get_zip_file_count", "tools/download_sumo_datasets.py:download_zips_in_parallel", "tools/download_sumo_datasets.py:unzip_files_in_parallel"]}
{"id": "C76", "title": "The bounding-box track measures the volume of the box", "statement": "The solid that BBEvaluator builds from an element's bounding box is that box: its surface lies on the six faces of the posed box and its volume is the box's volume.", "quantifier": "all boxes and poses", "why_tests_cant": "A continuum of boxes; sanity tests compare two identical solids, so a wrong solid cancels out.", "anchors": ["sumo-api/sumo/metrics/bb_evaluator.py:_bbox2pymesh", "sumo-api/sumo/threedee/box_3d.pyx:Box3d.corners"]}
{"id": "C77", "title": "Surface errors ignore unevaluated ground truth", "statement": "rms_points_error and rms_color_error, like the other metrics, only take correspondences with evaluated ground truth elements into account.", "quantifier": "all scenes", "why_tests_cant": "All scenes.", "anchors": ["sumo-api/sumo/metrics/utils.py:points_rmsssd", "sumo-api/sumo/metrics/utils.py:color_rmsssd"]}
{"id": "C78", "title": "Evaluator construction leaves the caller's settings alone", "statement": "Building an evaluator with a settings dict does not change the dict in a way that influences later evaluators: evaluating a second time with the same dict gives the same associations, and all entries but the order of the thresholds are unchanged.", "quantifier": "all settings and scenes", "why_tests_cant": "All settings.", "anchors": ["sumo-api/sumo/metrics/evaluator.py:Evaluator.__init__"]}
{"id": "C79", "title": "Sampled mesh colors come from the texture at the uv coordinate", "statement": "A point sampled from a textured mesh gets the color of the texel at column u*width and row v*height of the texture; for every uv in [0,1] the lookup is inside the image.", "quantifier": "all textures and uv coordinates", "why_tests_cant": "All image sizes and uv.", "anchors": ["sumo-api/sumo/metrics/mesh_evaluator.py:sample_mesh"]}
{"id": "C80", "title": "Empty meshes do not affect computed bounding boxes", "statement": "ComputeBbox.from_meshes and from_gltf_object of a list of meshes return the tight box of all the vertices, also when some of the meshes have no vertices.", "quantifier": "all mesh lists with at least one vertex", "why_tests_cant": "All mesh lists, including ones with empty members.", "anchors": ["sumo-api/sumo/threedee/compute_bbox.pyx:ComputeBbox.from_meshes", "sumo-api/sumo/threedee/compute_bbox.pyx:ComputeBbox.from_point_cloud"]}
{"id": "C81", "title": "Unreadable voxel files are reported as IOError", "statement": "VoxelGrid.load/from_file of a file that cannot be read, and save to a place that cannot be written, raise IOError as documented.", "quantifier": "all file systems and file names", "why_tests_cant": "All failure points.", "anchors": ["sumo-api/sumo/threedee/voxel_grid.py:VoxelGrid.load", "sumo-api/sumo/threedee/voxel_grid.py:VoxelGrid.save"]}
{"id": "C82", "title": "Textured merge keeps texture coordinates", "statement": "TexturedMesh.merge keeps, besides position and normal, the texture coordinate of every triangle corner of both meshes; the textures are those of the first mesh.", "quantifier": "all textured meshes the constructor accepts, all numbers of common vertices", "why_tests_cant": "All meshes, including ones with fewer texture coordinates than vertices.", "anchors": ["sumo-api/sumo/threedee/TexturedMesh.cpp:TexturedMesh::merge", "sumo-api/sumo/threedee/textured_mesh.pyx:TexturedMesh.merge"]}
{"id": "C83", "title": "Mesh.transform is a rigid motion", "statement": "Mesh/TexturedMesh transform and rotate move every corner by the pose and turn its normal, keep triangles, texture coordinates and textures, compose like poses, and can be undone.", "quantifier": "all meshes, poses and rotations", "why_tests_cant": "All meshes and all poses.", "anchors": ["sumo-api/sumo/threedee/mesh.pyx:Mesh.transform", "sumo-api/sumo/threedee/mesh.pyx:Mesh.rotate", "sumo-api/sumo/threedee/textured_mesh.pyx:TexturedMesh.transform"]}
{"id": "C84", "title": "Copying and transforming a mesh keeps its material", "statement": "Copying, transforming or rotating a mesh gives a mesh with the same material (has_same_material).", "quantifier": "all meshes and poses", "why_tests_cant": "All materials.", "anchors": ["sumo-api/sumo/threedee/Mesh.h:Mesh", "sumo-api/sumo/threedee/mesh.pyx:Mesh.transform", "sumo-api/sumo/threedee/textured_mesh.pyx:TexturedMesh.transform"]}
{"id": "C85", "title": "Mesh.example is a closed cube", "statement": "Mesh.example(length, inward) is a closed surface of 12 triangles around the cube of that side length centred at the origin, with volume length^3 and the requested orientation.", "quantifier": "all lengths and both orientations", "why_tests_cant": "All lengths.", "anchors": ["sumo-api/sumo/threedee/Mesh.cpp:Mesh::Example", "sumo-api/sumo/threedee/mesh.pyx:Mesh.example"]}
{"id": "C86", "title": "TexturedMesh.cube is a closed inward cube with its faces laid out in the texture", "statement": "TexturedMesh.cube(texture) is a closed surface of 12 triangles around the cube with corners at plus or minus 1; winding and normals point inward; texture coordinates are in [0,1] and face i uses the i-th sixth of the texture.", "quantifier": "all textures with width 6 times the height", "why_tests_cant": "All texture sizes.", "anchors": ["sumo-api/sumo/threedee/textured_mesh.pyx:TexturedMesh.cube"]}
{"id": "C87", "title": "Mesh.cube is a closed cube", "statement": "Mesh.cube returns the same cube as TexturedMesh.cube, without texture.", "quantifier": "all calls", "why_tests_cant": "The result depends on uninitialised memory.", "anchors": ["sumo-api/sumo/threedee/mesh.pyx:Mesh.cube"]}
{"id": "C88", "title": "has_dual_texture_material reflects the textures given", "statement": "A newly built TexturedMesh has a dual texture material exactly when a metallic/roughness texture was given; merge and renumber do not change that.", "quantifier": "all textured meshes", "why_tests_cant": "All meshes and operation sequences.", "anchors": ["sumo-api/sumo/threedee/TexturedMesh.cpp:TexturedMesh::hasDualTextureMaterial", "sumo-api/sumo/threedee/TexturedMesh.cpp:TexturedMesh::TexturedMesh"]}
{"id": "C89", "title": "Inverse depth boundaries are as documented", "statement": "As documented, converting a depth <= 0 to inverse depth raises, and every depth greater than near * PIXEL_MAX yields 0.", "quantifier": "all depths and near planes", "why_tests_cant": "All depths at and around the boundaries.", "anchors": ["sumo-api/sumo/geometry/inverse_depth.pyx:inverse_depth_of_depth", "sumo-api/sumo/geometry/inverse_depth.pyx:inverse_depth_map_of_depth_image"]}
{"id": "C90", "title": "The documented category table format loads", "statement": "A category table in the CSV layout shown in the documentation of ColoredCategory loads, and gives every category its colour.", "quantifier": "all category tables", "why_tests_cant": "All tables.", "anchors": ["sumo-api/sumo/base/colored_category.pyx:ColoredCategory"]}
{"id": "C91", "title": "Transforming and thinning point clouds keeps colours with their points", "statement": "transform_from/transform_to move every point by the pose and keep order and colours, undo each other; thin picks existing points with their own colours.", "quantifier": "all clouds, poses and random draws", "why_tests_cant": "All clouds and all poses and draws.", "anchors": ["sumo-api/sumo/threedee/point_cloud.pyx:PointCloud.transform_from", "sumo-api/sumo/threedee/point_cloud.pyx:PointCloud.transform_to", "sumo-api/sumo/threedee/point_cloud.pyx:PointCloud.thin"]}
{"id": "C92", "title": "Mesh samples are uniformly distributed over each triangle", "statement": "With independent uniform random numbers, the points sampled from a triangle are uniformly distributed over it: every region is hit with probability proportional to its area.", "quantifier": "all triangles, all measurable sets of random draws", "why_tests_cant": "A statement about a measure; sampling can only estimate it.", "anchors": ["sumo-api/sumo/metrics/mesh_evaluator.py:sample_mesh", "sumo-api/sumo/threedee/model_sampler.pyx:_sample_mesh"]}
{"id": "C93", "title": "ModelSampler and the evaluator sample alike", "statement": "For every model and the same random draws ModelSampler.run returns the same N x 6 array as the mesh evaluator's sampling of the model at the identity pose.", "quantifier": "all models and draws", "why_tests_cant": "All models.", "anchors": ["sumo-api/sumo/threedee/model_sampler.pyx:ModelSampler.run", "sumo-api/sumo/metrics/mesh_evaluator.py:sample_element"]}
{"id": "C94", "title": "A failed scene save leaves nothing behind", "statement": "ProjectScene.save either writes the complete scene or leaves the file system as it was; it never changes another project or overwrites an existing one.", "quantifier": "all scenes, file systems and failure points", "why_tests_cant": "All failure points.", "anchors": ["sumo-api/sumo/semantic/project_scene.py:ProjectScene.save"]}
{"id": "C95", "title": "almost_equal recognises a reloaded copy", "statement": "An object dictionary is almost_equal to what is loaded after saving it, and almost_equal does not depend on which of the two is asked.", "quantifier": "all dictionaries of savable objects", "why_tests_cant": "All objects; rounding in files against comparison tolerance.", "anchors": ["sumo-api/sumo/semantic/project_object.py:ProjectObject.almost_equal", "sumo-api/sumo/semantic/project_object_dict.py:ProjectObjectDict.almost_equal"]}
{"id": "C96", "title": "Changing the settings of one scene does not change another", "statement": "Writing to scene.settings affects only that scene.", "quantifier": "all histories of creating, loading and changing scenes", "why_tests_cant": "All histories.", "anchors": ["sumo-api/sumo/semantic/project_scene.py:ProjectScene.__init__", "sumo-api/sumo/semantic/project_scene.py:DEFAULT_SETTINGS"]}
{"id": "C97", "title": "update_materials gives every mesh the requested material", "statement": "After update_materials(colours or pictures) every primitive mesh has exactly the requested colour or texture as its base colour, and a wrong number of entries or an undecodable picture is refused.", "quantifier": "all models and material lists", "why_tests_cant": "All models, all colours.", "anchors": ["sumo-api/sumo/threedee/GltfModel.cpp:GltfModel::updateMaterials"]}
{"id": "C98", "title": "has_same_material compares the whole material", "statement": "has_same_material holds exactly for meshes whose materials have the same name and parameters, including numbers and colours.", "quantifier": "all pairs of meshes", "why_tests_cant": "All parameter maps.", "anchors": ["sumo-api/sumo/threedee/Mesh.cpp:Mesh::hasSameMaterial"]}
{"id": "C99", "title": "save_as_glb writes the file the caller named and nothing else", "statement": "save_as_glb(path) leaves the GLB file at path as seen from the caller's working directory, restores the working directory whatever happens and leaves no temporary folder behind.", "quantifier": "all paths, file systems, failure points", "why_tests_cant": "All paths, all failure points.", "anchors": ["sumo-api/sumo/threedee/gltf_model.pyx:GltfModel.save_as_glb", "sumo-api/sumo/threedee/gltf_model.pyx:GltfModel.save_as_gltf"]}
{"id": "C100", "title": "Loading any TIFF file returns images or raises", "statement": "rgbd_tiff.load of any file, whatever its pages, names and metadata, returns images or raises a Python exception; it never crashes or corrupts the interpreter.", "quantifier": "all files: all numbers of pages, sample layouts, page names, descriptions", "why_tests_cant": "All malformed files.", "anchors": ["sumo-api/sumo/images/rgbd_tiff.pyx:load", "sumo-api/sumo/images/RgbdTiff.cpp:readRgbdTiff", "sumo-api/sumo/images/RgbdTiff.cpp:readImage"]}
{"id": "C101", "title": "A point cloud survives PLY files", "statement": "Loading the PLY file written for a point cloud gives the same points in the same order (rounded to single precision) and the same colours, for every cloud including the empty one.", "quantifier": "all point clouds", "why_tests_cant": "All clouds; the file format is produced and parsed byte by byte.", "anchors": ["sumo-api/sumo/threedee/point_cloud.pyx:PointCloud.save", "sumo-api/sumo/threedee/point_cloud.pyx:PointCloud.load", "sumo-api/sumo/threedee/point_cloud_ply.pyx:load_ply", "sumo-api/sumo/threedee/point_cloud_ply.pyx:write_ply", "sumo-api/sumo/threedee/point_cloud_ply_c.cpp:writePointsAndColors"]}
{"id": "C102", "title": "Any well-formed binary PLY file loads with its own points", "statement": "load_ply of any well formed PLY file with a vertex element having x, y, z returns exactly the stored coordinates, whatever the byte order, the type and order of the columns and whatever other elements, properties and lists the file has.", "quantifier": "all well formed PLY files", "why_tests_cant": "All headers, column orders, types and byte orders.", "anchors": ["sumo-api/sumo/threedee/point_cloud_ply_c.cpp:readPoints", "sumo-api/sumo/threedee/tinyply/tinyply.cpp:PlyFile::read", "sumo-api/sumo/threedee/tinyply/tinyply.cpp:PlyFile::parse_data_internal"]}
{"id": "C103", "title": "A missing or damaged PLY file is reported as a Python exception", "statement": "load_ply of a file that is missing, has no vertex element or has lost its end raises a Python exception; it neither ends the process nor returns made-up points.", "quantifier": "all files", "why_tests_cant": "All damaged files, all truncation points.", "anchors": ["sumo-api/sumo/threedee/point_cloud_ply_c.cpp:readPoints", "sumo-api/sumo/threedee/point_cloud_ply.pyx:load_ply"]}
{"id": "C104", "title": "Writing a point cloud as PLY never reads outside it", "statement": "write_ply of any cloud that can be made with the API writes it or raises; it never reads memory outside the cloud and never ends the process.", "quantifier": "all clouds, all histories making them", "why_tests_cant": "All histories of clouds.", "anchors": ["sumo-api/sumo/threedee/point_cloud_ply_c.cpp:writePointsAndColors", "sumo-api/sumo/threedee/PointCloud.cpp:PointCloud::append", "sumo-api/sumo/threedee/point_cloud_ply.pyx:write_ply"]}
{"id": "C105", "title": "create_point_cloud returns a cloud or raises", "statement": "For every colour and range image create_point_cloud returns a point cloud or raises a Python exception; it never ends the process.", "quantifier": "all images, sizes and ranges", "why_tests_cant": "All image sizes.", "anchors": ["sumo-api/sumo/images/rgbdci_360.pyx:Rgbdci360.create_point_cloud", "sumo-api/sumo/images/rgbdci_360.pxd:createPointCloud", "sumo-api/sumo/images/CubeMap.h:CubeMap::unproject"]}
{"id": "C106", "title": "update_materials reports bad entries as Python exceptions", "statement": "update_materials applies all entries, or raises a Python exception for the first entry that is incomplete or names a picture that cannot be read.", "quantifier": "all models, entries and file systems", "why_tests_cant": "All entries, all states of the file system.", "anchors": ["sumo-api/sumo/threedee/gltf_model.pyx:GltfModel.update_materials", "sumo-api/sumo/threedee/gltf_model.pxd:updateMaterial", "sumo-api/sumo/threedee/GltfModel.cpp:GltfModel::loadTexture"]}
{"id": "C107", "title": "A textured mesh can always be added to a model", "statement": "Every textured mesh a program can get (constructed, extracted from any file, merged, renumbered, with replaced geometry) can be added to every model without an exception.", "quantifier": "all meshes obtained by any sequence of operations, all models", "why_tests_cant": "All histories of meshes.", "anchors": ["sumo-api/sumo/threedee/GltfModel.cpp:GltfModel::addTexturedPrimitiveMesh", "sumo-api/sumo/threedee/gltf_model.pyx:GltfModel.add_mesh"]}
{"id": "C108", "title": "Later evaluators do not change the results of earlier ones", "statement": "Whatever evaluators, of whatever track and with whatever settings, are constructed afterwards on the same or on other scenes: every metric of an evaluator stays what it was.", "quantifier": "all scenes, settings, and sequences of later constructor calls", "why_tests_cant": "All histories of constructor calls on shared scene objects.", "anchors": ["sumo-api/sumo/metrics/evaluator.py:Evaluator.__init__", "sumo-api/sumo/metrics/mesh_evaluator.py:MeshEvaluator.__init__", "sumo-api/sumo/metrics/voxel_evaluator.py:VoxelEvaluator.__init__", "sumo-api/sumo/metrics/bb_evaluator.py:BBEvaluator.__init__"]}
{"id": "C109", "title": "Leaving out the settings means the default settings", "statement": "For every track, constructing an evaluator without settings has the same outcome and gives the same results as passing Evaluator.default_settings().", "quantifier": "all scenes, all tracks", "why_tests_cant": "All scenes.", "anchors": ["sumo-api/sumo/metrics/evaluator.py:Evaluator.__init__", "sumo-api/sumo/metrics/evaluator.py:Evaluator.default_settings", "sumo-api/sumo/metrics/mesh_evaluator.py:MeshEvaluator.__init__"]}
{"id": "C110", "title": "The default settings are the documented ones", "statement": "Evaluator.default_settings() has the thresholds and recall samples its class documents (0.5 to 0.95 in steps of 0.05, 0 to 1 in steps of 0.01).", "quantifier": "the default settings", "why_tests_cant": "Tests of the evaluators fix their own settings; the documentation is not executed.", "anchors": ["sumo-api/sumo/metrics/evaluator.py:Evaluator", "sumo-api/sumo/metrics/evaluator.py:Evaluator.default_settings"]}
{"id": "C111", "title": "An exact copy of the ground truth gets the best result", "statement": "If the submission is a copy of the ground truth scene (same ids, categories, boxes, poses, shapes) then, with the default settings, each evaluator reports the best shape and semantics scores (1 up to 1e-8), no pose or surface error and perceptual score 1.", "quantifier": "all ground truth scenes, all tracks, all random numbers", "why_tests_cant": "All scenes and all random draws.", "anchors": ["sumo-api/sumo/metrics/bb_evaluator.py:BBEvaluator.evaluate_all", "sumo-api/sumo/metrics/mesh_evaluator.py:MeshEvaluator.evaluate_all", "sumo-api/sumo/metrics/voxel_evaluator.py:VoxelEvaluator.evaluate_all"]}
{"id": "C112", "title": "The settings of an evaluator are fixed when it is constructed", "statement": "What the caller does with the settings dict after the construction has no effect on the evaluator; the construction itself only sorts the thresholds.", "quantifier": "all evaluators, all later changes of the dict", "why_tests_cant": "All later changes of the dict.", "anchors": ["sumo-api/sumo/metrics/evaluator.py:Evaluator.__init__", "sumo-api/sumo/metrics/evaluator.py:Evaluator.pose_error"]}
{"id": "C113", "title": "evaluate-one.py prints each metric beside its own label", "statement": "For every pair of scenes of the same type evaluate-one.py prints five lines, each with the metric its label names, of the evaluator of that type with the default settings; scenes of different types or of a type without evaluator are refused.", "quantifier": "all pairs of scenes", "why_tests_cant": "All scenes, all three tracks.", "anchors": ["tools/evaluate-one.py:main", "sumo-api/sumo/metrics/mesh_evaluator.py:MeshEvaluator.evaluate_all"]}
{"id": "C114", "title": "Loading a scene gives the scene of the document or a documented exception", "statement": "ProjectScene.load raises IOError if there is no scene file and ValueError if the document is not a <scene> of one of the three project types; otherwise it returns the scene described by the last <project_type>, <elements> and <version> of the document, and tags it does not know change nothing.", "quantifier": "all project directories and scene documents", "why_tests_cant": "All documents.", "anchors": ["sumo-api/sumo/semantic/project_scene.py:ProjectScene.load"]}
{"id": "C115", "title": "Textures of a loaded model are its pictures", "statement": "The base colour and metallic/roughness images of a mesh extracted from a glTF model have the size of the picture the material's texture names, and each pixel its red, green and blue values; a texture or picture that is not there or not of three or four components raises an exception.", "quantifier": "all models, textures and pictures", "why_tests_cant": "All picture sizes and component counts, all indices.", "anchors": ["sumo-api/sumo/threedee/GltfModel.cpp:GltfModel::extractTexture", "sumo-api/sumo/threedee/GltfModel.cpp:cvImageFromImage", "sumo-api/sumo/threedee/gltf_model.pyx:GltfModel.extract_textured_primitive_mesh"]}
{"id": "C116", "title": "A textured mesh owns its pictures", "statement": "A TexturedMesh made of two pictures returns from base_color() and metallic_roughness() arrays with the shape and the pixels the pictures had at construction, whatever the program does later with those arrays, with arrays it got from meshes, and with rotated or copied meshes; arrays that are no pictures are refused with ValueError.", "quantifier": "all arrays and views, all histories of array and mesh operations", "why_tests_cant": "All histories of writes, views, copies and rotations; all shapes and strides.", "anchors": ["sumo-api/sumo/threedee/textured_mesh.pyx:TexturedMesh.__init__", "sumo-api/sumo/opencv/wrap.pyx:mat3b_from_array", "sumo-api/sumo/opencv/wrap.pyx:array_from_mat3b", "sumo-api/sumo/threedee/TexturedMesh.cpp:TexturedMesh::TexturedMesh"]}
{"id": "C117", "title": "A mesh keeps the arrays it is made of", "statement": "Mesh and TexturedMesh made of arrays of indices, vertices, normals and texture coordinates return arrays of the same type, shape and elements, or the constructor raises an exception; a mesh made of an Open3D mesh has its triangles, vertices and normals.", "quantifier": "all arrays", "why_tests_cant": "All shapes, element types and sizes.", "anchors": ["sumo-api/sumo/threedee/mesh.pyx:Mesh.__init__", "sumo-api/sumo/base/vector.pyx:vector3fs_of_array", "sumo-api/sumo/threedee/mesh.pyx:Mesh.from_open3d_mesh"]}
{"id": "C118", "title": "A point cloud keeps the points and colours it is made of", "statement": "PointCloud(points, colors) has the given points and colours, or the constructor raises an exception.", "quantifier": "all arrays of points and colours", "why_tests_cant": "All shapes, element types and values.", "anchors": ["sumo-api/sumo/threedee/point_cloud.pyx:PointCloud.__init__", "sumo-api/sumo/threedee/point_cloud.pyx:color_of_numpy"]}
{"id": "C119", "title": "A quaternion made of a rotation matrix is that rotation", "statement": "Quaternion(R) of an array that is a rotation matrix has length 1 and gives back the matrix; Quaternion of four numbers has these entries and gives a rotation unless all are 0; every other array is refused with an exception.", "quantifier": "all arrays", "why_tests_cant": "All rotations, all element types and shapes.", "anchors": ["sumo-api/sumo/geometry/quaternion.pyx:Quaternion.__cinit__", "sumo-api/sumo/geometry/quaternion.pyx:Quaternion.to_rotation_matrix"]}
{"id": "C120", "title": "Poses and rotations are values", "statement": "A pose or rotation keeps its value: compose, inverse, products, transforms and conversions give the values of their definitions in every state of the program and change no other object; Pose3() and Rot3() are always the identity; changing an array changes no pose or rotation other than the ones the program took the array from.", "quantifier": "all programs that make, combine and take apart rotations and poses and write into arrays", "why_tests_cant": "All histories of operations, with all ways two objects can share memory.", "anchors": ["sumo-api/sumo/geometry/pose3.pyx:Pose3", "sumo-api/sumo/geometry/rot3.pyx:Rot3"]}
{"id": "C121", "title": "A model saved as a GLB file and loaded again has the same meshes", "statement": "After GltfModel.save_as_glb(path), GltfModel.load_from_glb(path) gives a model whose primitive_meshes() are those of the saved model, in the same order: indices, vertices, normals, texture coordinates and pictures exactly, materials up to the printing of numbers. Saving or loading a model that cannot be stored raises an exception.", "quantifier": "all models made by adding meshes, saving and loading, in any order; all paths", "why_tests_cant": "All meshes, sizes, pictures and materials; all histories of adding, saving and loading.", "anchors": ["sumo-api/sumo/threedee/gltf_model.pyx:GltfModel.save_as_glb", "sumo-api/sumo/threedee/gltf_model.pyx:GltfModel.load_from_glb", "sumo-api/sumo/threedee/glb_converter.pyx:gltf2glb", "sumo-api/sumo/threedee/tiny_gltf/tiny_gltf.h:TinyGLTF::LoadBinaryFromFile"]}
{"id": "C122", "title": "A model saved as a glTF file and loaded again has the same meshes", "statement": "After GltfModel.save_as_gltf(folder, root), GltfModel.load_from_gltf of the file gives a model whose primitive_meshes() are those of the saved model, in the same order: geometry and pictures exactly, materials up to the printing of numbers. Only the files of the model in the folder change.", "quantifier": "all models made by adding meshes, saving and loading, in any order; all folders", "why_tests_cant": "All meshes, pictures, materials and folder contents.", "anchors": ["sumo-api/sumo/threedee/gltf_model.pyx:GltfModel.save_as_gltf", "sumo-api/sumo/threedee/gltf_model.pyx:GltfModel.load_from_gltf", "sumo-api/sumo/threedee/GltfModel.cpp:GltfModel::saveImages", "sumo-api/sumo/threedee/tiny_gltf/tiny_gltf.h:TinyGLTF::WriteGltfSceneToFile", "sumo-api/sumo/threedee/tiny_gltf/tiny_gltf.h:TinyGLTF::LoadASCIIFromFile"]}
{"id": "C123", "title": "A model keeps its meshes through every sequence of adding, saving and loading", "statement": "After any sequence of add_mesh, save_as_gltf, save_as_glb and loading what was saved, primitive_meshes() has one mesh per mesh added, in the order of adding, with its geometry, texture coordinates, pictures and material.", "quantifier": "all histories of adding, saving and loading", "why_tests_cant": "Unbounded histories, several formats and file systems.", "anchors": ["sumo-api/sumo/threedee/gltf_model.pyx:GltfModel", "sumo-api/sumo/threedee/GltfModel.cpp:GltfModel::addPrimitiveMesh", "sumo-api/sumo/threedee/tiny_gltf/tiny_gltf.h:TinyGLTF::LoadFromString"]}
{"id": "C124", "title": "Saving a model does not change it", "statement": "save_as_gltf and save_as_glb leave the meshes of the model, as returned by primitive_meshes(), as they were, whether saving succeeds or fails.", "quantifier": "all models, folders, names and outcomes", "why_tests_cant": "All models, also those loaded from files of other programs, and all points of failure.", "anchors": ["sumo-api/sumo/threedee/gltf_model.pyx:GltfModel.save_as_gltf", "sumo-api/sumo/threedee/gltf_model.pyx:GltfModel.save_as_glb", "sumo-api/sumo/threedee/tiny_gltf/tiny_gltf.h:UpdateImageObject"]}
{"id": "C125", "title": "A GLB file that was cut off or damaged raises IOError", "statement": "load_from_glb of a file that does not exist, is shorter than it was when saved, or has a header that does not fit raises IOError; it never crashes.", "quantifier": "all files and all lengths at which a saved file can be cut off", "why_tests_cant": "Every length, every file.", "anchors": ["sumo-api/sumo/threedee/gltf_model.pyx:GltfModel.load_from_glb", "sumo-api/sumo/threedee/tiny_gltf/tiny_gltf.h:TinyGLTF::LoadBinaryFromMemory", "sumo-api/sumo/threedee/tiny_gltf/tiny_gltf.h:ParseBuffer"]}
{"id": "C126", "title": "A glTF file whose other files are missing raises IOError", "statement": "load_from_gltf of a saved file next to which the file of the buffer or one of the pictures is missing raises IOError.", "quantifier": "all saved models and all folders", "why_tests_cant": "All models and folder contents.", "anchors": ["sumo-api/sumo/threedee/gltf_model.pyx:GltfModel.load_from_gltf", "sumo-api/sumo/threedee/tiny_gltf/tiny_gltf.h:ParseBuffer", "sumo-api/sumo/threedee/tiny_gltf/tiny_gltf.h:ParseImage"]}
{"id": "C127", "title": "No program reaches a C++ object that was freed", "statement": "However a program makes, shares, merges, copies, extracts, drops and collects Mesh, TexturedMesh, PointCloud, GltfModel and Quaternion objects, and whatever exceptions it goes on after, it never uses or frees a C++ object that is already freed, never uses one as an object of another class (an object merged with itself is the subject of C129), and two Python objects never own the same C++ object. No NULL pointer is followed as long as no object is made without __init__, no None is passed for one and no image is saved whose conversion loses its exception.", "quantifier": "all programs (lists of calls on variables bound by earlier calls), all orders in which unreachable objects are collected", "why_tests_cant": "All histories and all times at which the collector runs.", "anchors": ["sumo-api/sumo/threedee/mesh.pyx:Mesh", "sumo-api/sumo/threedee/textured_mesh.pyx:TexturedMesh", "sumo-api/sumo/threedee/point_cloud.pyx:PointCloud", "sumo-api/sumo/threedee/gltf_model.pyx:GltfModel.primitive_meshes", "sumo-api/sumo/geometry/quaternion.pyx:Quaternion"]}
{"id": "C128", "title": "No C++ memory is lost", "statement": "Every C++ object that is allocated belongs to a Python object that can still be collected; once a program has dropped all its objects nothing is allocated any more.", "quantifier": "all programs and all states they reach", "why_tests_cant": "All histories; leaks do not show in results.", "anchors": ["sumo-api/sumo/threedee/mesh.pyx:Mesh.__dealloc__", "sumo-api/sumo/geometry/quaternion.pyx:Quaternion.__cinit__", "sumo-api/sumo/images/rgbd_tiff.pyx:MultiImageTiff.load", "sumo-api/sumo/images/rgbd_tiff.pyx:MultiImageTiff.save", "sumo-api/sumo/threedee/gltf_model.pyx:GltfModel.primitive_meshes"]}
{"id": "C129", "title": "Objects behave as values with identity", "statement": "The values seen through the variables of a program, and the exceptions of its calls, are those of a world in which every object simply holds its value: x.merge(y), x.replace_geometry(y), x.append(y) and x.add_mesh(y) change x by the value of y, also if x and y are the same object.", "quantifier": "all programs and all aliasing between variables", "why_tests_cant": "All histories with all patterns of aliasing.", "anchors": ["sumo-api/sumo/threedee/Mesh.cpp:Mesh::merge", "sumo-api/sumo/threedee/Mesh.cpp:Mesh::replaceGeometry", "sumo-api/sumo/threedee/PointCloud.h:PointCloud::append", "sumo-api/sumo/threedee/gltf_model.pyx:GltfModel.add_mesh"]}
{"id": "C130", "title": "A call changes no object but the one it is called on, and results are new objects", "statement": "Every variable that does not refer to the object a method is called on shows the same object with the same value after the call. Constructors, +, sum, register, deepcopy, primitive_meshes, extract_primitive_mesh and create_point_cloud return objects different from all objects of the program.", "quantifier": "all programs, all calls, all variables", "why_tests_cant": "All histories with all patterns of aliasing.", "anchors": ["sumo-api/sumo/threedee/point_cloud.pyx:PointCloud.__add__", "sumo-api/sumo/threedee/point_cloud.pyx:PointCloud.register", "sumo-api/sumo/threedee/gltf_model.pyx:GltfModel.deepcopy", "sumo-api/sumo/threedee/gltf_model.pyx:GltfModel.primitive_meshes"]}
{"id": "C131", "title": "A project that was saved to a folder can be loaded from it", "statement": "scene.save(path, name) makes a folder from which ProjectScene.load(path, name) returns an equal scene: project type, settings, elements in order with ids, annotations, poses, bounds, voxel grids and meshes. The scene itself is not changed, no temporary folder is left and no other file is changed. This holds whether path is absolute or relative to the working directory.", "quantifier": "all scenes of boxes, voxel grids and mesh models made by adding, saving and loading meshes; all file systems, working directories and paths", "why_tests_cant": "All scenes and file systems.", "anchors": ["sumo-api/sumo/semantic/project_scene.py:ProjectScene.save", "sumo-api/sumo/semantic/project_scene.py:ProjectScene.load", "sumo-api/sumo/semantic/project_object.py:ProjectObject.save", "sumo-api/sumo/semantic/project_object.py:ProjectObject.load", "sumo-api/sumo/threedee/gltf_model.pyx:GltfModel.save_as_glb"]}
{"id": "C132", "title": "A project whose saving was cut short is never loaded", "statement": "If the process that saves a project is killed at any moment, or gives up with an exception, loading from the folder afterwards raises an exception unless the project had been written completely. Saving where something exists already raises and changes nothing.", "quantifier": "all scenes, all file systems and all moments, also within the writing of a file and the removal of a folder", "why_tests_cant": "Every crash point of every execution.", "anchors": ["sumo-api/sumo/semantic/project_scene.py:ProjectScene.save", "sumo-api/sumo/semantic/project_scene.py:ProjectScene.load", "sumo-api/sumo/semantic/project_object_dict.py:ProjectObjectDict.save"]}
{"id": "C133", "title": "Saving a project changes nothing outside its folder", "statement": "Whatever the scene, and even if the process is killed, saving a project changes no file or folder outside the project folder and the temporary folders.", "quantifier": "all scenes, all file systems, all moments", "why_tests_cant": "Every crash point of every execution.", "anchors": ["sumo-api/sumo/semantic/project_scene.py:ProjectScene.save", "sumo-api/sumo/semantic/project_object.py:ProjectObject.save"]}
{"id": "C134", "title": "Average precision in double precision is the rounded textbook formula", "statement": "With every operation rounded to a double, compute_ap returns: as precision at each rank the best of the rounded quotients hits / (rank + 1) from there on, as recall the rounded quotients hits / number of elements, and as average precision the rounded sum of best precision times gain in recall. The precision curve stays within [0, 1] and does not increase, recall does not decrease and ends at the rounded fraction of elements found.", "quantifier": "all detection vectors shorter than 2^53, all scores, all results of the unstable sort", "why_tests_cant": "All inputs, and the rounding of each of them.", "anchors": ["sumo-api/sumo/metrics/utils.py:compute_ap"]}
{"id": "C135", "title": "Average precision in double precision lies in [0, 1]", "statement": "With every operation rounded to a double, the average precision that compute_ap returns lies between 0 and 1, with and without area_under_curve.", "quantifier": "all detection vectors shorter than 2^53 with at most as many hits as elements; all orders in which numpy adds", "why_tests_cant": "All inputs, and the rounding of each of them.", "anchors": ["sumo-api/sumo/metrics/utils.py:compute_ap"]}
{"id": "C136", "title": "Rounding changes average precision by less than TP / 2^49", "statement": "The average precision that is computed in double precision differs from the exact value of the formula by at most the number of correct detections times 2^-49.", "quantifier": "all detection vectors shorter than 2^53, up to 2^48 elements", "why_tests_cant": "All inputs, and the rounding of each of them.", "anchors": ["sumo-api/sumo/metrics/utils.py:compute_ap"]}
{"id": "C137", "title": "False positives never help, also in double precision", "statement": "In double precision an additional false positive, listed anywhere with any score, never increases average precision, and false positives scored below every correct detection leave it unchanged to the last bit.", "quantifier": "all detection vectors, places and scores", "why_tests_cant": "All inputs, and the rounding of each of them.", "anchors": ["sumo-api/sumo/metrics/utils.py:compute_ap"]}
{"id": "C138", "title": "Turning a false positive into a correct detection helps, also in double precision", "statement": "In double precision, replacing a false positive by a correct detection strictly increases average precision, as long as (detections + 1) * elements * (2 * hits + 1) is less than 2^49.", "quantifier": "all detection vectors and places", "why_tests_cant": "All inputs, and the rounding of each of them.", "anchors": ["sumo-api/sumo/metrics/utils.py:compute_ap"]}
{"id": "C139", "title": "The shape and semantics scores survive rounding", "statement": "The shape score and the semantics score as computed in double precision differ from their exact values by at most n / 2^49 + (k + 1) / 2^51 for n ground truth elements and k averaged values, are NaN in the same cases and lie in [0, 1].", "quantifier": "all submissions, ground truths, settings, results of the unstable sort and orders in which numpy adds", "why_tests_cant": "All inputs, and the rounding of each of them.", "anchors": ["sumo-api/sumo/metrics/evaluator.py:Evaluator.shape_score", "sumo-api/sumo/metrics/evaluator.py:Evaluator.semantics_score"]}
{"id": "C140", "title": "Voxel grids survive rounding", "statement": "In machine precision a VoxelGrid rejects exactly the batches that are empty or have a point below the corner, the voxelizer accepts all its samples, every point occupies its voxel, voxel_size is the size that was given, the bounds contain all points, and voxel centres are within half a voxel of the points.", "quantifier": "all voxel sizes, corners (float32 or float64) and points", "why_tests_cant": "All inputs, and the rounding of each of them.", "anchors": ["sumo-api/sumo/threedee/voxel_grid.py:VoxelGrid.add_points", "sumo-api/sumo/threedee/voxel_grid.py:VoxelGrid.bounds", "sumo-api/sumo/threedee/voxel_grid.py:VoxelGrid.voxel_centers", "sumo-api/sumo/threedee/voxelizer.pyx:Voxelizer.run"]}
{"id": "C141", "title": "The unit quaternion of a matrix survives rounding", "statement": "In double precision matrix_to_quat returns a quaternion whose components are doubles and whose squared norm differs from 1 by at most 2^-49, for every matrix with diagonal entries between -2 and 2, rotation or not.", "quantifier": "all matrices of doubles with diagonal entries in [-2, 2]", "why_tests_cant": "All inputs, all branches, and the rounding of each of them.", "anchors": ["sumo-api/sumo/metrics/utils.py:matrix_to_quat"]}
{"id": "C142", "title": "Pose error never raises, also in double precision", "statement": "In double precision, and whatever the C library returns, pose_error returns a pair of numbers or (inf, inf) for all elements whose poses are rotations stored as doubles, with and without rotational symmetry.", "quantifier": "all submissions, ground truths, settings, symmetries and rotations stored as doubles; all behaviours of sin, cos, asin, atan2, logm", "why_tests_cant": "All inputs, and the rounding of each of them; the failing ones are one in many billions.", "anchors": ["sumo-api/sumo/metrics/evaluator.py:Evaluator.pose_error", "sumo-api/sumo/metrics/evaluator.py:rotation_error_1", "sumo-api/sumo/metrics/utils.py:quat_to_euler"]}
{"id": "C143", "title": "The perceptual score survives rounding", "statement": "With every operation rounded to float32 or float64, perceptual_score lies in [0, 1], is exactly 1 for a perfect submission whose floors are listed in the same order, and an additional missed or hallucinated element never increases it.", "quantifier": "all submissions, ground truths, sensible settings, box types, iteration orders of sets and summation orders; all C libraries whose exp stays in [0, 1] on non-positive numbers", "why_tests_cant": "All inputs, and the rounding of each of them.", "anchors": ["sumo-api/sumo/metrics/evaluator.py:Evaluator.perceptual_score", "sumo-api/sumo/metrics/evaluator.py:Evaluator._perceptual_score_1", "sumo-api/sumo/metrics/evaluator.py:Evaluator._room_scale"]}
{"id": "C144", "title": "The perceptual score is reproducible", "statement": "Running the evaluator twice on the same submission, ground truth and settings gives the same perceptual_score, although the iteration order of Python sets of strings changes from run to run.", "quantifier": "all submissions, ground truths, settings and pairs of iteration orders", "why_tests_cant": "A test process has one hash seed; the orders and the inputs that matter are many.", "anchors": ["sumo-api/sumo/metrics/evaluator.py:Evaluator.perceptual_score", "sumo-api/sumo/metrics/evaluator.py:Evaluator._perceptual_score_1"]}
{"id": "C145", "title": "Rounding and the quick rejection in point IoU", "statement": "With every operation rounded to double precision, points_iou lies in [0, 1], is symmetric and exactly 1 for a non-empty set and itself; it is the exact IoU, rounded once, and the quick rejection on bounding boxes never changes it.", "quantifier": "all point sets, bounding boxes that contain them, thresholds and nearest-neighbour queries", "why_tests_cant": "All coordinates and their rounding; the cases that matter lie within one unit in the last place of the threshold.", "anchors": ["sumo-api/sumo/metrics/utils.py:points_iou", "sumo-api/sumo/metrics/utils.py:nearest_neighbors"]}
{"id": "C146", "title": "A loaded project says what its files say", "statement": "ProjectScene.load refuses a file whose root is not <scene>, whatever it contains; otherwise every element of the scene it returns comes from the last <element> with its id in the last <elements> of the file and, for meshes, from the GLB file named after its id, and no <element> is passed over; the bounds of a mesh object are the smallest box around the positions stored, as binary floats, in the GLB file.", "quantifier": "all folders, XML documents, GLB files and environments", "why_tests_cant": "All documents, with any number and order of elements and repeated ids, and all binary floats.", "anchors": ["sumo-api/sumo/semantic/project_scene.py:ProjectScene.load", "sumo-api/sumo/semantic/project_object_dict.py:ProjectObjectDict.load", "sumo-api/sumo/semantic/project_object.py:ProjectObject.load"]}
{"id": "C147", "title": "The downloader works in every destination folder", "statement": "Whatever the name of the destination folder and whatever lies in the folders next to it, the downloader sees the archives it has downloaded, extracts them, and says that the extraction is complete only then.", "quantifier": "all names of the destination folder, all contents of other folders, all histories of runs, failures and kills", "why_tests_cant": "Names are unbounded and some of their characters are taken as a pattern; the effect depends on the other folders.", "anchors": ["tools/download_sumo_datasets.py:get_zip_file_count", "tools/download_sumo_datasets.py:download_zips_in_parallel", "tools/download_sumo_datasets.py:unzip_files_in_parallel"]}
{"id": "C148", "title": "The downloader leaves other files alone", "statement": "In all histories of runs, failures and kills, files in the destination folder that the downloader did not make are neither changed nor deleted.", "quantifier": "all initial contents of the destination folder, all configurations, all histories of runs, failures and kills", "why_tests_cant": "All schedules of the pool, all failures and kills, and all files that may lie there.", "anchors": ["tools/download_sumo_datasets.py:unzip_files_in_parallel", "tools/download_sumo_datasets.py:unzip_one", "tools/download_sumo_datasets.py:download_one", "tools/download_sumo_datasets.py:get_zip_file_count"]}
{"id": "C149", "title": "Surface errors survive rounding", "statement": "With every operation rounded to double precision, points_rmsssd is infinite exactly when nothing is matched, 0 exactly when in every matched pair both elements have the same points (or one has none), never negative, and differs from the exact mean of the RMS distances by a relative error of at most (N + 2 M + 30) / 2^53, for N points per pair and M values in the mean, in whatever order numpy adds; likewise color_rmsssd.", "quantifier": "all submissions, ground truths, settings, point sets, nearest-neighbour queries and summation orders", "why_tests_cant": "All coordinates and their rounding, for sets of any size and any order of summation.", "anchors": ["sumo-api/sumo/metrics/utils.py:points_rmsssd", "sumo-api/sumo/metrics/utils.py:color_rmsssd", "sumo-api/sumo/metrics/utils.py:nearest_neighbors"]}
{"id": "C150", "title": "The quick rejection of the voxel and mesh tracks is sound under rounding", "statement": "With every operation rounded to double precision, the bounding box stored for an element of the voxel or mesh track contains all its posed points, whatever the pose, so that the point IoU computed with these boxes equals the exact IoU of the posed points, rounded once, unless a distance is nearly the threshold; an element compared with its exact copy has point IoU exactly 1.", "quantifier": "all voxel grids, matrices, translations, sample sets, thresholds and rounding orders of the matrix product", "why_tests_cant": "All poses and coordinates and their rounding; the order of operations of the library's matrix product is not fixed.", "anchors": ["sumo-api/sumo/metrics/voxel_evaluator.py:VoxelEvaluator.__init__", "sumo-api/sumo/metrics/mesh_evaluator.py:MeshEvaluator.__init__", "sumo-api/sumo/geometry/pose3.pyx:Pose3.transform_all_from", "sumo-api/sumo/threedee/voxel_grid.py:VoxelGrid.bounds", "sumo-api/sumo/metrics/utils.py:points_iou"]}
{"id": "C151", "title": "Loading and saving images leaves nothing behind", "statement": "After any sequence of calls of rgbd_tiff.load and rgbd_tiff.save (or of the image classes built on them), whether they return or raise, no file is left open and no native image object is left allocated.", "quantifier": "all files, page maps, paths and sequences of calls", "why_tests_cant": "The leak only shows after many calls, and on the paths where a call raises; all contents of files have to be covered.", "anchors": ["sumo-api/sumo/images/rgbd_tiff.pyx:load", "sumo-api/sumo/images/rgbd_tiff.pyx:save", "sumo-api/sumo/images/RgbdTiff.cpp:readRgbdTiff", "sumo-api/sumo/images/RgbdTiff.cpp:readImage"]}
{"id": "C152", "title": "The bounding-box score survives rounding", "statement": "With every operation rounded to double precision: if the bounding-box track skips a pair because the boxes of its posed corners are apart, the two solids have no point in common, and the exact posed boxes overlap along some axis by at most 2^-46 of the largest coordinate; otherwise the score is NaN exactly if both solids are flat, lies in [0, 1], is exactly 1 for a solid that is its own intersection, exactly 0 for an empty intersection, and differs from the exact ratio of the three volumes by a relative error of at most 5 / 2^53.", "quantifier": "all pairs of elements, boxes, poses, matrix products, and volumes returned by the mesh library", "why_tests_cant": "All poses and coordinates and their rounding; the order of operations of the library's matrix product is not fixed.", "anchors": ["sumo-api/sumo/metrics/bb_evaluator.py:BBEvaluator._shape_similarity", "sumo-api/sumo/metrics/bb_evaluator.py:_bbox2pymesh", "sumo-api/sumo/geometry/pose3.pyx:Pose3.transform_all_from"]}
{"id": "C153", "title": "A MultiImageTiff keeps its images", "statement": "The images of a MultiImageTiff stay those it was made from or loaded with, whatever the program does later with its own dicts and objects; what save wrote stays in the file until the next save to the same path; loading a saved object gives the same colours and labels (None where there were none) and the same ranges up to quantisation; load takes the options it documents.", "quantifier": "all programs that make arrays, dicts and objects, change arrays and dicts, save and load", "why_tests_cant": "All histories of operations on shared arrays and dicts.", "anchors": ["sumo-api/sumo/images/multi_image_tiff.pyx:MultiImageTiff", "sumo-api/sumo/images/rgbd_tiff.pyx:load", "sumo-api/sumo/images/rgbd_tiff.pyx:save"]}
{"id": "C154", "title": "A save that returns has written everything", "statement": "If saving a point cloud, an image file, a glTF model or a GLB file returns without an exception, the files on disk are complete, also when the disk (or the disk of the temporary folder) runs full while saving.", "quantifier": "all clouds, image maps and models, all amounts of free space on the disk of the result and of the temporary folder", "why_tests_cant": "A full disk at every byte of every file that is written.", "anchors": ["sumo-api/sumo/threedee/point_cloud.pyx:write_ply", "sumo-api/sumo/threedee/point_cloud_ply_c.cpp:writePoints", "sumo-api/sumo/images/RgbdTiff.cpp:writeImage", "sumo-api/sumo/threedee/gltf_model.pyx:save_as_gltf", "sumo-api/sumo/threedee/gltf_model.pyx:save_as_glb", "sumo-api/sumo/threedee/GltfModel.cpp:saveImages", "sumo-api/sumo/threedee/tiny_gltf/tiny_gltf.h:WriteGltfFile", "sumo-api/sumo/threedee/glb_converter.pyx:export"]}
{"id": "C155", "title": "Poses keep their meaning through rounding", "statement": "With every operation rounded to double precision: however rotations and poses are multiplied, composed and inverted, the matrix turns every vector as the exact rotation does up to ((1 + 2^-48)^n - 1) of its length, the translation differs from the exact one by at most that fraction of the total length of the translations used, and points moved there (singly or as an array), back, or there and back end where the exact rigid motion takes them up to such an error; distances are kept likewise; n counts the inexact operations and the error is at most n / 2^47 for n up to 2^47.", "quantifier": "all expressions of rotations and poses of any size, all points, all accurate library products, sines and cosines", "why_tests_cant": "All compositions of any length, and their rounding; the order of operations inside the library's products is not fixed.", "anchors": ["sumo-api/sumo/geometry/rot3.pyx:Rot3", "sumo-api/sumo/geometry/pose3.pyx:Pose3.compose", "sumo-api/sumo/geometry/pose3.pyx:Pose3.inverse", "sumo-api/sumo/geometry/pose3.pyx:Pose3.transform_from", "sumo-api/sumo/geometry/pose3.pyx:Pose3.transform_to", "sumo-api/sumo/geometry/pose3.pyx:Pose3.transform_all_from", "sumo-api/sumo/geometry/pose3.pyx:Pose3.transform_all_to"]}
{"id": "C156", "title": "Cameras have the angles they are given", "statement": "Rot3.ENU_camera, Rot3.Maya_camera, Pose3.ENU_camera and Pose3.Maya_camera turn by the roll, pitch and yaw given, up to the rounding of double precision, and the pose is at the position given.", "quantifier": "all angles and positions, all accurate library products, sines and cosines", "why_tests_cant": "All angles; the loss is invisible in a test with a loose tolerance or with angles that are exact in single precision.", "anchors": ["sumo-api/sumo/geometry/pose3.pyx:Pose3.ENU_camera", "sumo-api/sumo/geometry/pose3.pyx:Pose3.Maya_camera", "sumo-api/sumo/geometry/rot3.pyx:Rot3.ENU_camera", "sumo-api/sumo/geometry/rot3.pyx:Rot3.Maya_camera"]}
{"id": "C157", "title": "Models made by other programs are read as glTF says", "statement": "A mesh extracted from a loaded model has the indices, vertices, normals and texture coordinates that the glTF 2.0 specification gives its accessors: indices of one, two or four bytes, elements at the stride of their buffer view.", "quantifier": "all models: buffers, views, accessors and primitives", "why_tests_cant": "All layouts of the buffers a program may write; the tests only use files written by the library itself or by one exporter.", "anchors": ["sumo-api/sumo/threedee/GltfModel.cpp:extractPrimitiveMesh", "sumo-api/sumo/threedee/GltfModel.cpp:extractTexturedPrimitiveMesh", "sumo-api/sumo/threedee/GltfModel.h:GltfAccessor", "sumo-api/sumo/threedee/gltf_model.pyx:primitive_meshes"]}
{"id": "C158", "title": "Point clouds from range images survive rounding", "statement": "With every operation rounded to double precision, the cloud that Rgbdci360.create_point_cloud makes has one point per pixel that has a range (or per pixel, if all are asked for), in row order, each within range / 2^48 of the point at that range along the exact ray of the pixel, with the pixel's colour, and its distance to the camera differs from the range by no more than that.", "quantifier": "all colour and range images of at most 2^31 rows with the layout of a cube map, all accurate square roots", "why_tests_cant": "All sizes and ranges, and the rounding of every operation.", "anchors": ["sumo-api/sumo/images/CubeMap.h:unproject", "sumo-api/sumo/images/Rgbdci360.cpp:createPointCloud", "sumo-api/sumo/images/rgbdci_360.pyx:create_point_cloud"]}
{"id": "C159", "title": "A pose or box that was loaded can be saved again without changing", "statement": "Saving a pose or a box that was read from XML and reading it again gives the same pose or box, and however often this is repeated the numbers stay near the first ones.", "quantifier": "all poses and boxes, any number of rounds", "why_tests_cant": "Any number of rounds, over all numbers and their printed digits.", "anchors": ["sumo-api/sumo/geometry/pose3.pyx:Pose3.to_xml", "sumo-api/sumo/geometry/pose3.pyx:Pose3.from_xml", "sumo-api/sumo/geometry/rot3.pyx:Rot3.to_xml", "sumo-api/sumo/threedee/box_3d.pyx:Box3d.to_xml", "sumo-api/sumo/threedee/box_3d.pyx:Box3d.from_xml"]}
{"id": "C160", "title": "Point clouds saved as text keep their points", "statement": "The text file that PointCloud.save writes has one line per point, in order, and reading its numbers as doubles gives exactly the coordinates of the points and the colour given.", "quantifier": "all point clouds of any size, all coordinates that are doubles, all colours given", "why_tests_cant": "All doubles and their printed digits.", "anchors": ["sumo-api/sumo/threedee/point_cloud.pyx:save"]}
{"id": "C161", "title": "Coloured materials are kept", "statement": "add_colored_material returns the number of a new material with the name, colour, metallic and roughness values given, leaves everything else as it is, and after saving and loading the model the material under this number still has them.", "quantifier": "all models made by adding meshes, saving and loading; all names, colours and values", "why_tests_cant": "All models and values, through the bytes of the file.", "anchors": ["sumo-api/sumo/threedee/GltfModel.cpp:addColoredMaterial", "sumo-api/sumo/threedee/gltf_model.pyx:add_colored_material", "sumo-api/sumo/threedee/tiny_gltf/tiny_gltf.h:SerializeParameterMap"]}
{"id": "C162", "title": "Timing a function changes neither its result nor the garbage collector", "statement": "A function decorated with measure_time returns or raises what it does without the decorator, prints one line with the time it took, and leaves the garbage collector as the undecorated function would, also when it raises, is interrupted, calls other timed functions or runs in several threads.", "quantifier": "all functions, arguments and states of the collector; all nestings; all points of an interrupt; all schedules of any number of threads", "why_tests_cant": "All points where an interrupt can arrive and all schedules of threads.", "anchors": ["sumo-api/sumo/metrics/utils.py:measure_time"]}
{"id": "C163", "title": "Access by index returns the element or raises", "statement": "PointCloud.point and color, GltfModel.image_size, image_uri and extract_primitive_mesh, and calling a Rot3 return the element with the given index if there is one and raise IndexError or OverflowError otherwise.", "quantifier": "all point clouds, models and rotations, all whole numbers as indices", "why_tests_cant": "All indices; a read outside an array usually goes unnoticed in a test.", "anchors": ["sumo-api/sumo/threedee/point_cloud.pyx:point", "sumo-api/sumo/threedee/point_cloud.pyx:color", "sumo-api/sumo/threedee/PointCloud.h:point", "sumo-api/sumo/threedee/gltf_model.pyx:image_size", "sumo-api/sumo/threedee/gltf_model.pyx:image_uri", "sumo-api/sumo/threedee/gltf_model.pyx:extract_primitive_mesh", "sumo-api/sumo/geometry/rot3.pyx:Rot3.__call__"]}
{"id": "C164", "title": "Measures of boxes survive rounding", "statement": "In single and in double precision, Box3d.center() lies in the box within one rounding of the exact centre; Box3d.volume() is never negative, is 0 exactly for flat boxes, differs from the exact volume by at most five roundings, and a box inside another never has the greater volume.", "quantifier": "all boxes with corners of the format", "why_tests_cant": "All corners, and the rounding of every operation.", "anchors": ["sumo-api/sumo/threedee/box_3d.pyx:Box3d.volume", "sumo-api/sumo/threedee/box_3d.pyx:Box3d.center", "sumo-api/sumo/threedee/box_3d.pyx:Box3d.point_in_box"]}
{"id": "C165", "title": "unitize returns the direction of a vector", "statement": "unitize(v) is the vector of length 1 in the direction of v, up to rounding, and the zero vector for the zero vector.", "quantifier": "all vectors, in exact arithmetic and in double precision however the norm is added up", "why_tests_cant": "All vectors and the rounding of every operation; the unit test asks for length exactly 1, which holds for its vector only.", "anchors": ["sumo-api/sumo/base/vector.pyx:unitize"]}
{"id": "C166", "title": "on_left tells the sides of a line", "statement": "on_left(N, p, a, b) is true exactly if p is on the left of the line from a to b seen against N: a point of the plane of a counterclockwise triangle lies in it exactly if it is on the left of the three sides; reversing the line swaps the sides; moving everything rigidly changes nothing.", "quantifier": "all normals, points and lines, in exact arithmetic and in double precision", "why_tests_cant": "All points, also those next to the line, where rounding decides.", "anchors": ["sumo-api/sumo/base/vector.pyx:on_left"]}
{"id": "C167", "title": "almost_equal is a similarity and == of boxes an equality", "statement": "Comparing poses, rotations or boxes with almost_equal says that all entries agree within the tolerance: everything is almost equal to itself, the order of the two does not matter, and boxes that are == are almost equal.", "quantifier": "all poses, rotations and boxes, with finite, infinite and undefined entries, and all tolerances", "why_tests_cant": "The tolerance is relative to the second argument, so tests with numbers near 1 never see the difference.", "anchors": ["sumo-api/sumo/geometry/pose3.pyx:Pose3.almost_equal", "sumo-api/sumo/geometry/rot3.pyx:Rot3.almost_equal", "sumo-api/sumo/threedee/box_3d.pyx:Box3d.almost_equal", "sumo-api/sumo/threedee/box_3d.pyx:Box3d.__eq__"]}
{"id": "C168", "title": "The downloader reports what went wrong", "statement": "Whatever call of the main process fails, and whenever, the error is in the log: an interrupt ends the program with the message that it was interrupted, another error ends the current stage and the program goes on.", "quantifier": "all points at which one of the calls of the main process raises, with any exception, and all numbers of attempts", "why_tests_cant": "Every point of failure in every attempt, before and after the processes were started.", "anchors": ["tools/download_sumo_datasets.py:download_zips_in_parallel", "tools/download_sumo_datasets.py:unzip_files_in_parallel", "tools/download_sumo_datasets.py:__main__"]}
{"id": "C169", "title": "The downloader ends with what it did", "statement": "The log ends with whether each stage is complete, and the exit status tells a calling script whether the data is there.", "quantifier": "all runs of the program, with every outcome of every call", "why_tests_cant": "All outcomes of all calls; a test sees one run.", "anchors": ["tools/download_sumo_datasets.py:download_zips_in_parallel", "tools/download_sumo_datasets.py:unzip_files_in_parallel", "tools/download_sumo_datasets.py:__main__"]}
{"id": "C170", "title": "The downloader starts only if the data fits on the disk", "statement": "The check of the free space passes only if the archives that remain to be downloaded, of the size documented, and what is extracted from them fit.", "quantifier": "all amounts of free space and all numbers and sizes of archives", "why_tests_cant": "All numbers of archives: the check is wrong only from 21 archives on.", "anchors": ["tools/download_sumo_datasets.py:calculate_disk_space_needed"]}
{"id": "C171", "title": "A mesh or box of one colour has that colour everywhere", "statement": "TexturedMesh.from_mesh keeps the geometry of the mesh, and Box3d.to_textured_mesh is the coloured mesh of the box. However the result is placed and sampled for evaluation, all samples have exactly the given colour, and those of a box lie on the surface of the placed box.", "quantifier": "all meshes with complete triangles and indices in range, all boxes with ordered corners, both directions of normals, all colours of three entries, all poses, densities and random numbers", "why_tests_cant": "All meshes, poses and random numbers at once; the colour goes through a texture, texture coordinates and an interpolation.", "anchors": ["sumo-api/sumo/threedee/textured_mesh.pyx:TexturedMesh.from_mesh", "sumo-api/sumo/threedee/box_3d.pyx:Box3d.to_textured_mesh", "sumo-api/sumo/threedee/box_3d.pyx:Box3d.to_mesh"]}
{"id": "C172", "title": "Showing a point cloud draws all its points", "statement": "PointCloud.show draws every point at its coordinates in the XY, XZ and YZ planes, with its colour if asked to, with the given keyword arguments and defaults for the others.", "quantifier": "all clouds with or without colours, both values of colored, all keyword arguments", "why_tests_cant": "All clouds and options.", "anchors": ["sumo-api/sumo/threedee/point_cloud.pyx:PointCloud.show"]}
{"id": "C173", "title": "Drawn poses are the frames they stand for", "statement": "Pose3.draw_poses draws for every pose three arrows from the origin of its frame along its axes, in red, green and blue.", "quantifier": "all collections of poses, empty or not, that can be iterated once or many times", "why_tests_cant": "All numbers of poses and kinds of collection; a test has a list.", "anchors": ["sumo-api/sumo/geometry/pose3.pyx:Pose3.draw_poses"]}
{"id": "C174", "title": "Shown images and meshes have the content of the object", "statement": "Rgbd360.show and Rgbdci360.show show the colours, the inverse range (unknown is black, nothing is darker than what is farther away), the categories as numbers or in the colours of the table, and the instances; a category without a colour is an IndexError. The surface that visualize_mesh shows consists of the triangles of the mesh.", "quantifier": "all images, tables of colours, and meshes with complete triangles and indices in range", "why_tests_cant": "All sizes of images and tables and all depths.", "anchors": ["sumo-api/sumo/images/rgbd_360.pyx:Rgbd360.show", "sumo-api/sumo/images/rgbdci_360.pyx:Rgbdci360.show", "sumo-api/sumo/metrics/utils.py:visualize_mesh", "sumo-api/sumo/metrics/utils.py:to_surface"]}
{"id": "C175", "title": "setup.py cleanall removes the generated files and nothing else", "statement": "However the commands it starts overlap, no other file is lost at any moment, and once they are finished exactly the generated files are gone: what is in build, libraries and C files below sumo, and files with the mark of Cython.", "quantifier": "all folders, all contents and all interleavings of the steps of the four commands", "why_tests_cant": "Every schedule of commands that run at the same time, on every tree of files.", "anchors": ["sumo-api/setup.py:cleanall"]}
{"id": "C176", "title": "The command line of setup.py does what its comments say", "statement": "build_ext always runs with --inplace, nothing else on the command line changes, and cleanall goes on to an ordinary clean.", "quantifier": "all command lines", "why_tests_cant": "All command lines.", "anchors": ["sumo-api/setup.py:sys.argv"]}
{"id": "C177", "title": "A plotted precision-recall curve is the whole curve", "statement": "plot_pr draws recall to the right and precision upwards; every curve computed by compute_ap with no more hits than elements to be found has one vertex per detection, all inside the window, going right and down; a sampled curve is all inside exactly if its samples are between 0 and 1; vectors of different lengths are refused.", "quantifier": "all detections, scores, orders of ties, numbers of elements and samples", "why_tests_cant": "All inputs of compute_ap, in machine precision; what is outside the window is silently cut off.", "anchors": ["sumo-api/sumo/metrics/utils.py:plot_pr", "sumo-api/sumo/metrics/utils.py:compute_ap"]}
{"id": "C178", "title": "The listing of similarities has every pair once", "statement": "The debugging output of the evaluator lists, for every detection and every ground truth element, one line with their ids, their similarity and the score of the detection, and no pair twice.", "quantifier": "all pairs of scenes and all similarity functions", "why_tests_cant": "All scenes.", "anchors": ["sumo-api/sumo/metrics/evaluator.py:_print_sim_cache", "sumo-api/sumo/metrics/evaluator.py:_make_similarity_cache"]}
{"id": "C179", "title": "The near plane survives the text of the metadata", "statement": "The JSON text stored in the first page of a TIFF file for a finite single precision near plane is read back as version 1 and exactly this near plane, whatever follows the text; different near planes have different texts.", "quantifier": "all finite single precision near planes and all texts after the closing brace", "why_tests_cant": "All of the 2^32 numbers with their different notations (integer, fixed, exponential).", "anchors": ["sumo-api/sumo/images/RgbdTiff.cpp:writeMetadata", "sumo-api/sumo/images/RgbdTiff.cpp:readMetadata", "sumo-api/sumo/images/picojson.h:value::to_str", "sumo-api/sumo/images/picojson.h:_parse", "sumo-api/sumo/images/picojson.h:_parse_number"]}
{"id": "C180", "title": "Metadata that is not well formed is refused", "statement": "Reading a TIFF file whose description is not a well formed JSON object of the expected types raises RuntimeError, as the comment of the reader says; in particular a description that was cut off.", "quantifier": "all texts", "why_tests_cant": "All texts; a cut at each byte of each text.", "anchors": ["sumo-api/sumo/images/RgbdTiff.cpp:readMetadata", "sumo-api/sumo/images/picojson.h:_parse", "sumo-api/sumo/images/picojson.h:_parse_object", "sumo-api/sumo/images/picojson.h:default_parse_context"]}
{"id": "C181", "title": "Every JSON value survives its text", "statement": "Every value of the bundled JSON library (finite doubles, 64 bit integers, strings of any bytes, nested arrays and objects) is read back from the text serialize writes, up to numbers that are read as the integers they are equal to, and nothing after the text is consumed.", "quantifier": "all values, nested to any depth, and all texts after them", "why_tests_cant": "All nestings, all byte strings with their escapes, all numbers.", "anchors": ["sumo-api/sumo/images/picojson.h:value::serialize", "sumo-api/sumo/images/picojson.h:serialize_str", "sumo-api/sumo/images/picojson.h:_parse", "sumo-api/sumo/images/picojson.h:_parse_string", "sumo-api/sumo/images/picojson.h:_parse_codepoint"]}
{"id": "C182", "title": "Embedded binary data survive base64", "statement": "Binary data of any length encoded as base64 decode to the same bytes; the text has four characters, which need no escape in JSON, for every three bytes begun; behind any of the seven headers of data URIs the data and the type are recovered exactly if there are any data and their number is the required one. A buffer of a glTF document or GLB file with such a URI is loaded with exactly these bytes if byteLength is their number, and the document is refused otherwise.", "quantifier": "all byte strings, headers and required sizes", "why_tests_cant": "All byte strings, with each of the three lengths of the last group.", "anchors": ["sumo-api/sumo/threedee/tiny_gltf/tiny_gltf.h:base64_encode", "sumo-api/sumo/threedee/tiny_gltf/tiny_gltf.h:base64_decode", "sumo-api/sumo/threedee/tiny_gltf/tiny_gltf.h:DecodeDataURI"]}
{"id": "C183", "title": "Grey images pass between numpy and OpenCV unchanged", "statement": "A uint8, uint16 or float32 array that is accepted as a grey image is seen by OpenCV with its size and its elements, without a copy; the array made of such an image has the same type, shape and elements. Arrays of another type, of another number of dimensions or not contiguous are refused.", "quantifier": "all types, sizes, strides, addresses and contents of memory", "why_tests_cant": "All layouts of arrays in memory, among them rows and columns of size 1 with arbitrary strides.", "anchors": ["sumo-api/sumo/opencv/wrap.pyx:mat1b_from_array", "sumo-api/sumo/opencv/wrap.pyx:mat1w_from_array", "sumo-api/sumo/opencv/wrap.pyx:mat1f_from_array", "sumo-api/sumo/opencv/wrap.pyx:array_from_mat1b", "sumo-api/sumo/opencv/wrap.pyx:array_from_mat1w", "sumo-api/sumo/opencv/wrap.pyx:array_from_mat1f"]}
{"id": "C184", "title": "Images of any layout pass between numpy and OpenCV unchanged", "statement": "An array that the generic conversion accepts as an image is seen by OpenCV with its own elements, whatever its memory layout, and is recovered by the conversion back; arrays that are no images are refused.", "quantifier": "all arrays, strides and contents of memory", "why_tests_cant": "All layouts of arrays in memory.", "anchors": ["sumo-api/sumo/opencv/wrap.pyx:mat_from_array", "sumo-api/sumo/opencv/wrap.pyx:array_from_mat"]}
{"id": "C185", "title": "Strings of JSON texts are read exactly as JSON says", "statement": "After an opening quote, the bundled JSON parser reads a string exactly if the text goes on with characters the JSON grammar allows and a closing quote. The string read is what those characters stand for, with escapes replaced and code points (also surrogate pairs) in UTF-8, and reading goes on right after the quote.", "quantifier": "all texts, accepted or not", "why_tests_cant": "All texts: every mix of plain characters, escapes, surrogates and texts that are cut off.", "anchors": ["sumo-api/sumo/images/picojson.h:_parse_string", "sumo-api/sumo/images/picojson.h:_parse_codepoint", "sumo-api/sumo/images/picojson.h:_parse_quadhex"]}
{"id": "C186", "title": "Only JSON values are accepted as JSON", "statement": "A text the bundled JSON parser accepts begins with a value of the JSON grammar, where any run of number characters may stand for a number. The value read has the structure that text stands for; of the members of an object with the same key, the last one counts. What is left is exactly the text after the value.", "quantifier": "all texts, accepted or not, nested to any depth", "why_tests_cant": "All texts, most of them not written by the library: any nesting, blanks, repeated keys, texts that are cut off.", "anchors": ["sumo-api/sumo/images/picojson.h:_parse", "sumo-api/sumo/images/picojson.h:_parse_array", "sumo-api/sumo/images/picojson.h:_parse_object", "sumo-api/sumo/images/picojson.h:_parse_string"]}
