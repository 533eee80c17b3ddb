{
 "claims": [
  {
   "property": "C01",
   "status": "proved",
   "theorems": [
    "Sumo.C01_one_to_one"
   ],
   "note": "agnostic and per-category tables; no assumption on the scenes"
  },
  {
   "property": "C02",
   "status": "proved",
   "theorems": [
    "Sumo.C02_matches_are_real"
   ],
   "note": "for scenes keyed by element id"
  },
  {
   "property": "C03",
   "status": "proved",
   "theorems": [
    "Sumo.C03_no_blocking_pair",
    "Sumo.C03_unmatched"
   ],
   "note": ""
  },
  {
   "property": "C04",
   "status": "proved",
   "theorems": [
    "Sumo.C04_greedy_unique",
    "Sumo.C04_greedy_unique_ties"
   ],
   "note": "also with ties, broken by scene order"
  },
  {
   "property": "C05",
   "status": "proved",
   "theorems": [
    "Sumo.C05_threshold_independent",
    "Sumo.C05_category_threshold_independent"
   ],
   "note": ""
  },
  {
   "property": "C06",
   "status": "proved",
   "theorems": [
    "Sumo.C06_order_independent",
    "Sumo.C06_ties_depend_on_order"
   ],
   "note": "the no-ties hypothesis is shown to be needed"
  },
  {
   "property": "C07",
   "status": "proved",
   "theorems": [
    "Sumo.C07_category_is_restriction",
    "Sumo.C07_same_category",
    "Sumo.C07_ill_keyed_raises"
   ],
   "note": ""
  },
  {
   "property": "C08",
   "status": "proved",
   "theorems": [
    "Sumo.C08_score_ranking"
   ],
   "note": ""
  },
  {
   "property": "C09",
   "status": "proved",
   "theorems": [
    "Sumo.C09_ap_range",
    "Sumo.C09_sampled_ap_range"
   ],
   "note": "In exact arithmetic; C135 is the same in double precision."
  },
  {
   "property": "C10",
   "status": "proved",
   "theorems": [
    "Sumo.C10_ap_formula"
   ],
   "note": ""
  },
  {
   "property": "C11",
   "status": "proved",
   "theorems": [
    "Sumo.C11_curve"
   ],
   "note": ""
  },
  {
   "property": "C12",
   "status": "proved",
   "theorems": [
    "Sumo.C12_false_positive_never_helps",
    "Sumo.C12_trailing_false_positives"
   ],
   "note": ""
  },
  {
   "property": "C13",
   "status": "proved",
   "theorems": [
    "Sumo.C13_fixing_a_detection"
   ],
   "note": "strict increase"
  },
  {
   "property": "C14",
   "status": "proved",
   "theorems": [
    "Sumo.C14_listing_order",
    "Sumo.C14_ties_matter"
   ],
   "note": ""
  },
  {
   "property": "C15",
   "status": "proved",
   "theorems": [
    "Sumo.C15_score_ranking"
   ],
   "note": ""
  },
  {
   "property": "C16",
   "status": "proved",
   "theorems": [
    "Sumo.C16_sampled_precision",
    "Sumo.C16_sampled_antitone"
   ],
   "note": ""
  },
  {
   "property": "C17",
   "status": "proved",
   "theorems": [
    "Sumo.C17_hits_first",
    "Sumo.C17_perfect",
    "Sumo.C17_no_hit"
   ],
   "note": "In exact arithmetic; C134 gives the values in double precision."
  },
  {
   "property": "C18",
   "status": "proved",
   "theorems": [
    "Sumo.C18_shape_score_range"
   ],
   "note": "In exact arithmetic; C139 is the same in double precision."
  },
  {
   "property": "C19",
   "status": "partial",
   "theorems": [
    "Sumo.C19_recall_samples_ignored",
    "Sumo.C19_samples_matter_in_compute_ap_partial"
   ],
   "note": "False of the code: compute_ap is called without the configured recall samples. Proved: the score does not depend on them, and that they do matter inside compute_ap."
  },
  {
   "property": "C20",
   "status": "proved",
   "theorems": [
    "Sumo.C20_unevaluated_ignored",
    "Sumo.C20_vectors"
   ],
   "note": ""
  },
  {
   "property": "C21",
   "status": "proved",
   "theorems": [
    "Sumo.C21_semantics_score"
   ],
   "note": "In exact arithmetic; C139 is the same in double precision."
  },
  {
   "property": "C22",
   "status": "proved",
   "theorems": [
    "Sumo.C22_perceptual_range"
   ],
   "note": ""
  },
  {
   "property": "C23",
   "status": "proved",
   "theorems": [
    "Sumo.C23_perfect_submission",
    "Sumo.C23_perfect_submission_default",
    "Sumo.C23_room_scale_matters",
    "Sumo.C23_unevaluated_floor"
   ],
   "note": "C23_unevaluated_floor shows why evaluated floors are required: an exact copy of a scene with an unevaluated floor scores below 1, because all submitted floors are counted but only evaluated ground truth ones."
  },
  {
   "property": "C24",
   "status": "proved",
   "theorems": [
    "Sumo.C24_set_order",
    "Sumo.C24_missed",
    "Sumo.C24_extra"
   ],
   "note": ""
  },
  {
   "property": "C25",
   "status": "partial",
   "theorems": [
    "Sumo.C25_pose_error",
    "Sumo.C25_exact_pose_partial",
    "Sumo.C25_exact_pose_gimbal_lock"
   ],
   "note": "Everything is proved except zero error for exact poses of cylindrical elements in gimbal lock, which is false (witness). Arithmetic is exact; see C142 for double precision."
  },
  {
   "property": "C26",
   "status": "proved",
   "theorems": [
    "Sumo.C26_geodesic_distance",
    "Sumo.C26_range",
    "Sumo.C26_spherical",
    "Sumo.C26_self",
    "Sumo.C26_no_symmetry"
   ],
   "note": ""
  },
  {
   "property": "C27",
   "status": "proved",
   "theorems": [
    "Sumo.C27_least_equivalent",
    "Sumo.C27_invariant"
   ],
   "note": ""
  },
  {
   "property": "C28",
   "status": "partial",
   "theorems": [
    "Sumo.C28_cylinder_partial",
    "Sumo.C28_x_axis_partial",
    "Sumo.C28_y_axis_partial",
    "Sumo.C28_z_axis_partial",
    "Sumo.C28_false_y",
    "Sumo.C28_false_z",
    "Sumo.C28_false_x"
   ],
   "note": "False of the code: the free angle is copied in Euler angles, which is only invariant for the ranges in the partial theorems; witnesses given for each axis."
  },
  {
   "property": "C29",
   "status": "proved",
   "theorems": [
    "Sumo.C29_room_scale",
    "Sumo.C29_only_floors"
   ],
   "note": ""
  },
  {
   "property": "C30",
   "status": "proved",
   "theorems": [
    "Sumo.C30_range",
    "Sumo.C30_symmetric",
    "Sumo.C30_self",
    "Sumo.C30_empty"
   ],
   "note": ""
  },
  {
   "property": "C31",
   "status": "proved",
   "theorems": [
    "Sumo.C31_value",
    "Sumo.C31_quick_reject_sound"
   ],
   "note": ""
  },
  {
   "property": "C32",
   "status": "proved",
   "theorems": [
    "Sumo.C32_quick_reject_sound",
    "Sumo.C32_similarity_range",
    "Sumo.C32_flat",
    "Sumo.Track.C32_stored"
   ],
   "note": "pymesh's boolean is a parameter (the intersection volume)"
  },
  {
   "property": "C33",
   "status": "partial",
   "theorems": [
    "Sumo.C33_voxel_scores_differ",
    "Sumo.C33_voxel_exchanged_partial",
    "Sumo.C33_mesh_not_exchanged"
   ],
   "note": "False of the code: the voxel evaluator hands submission and ground truth to the base class in the wrong order. Proved: the scores differ on a concrete pair, and the exact exchanged behaviour."
  },
  {
   "property": "C34",
   "status": "proved",
   "theorems": [
    "Sumo.C34_points_rms",
    "Sumo.C34_points_rms_values",
    "Sumo.C34_color_rms",
    "Sumo.C34_color_zero",
    "Sumo.C34_color_empty_raises"
   ],
   "note": "The colour error needs non-empty matched clouds; C34_color_empty_raises shows the ValueError otherwise (only reachable at thresholds <= 0)."
  },
  {
   "property": "C35",
   "status": "proved",
   "theorems": [
    "Sumo.C35_pose_group",
    "Sumo.C35_pose_action",
    "Sumo.C35_pose_rigid",
    "Sumo.C35_pose_matrix",
    "Sumo.C35_mul_operator"
   ],
   "note": ""
  },
  {
   "property": "C36",
   "status": "proved",
   "theorems": [
    "Sumo.C36_rotation_constructors",
    "Sumo.C36_angles_add",
    "Sumo.C36_axis_angle",
    "Sumo.C36_camera_heading",
    "Sumo.C36_camera_roll",
    "Sumo.C36_columns",
    "Sumo.C36_columns_rotation",
    "Sumo.C36_scalars",
    "Sumo.C36_camera_pose"
   ],
   "note": ""
  },
  {
   "property": "C37",
   "status": "partial",
   "theorems": [
    "Sumo.C37_quat_round_trip",
    "Sumo.C37_euler_to_quat",
    "Sumo.C37_euler_round_trip_partial",
    "Sumo.C37_euler_of_matrix",
    "Sumo.C37_euler_gimbal_value",
    "Sumo.C37_euler_gimbal_lock"
   ],
   "note": "False at gimbal lock (pitch \u00b190\u00b0): both atan2 calls get (0,0) and the round trip loses the rotation. Proved everywhere else, with the exact value and a witness at gimbal lock."
  },
  {
   "property": "C38",
   "status": "partial",
   "theorems": [
    "Sumo.C38_xml_round_trip_partial",
    "Sumo.C38_xml_exact",
    "Sumo.C38_false",
    "Sumo.C38_accepts_iff_partial",
    "Sumo.C38_refuses",
    "Sumo.C38_false_column",
    "Sumo.C38_json_round_trip",
    "Sumo.C38_json_missing",
    "Sumo.C38_false_json",
    "Sumo.C38_surreal_round_trip",
    "Sumo.C38_surreal_rotation",
    "Sumo.NumText.exists"
   ],
   "note": "JSON and surreal round trips are exact for every pose (rotation matrices for surreal). XML keeps eight decimals only: proved with an error bound, exact for numbers with at most eight decimals and nine significant digits; as worded it is false (1/3 is not read back). Malformed documents: the exact set of accepted documents is proved; it is larger than the documented one (a rotation column of a single number is broadcast; JSON columns of any common length are accepted)."
  },
  {
   "property": "C39",
   "status": "proved",
   "theorems": [
    "Sumo.C39_corners",
    "Sumo.C39_constructor"
   ],
   "note": ""
  },
  {
   "property": "C40",
   "status": "proved",
   "theorems": [
    "Sumo.C40_merge_least",
    "Sumo.C40_merge_order_grouping"
   ],
   "note": ""
  },
  {
   "property": "C41",
   "status": "proved",
   "theorems": [
    "Sumo.C41_bbox_tight",
    "Sumo.C41_bbox_meshes"
   ],
   "note": ""
  },
  {
   "property": "C42",
   "status": "partial",
   "theorems": [
    "Sumo.C42_round_trip_partial",
    "Sumo.C42_exact",
    "Sumo.C42_false",
    "Sumo.C42_accepts_iff",
    "Sumo.C42_refuses"
   ],
   "note": "Boxes are read back to within half a unit of the eighth decimal (exactly for short decimals); exactness for all boxes is false (witness at 1/3). The set of accepted documents is characterised exactly; refusals are RuntimeError, or TypeError for a corner without text."
  },
  {
   "property": "C43",
   "status": "proved",
   "theorems": [
    "Sumo.C43_box_mesh"
   ],
   "note": ""
  },
  {
   "property": "C44",
   "status": "proved",
   "theorems": [
    "Sumo.C44_vectorize_linearize",
    "Sumo.C44_injective",
    "Sumo.C44_linearize_vectorize"
   ],
   "note": ""
  },
  {
   "property": "C45",
   "status": "proved",
   "theorems": [
    "Sumo.C45_occupied",
    "Sumo.C45_overflow"
   ],
   "note": "C45_overflow shows the extent condition is needed: size_x*size_y wraps in int32."
  },
  {
   "property": "C46",
   "status": "partial",
   "theorems": [
    "Sumo.C46_union_partial",
    "Sumo.C46_union_iff",
    "Sumo.C46_false"
   ],
   "note": "False of the code: when only one of the x/y sizes grows, both are replaced (voxel_grid.py:129-130) and earlier voxels move. Proved for sequences whose extents grow together; C46_union_iff says exactly when the union is right after every call."
  },
  {
   "property": "C47",
   "status": "proved",
   "theorems": [
    "Sumo.C47_rejects",
    "Sumo.C47_voxel_size"
   ],
   "note": ""
  },
  {
   "property": "C48",
   "status": "proved",
   "theorems": [
    "Sumo.C48_bounds"
   ],
   "note": "In exact arithmetic; C140 is the same in machine precision."
  },
  {
   "property": "C49",
   "status": "proved",
   "theorems": [
    "Sumo.C49_save_load",
    "Sumo.C49_built_grid"
   ],
   "note": ""
  },
  {
   "property": "C50",
   "status": "proved",
   "theorems": [
    "Sumo.C50_voxelizer"
   ],
   "note": ""
  },
  {
   "property": "C51",
   "status": "proved",
   "theorems": [
    "Sumo.C51_vertices",
    "Sumo.C51_corners",
    "Sumo.C51_uncommon",
    "Sumo.C51_in_range"
   ],
   "note": ""
  },
  {
   "property": "C52",
   "status": "partial",
   "theorems": [
    "Sumo.C52_renumber_partial",
    "Sumo.C52_other_indices",
    "Sumo.C52_defined",
    "Sumo.C52_false"
   ],
   "note": "False of the code: an index beyond the renumbered block is shifted by the number of new vertices although its vertex moves by that minus the block length (TexturedMesh.cpp:52-56). Proved when all indices are in the block or nothing is renumbered; C52_other_indices states what happens otherwise."
  },
  {
   "property": "C53",
   "status": "partial",
   "theorems": [
    "Sumo.C53_quadrants_partial",
    "Sumo.C53_false"
   ],
   "note": "False for quadrants with more than four vertices (inherits C52). Proved for four-vertex quadrants with any triangles."
  },
  {
   "property": "C54",
   "status": "proved",
   "theorems": [
    "Sumo.C54_long_edges",
    "Sumo.C54_edges_to_origin"
   ],
   "note": ""
  },
  {
   "property": "C55",
   "status": "proved",
   "theorems": [
    "Sumo.C55_face_normals",
    "Sumo.C55_vertex_normals",
    "Sumo.C55_equivariant"
   ],
   "note": ""
  },
  {
   "property": "C56",
   "status": "partial",
   "theorems": [
    "Sumo.C56_create",
    "Sumo.C56_merge_partial",
    "Sumo.C56_merge_plain",
    "Sumo.C56_merge_refused",
    "Sumo.C56_sum",
    "Sumo.C56_register",
    "Sumo.C56_false",
    "Sumo.C56_color_at"
   ],
   "note": "False of the code: an uncoloured cloud merged with a coloured one is accepted and the colours no longer line up with the points (point_cloud.pyx:78-86). Proved for clouds that are both coloured or both uncoloured, for sum and for register."
  },
  {
   "property": "C57",
   "status": "proved",
   "theorems": [
    "Sumo.C57_sample_mesh",
    "Sumo.C57_incomplete",
    "Sumo.C57_sample_element",
    "Sumo.C57_no_meshes",
    "Sumo.C57_reaches"
   ],
   "note": ""
  },
  {
   "property": "C58",
   "status": "partial",
   "theorems": [
    "Sumo.C58_replace_partial",
    "Sumo.C58_replace_textured_partial",
    "Sumo.C58_false"
   ],
   "note": "False of m.replace_geometry(m), which empties the mesh. Proved for distinct objects."
  },
  {
   "property": "C59",
   "status": "proved",
   "theorems": [
    "Sumo.C59_accepts_documented",
    "Sumo.C59_none_rejected",
    "Sumo.C59_eq_iff",
    "Sumo.C59_ne_recursion",
    "Sumo.C59_from_strings",
    "Sumo.Show.C59_str",
    "Sumo.C59_example"
   ],
   "note": "C59_ne_recursion: the `!=` operator recurses for ever (RecursionError), `==` is right"
  },
  {
   "property": "C60",
   "status": "partial",
   "theorems": [
    "Sumo.C60_round_trip",
    "Sumo.C60_from_xml_partial",
    "Sumo.C60_unknown_name_accepted"
   ],
   "note": "The error half is false: an unknown symmetry name is swallowed and None returned. Round trip and the exact set of accepted documents are proved."
  },
  {
   "property": "C61",
   "status": "partial",
   "theorems": [
    "Sumo.C61_round_trip_partial",
    "Sumo.C61_file_round_trip_partial",
    "Sumo.C61_empty_id_false",
    "Sumo.C61_missing_id_partial",
    "Sumo.C61_false",
    "Sumo.C61_defaults",
    "Sumo.C61_return_false"
   ],
   "note": "Pose and bounds come back to within the eight decimals of the XML text (exact for short decimals); through a file ids must be non-empty. Mesh ids must not consist of dots only (the GLB name would have no extension). A missing id is always refused, but with UnboundLocalError instead of ValueError (C61_false). GLB files are a parameter here: the loaded meshes are what loading the written file gives; C131 fills it in."
  },
  {
   "property": "C62",
   "status": "proved",
   "theorems": [
    "Sumo.C62_round_trip",
    "Sumo.C62_duplicate_ids"
   ],
   "note": "Objects compare by SameObject (pose and bounds to eight decimals). C62_duplicate_ids shows that the hypothesis keys = ids is needed."
  },
  {
   "property": "C63",
   "status": "partial",
   "theorems": [
    "Sumo.C63_round_trip_partial",
    "Sumo.C63_existing",
    "Sumo.C63_false",
    "Sumo.C63_extra_settings_false"
   ],
   "note": "Proved for scenes whose elements are a ProjectObjectDict. False for scenes made by transform_pose (plain dict, save raises AttributeError) and for settings other than the three in the file."
  },
  {
   "property": "C64",
   "status": "partial",
   "theorems": [
    "Sumo.C64_action_partial",
    "Sumo.C64_false"
   ],
   "note": "The action laws, the identity, the inverse and the unchanged rest are proved; the settings are replaced by the defaults (C64_false)."
  },
  {
   "property": "C65",
   "status": "proved",
   "theorems": [
    "Sumo.C65_refuses",
    "Sumo.C65_converts",
    "Sumo.C65_succeeds"
   ],
   "note": ""
  },
  {
   "property": "C66",
   "status": "proved",
   "theorems": [
    "Sumo.C66_well_formed",
    "Sumo.C66_size"
   ],
   "note": ""
  },
  {
   "property": "C67",
   "status": "partial",
   "theorems": [
    "Sumo.C67_views_partial",
    "Sumo.C67_images",
    "Sumo.C67_images_behind",
    "Sumo.C67_false",
    "Sumo.C67_accepts_iff",
    "Sumo.Gltf.C67_documents"
   ],
   "note": "False for a view without byteOffset into a buffer other than the first: it is moved to offset 0 of the file (glb_converter.pyx:186-193). Proved for the other views; image views include up to three trailing padding spaces. C67_accepts_iff characterises when the conversion succeeds; C67_documents carries the result over to JSON documents."
  },
  {
   "property": "C68",
   "status": "partial",
   "theorems": [
    "Sumo.Gltf.C68_partial",
    "Sumo.Gltf.C68_accepts",
    "Sumo.Gltf.C68_constructed",
    "Sumo.Gltf.C68_textured",
    "Sumo.Gltf.C68_false"
   ],
   "note": "False for a textured mesh without a base colour texture: its material keeps texture index 0 (TexturedMesh.cpp:31-34, GltfModel.cpp:325-334), so extraction raises or returns another mesh's texture. Proved for all other meshes."
  },
  {
   "property": "C69",
   "status": "partial",
   "theorems": [
    "Sumo.Gltf.C69_partial",
    "Sumo.Gltf.C69_uv_partial",
    "Sumo.Gltf.C69_false",
    "Sumo.Gltf.C69_infinite"
   ],
   "note": "The running minimum and maximum start from INT_MAX and INT_MIN, so data beyond these is bounded wrongly (C69_false). Proved for data within."
  },
  {
   "property": "C70",
   "status": "proved",
   "theorems": [
    "Sumo.C70_zero_is_infinity",
    "Sumo.C70_decode16",
    "Sumo.C70_decode8",
    "Sumo.C70_roundtrip16",
    "Sumo.C70_roundtrip8",
    "Sumo.C70_error16",
    "Sumo.C70_error16_exact",
    "Sumo.C70_error8",
    "Sumo.C70_monotone16",
    "Sumo.C70_monotone8",
    "Sumo.C70_upgrade",
    "Sumo.C70_upgrade_legacy",
    "Sumo.C70_image_roundtrip",
    "Sumo.C70_image8"
   ],
   "note": "For every lawful float rounding (monotone, relative error within half an ulp)."
  },
  {
   "property": "C71",
   "status": "partial",
   "theorems": [
    "Sumo.Tiff.C71_round_trip",
    "Sumo.Tiff.C71_stable",
    "Sumo.Tiff.C71_refused_unwritten",
    "Sumo.Tiff.C71_accepts_iff",
    "Sumo.Tiff.C71_defined_partial",
    "Sumo.Tiff.C71_false",
    "Sumo.Tiff.C71_inverse_depth",
    "Sumo.Tiff.C71_legacy",
    "Sumo.Tiff.C71_rgbd360",
    "Sumo.Tiff.C71_rgbdci360",
    "Sumo.Tiff.C71_rgbdci360_needs_labels",
    "Sumo.Tiff.C71_validated_first",
    "Sumo.Tiff.C71_no_metadata"
   ],
   "note": "libtiff and the JSON text are parameters: a written file is the list of its pages. Everything is proved except that every refused page map raises an exception: this is false, a label page of another type or a colour image that is not contiguous in memory (a slice) makes save go on with a null pointer, because mat1w_from_array and mat3b_from_array are declared `except +` and their ValueError is not looked for."
  },
  {
   "property": "C72",
   "status": "partial",
   "theorems": [
    "Sumo.C72_lookup_partial",
    "Sumo.C72_image",
    "Sumo.C72_missing_file",
    "Sumo.C72_ragged",
    "Sumo.C72_false"
   ],
   "note": "False of the code for an id equal to the table length (IndexError instead of the fallback) and for duplicate names. Proved otherwise."
  },
  {
   "property": "C73",
   "status": "proved",
   "theorems": [
    "Sumo.C73_faces_right_handed",
    "Sumo.C73_on_face",
    "Sumo.C73_injective",
    "Sumo.C73_surjective",
    "Sumo.C73_vertical_seams",
    "Sumo.C73_up_down_seams",
    "Sumo.C73_beyond",
    "Sumo.C73_pixels"
   ],
   "note": ""
  },
  {
   "property": "C74",
   "status": "proved",
   "theorems": [
    "Sumo.C74_points",
    "Sumo.C74_all_points",
    "Sumo.C74_shape_mismatch"
   ],
   "note": ""
  },
  {
   "property": "C75",
   "status": "partial",
   "theorems": [
    "Sumo.Downloader.C75_markers_partial",
    "Sumo.Downloader.C75_complete_partial",
    "Sumo.Downloader.C75_failures_partial",
    "Sumo.Downloader.C75_resumes_partial",
    "Sumo.Downloader.C75_no_deadlock",
    "Sumo.Downloader.C75_cache_in_name",
    "Sumo.Downloader.C75_false"
   ],
   "note": "False: a file left incomplete by a killed run (or by a transfer that ends early without an exception) is taken for the archive by all later runs (download_sumo_datasets.py:240-250); it is never fetched again and extraction fails for ever. Proved: marker files are truthful after every history, a run that reports completion has extracted everything, failures that raise leave no incomplete archive, and from such a state a run without failures terminates with everything extracted."
  },
  {
   "property": "C76",
   "status": "partial",
   "theorems": [
    "Sumo.C76_false",
    "Sumo.C76_solid_volume_partial",
    "Sumo.C76_surface_inside_partial"
   ],
   "note": "False of the code: the face table does not match the corner order; the solid is the box minus a corner tetrahedron, 5/6 of the volume."
  },
  {
   "property": "C77",
   "status": "partial",
   "theorems": [
    "Sumo.C77_all_evaluated_partial",
    "Sumo.C77_false"
   ],
   "note": "False of the code: unevaluated ground truth elements that are matched do count (witness). Proved when all matched ground truth elements are evaluated."
  },
  {
   "property": "C78",
   "status": "proved",
   "theorems": [
    "Sumo.C78_settings_reusable"
   ],
   "note": ""
  },
  {
   "property": "C79",
   "status": "partial",
   "theorems": [
    "Sumo.C79_lookup_partial",
    "Sumo.C79_cell",
    "Sumo.C79_false"
   ],
   "note": "False of the code: u selects the row and v the column (mesh_evaluator.py:64-66, model_sampler.pyx:57-59). Proved that the lookup is always inside the image and which texel it gives."
  },
  {
   "property": "C80",
   "status": "partial",
   "theorems": [
    "Sumo.C80_empty_mesh_counterexample",
    "Sumo.C80_empty_meshes_partial"
   ],
   "note": "False of the code: an empty mesh contributes the origin."
  },
  {
   "property": "C81",
   "status": "partial",
   "theorems": [
    "Sumo.C81_load_partial",
    "Sumo.C81_false"
   ],
   "note": "False of the code: the IOError is built but never raised; UnboundLocalError results."
  },
  {
   "property": "C82",
   "status": "partial",
   "theorems": [
    "Sumo.C82_textured_merge_partial",
    "Sumo.C82_defined",
    "Sumo.C82_false"
   ],
   "note": "False when the first mesh has fewer texture coordinates than vertices, which the constructor allows."
  },
  {
   "property": "C83",
   "status": "proved",
   "theorems": [
    "Sumo.C83_transform",
    "Sumo.C83_action",
    "Sumo.C83_inverse",
    "Sumo.C83_rotate_textured"
   ],
   "note": ""
  },
  {
   "property": "C84",
   "status": "partial",
   "theorems": [
    "Sumo.C84_copy_partial",
    "Sumo.C84_false"
   ],
   "note": "False of the code: the copy constructor and transform drop the material."
  },
  {
   "property": "C85",
   "status": "proved",
   "theorems": [
    "Sumo.C85_example",
    "Sumo.C85_normals"
   ],
   "note": ""
  },
  {
   "property": "C86",
   "status": "proved",
   "theorems": [
    "Sumo.C86_cube",
    "Sumo.C86_cube_texture"
   ],
   "note": ""
  },
  {
   "property": "C87",
   "status": "partial",
   "theorems": [
    "Sumo.C87_mesh_cube_partial",
    "Sumo.C87_false"
   ],
   "note": "False of the code: the index array is np.empty and never filled."
  },
  {
   "property": "C88",
   "status": "proved",
   "theorems": [
    "Sumo.C88_dual_texture",
    "Sumo.C88_kept"
   ],
   "note": ""
  },
  {
   "property": "C89",
   "status": "partial",
   "theorems": [
    "Sumo.C89_boundaries_partial",
    "Sumo.C89_false"
   ],
   "note": "False as documented: negative depths do not raise but get the code of the near plane, and depths between near*PIXEL_MAX and twice that get 1, not 0. The partial theorem states what does hold."
  },
  {
   "property": "C90",
   "status": "partial",
   "theorems": [
    "Sumo.C90_semicolons_partial",
    "Sumo.C90_signed",
    "Sumo.C90_false"
   ],
   "note": "False: the documented colour format raises ValueError. Proved for semicolon separated colours, the format of the shipped table."
  },
  {
   "property": "C91",
   "status": "proved",
   "theorems": [
    "Sumo.C91_transform",
    "Sumo.C91_transform_plain",
    "Sumo.C91_round_trip",
    "Sumo.C91_thin"
   ],
   "note": ""
  },
  {
   "property": "C92",
   "status": "proved",
   "theorems": [
    "Sumo.C92_uniform",
    "Sumo.C92_coefficients"
   ],
   "note": ""
  },
  {
   "property": "C93",
   "status": "partial",
   "theorems": [
    "Sumo.C93_samplers_agree_partial",
    "Sumo.C93_false"
   ],
   "note": "False for models whose meshes have no triangles: ModelSampler then returns an array with 3 columns. Proved otherwise."
  },
  {
   "property": "C94",
   "status": "partial",
   "theorems": [
    "Sumo.C94_save_effects_partial",
    "Sumo.C94_false",
    "Sumo.C63_existing"
   ],
   "note": "False: a failed save leaves the directory behind and a retry then fails. Proved that nothing else changes and existing projects are never touched."
  },
  {
   "property": "C95",
   "status": "partial",
   "theorems": [
    "Sumo.C95_reloaded",
    "Sumo.C95_compares",
    "Sumo.C95_dict",
    "Sumo.C95_false",
    "Sumo.Gltf.C95_same_size",
    "Sumo.Project.C95_scene"
   ],
   "note": "False: almost_equal is not symmetric (C95_false). Proved: scenes saved to and loaded from files are almost_equal in both directions, under the conditions of C131 (C95_scene); the comparison is characterised; it is not symmetric."
  },
  {
   "property": "C96",
   "status": "partial",
   "theorems": [
    "Sumo.C96_loaded_partial",
    "Sumo.C96_two_loads_partial",
    "Sumo.C96_false",
    "Sumo.C65_converts"
   ],
   "note": "False for scenes created without settings and by transform_pose, which share DEFAULT_SETTINGS. Loaded and converted scenes have their own settings."
  },
  {
   "property": "C97",
   "status": "partial",
   "theorems": [
    "Sumo.Gltf.C97_partial",
    "Sumo.Gltf.C97_kind",
    "Sumo.Gltf.C97_false",
    "Sumo.Gltf.C97_bad_picture",
    "Sumo.Gltf.C97_image_name"
   ],
   "note": "False: colours with a zero component are ignored (GltfModel.cpp:564) and an undecodable picture is accepted (602). Proved otherwise."
  },
  {
   "property": "C98",
   "status": "partial",
   "theorems": [
    "Sumo.Gltf.C98_partial",
    "Sumo.Gltf.C98_false"
   ],
   "note": "False: number_array and number_value (so colours) are ignored (Mesh.cpp:183-190). Proved what is compared."
  },
  {
   "property": "C99",
   "status": "partial",
   "theorems": [
    "Sumo.GlbSave.C99_partial",
    "Sumo.GlbSave.C99_working_directory",
    "Sumo.GlbSave.C99_side_effects",
    "Sumo.GlbSave.C99_relative",
    "Sumo.GlbSave.C99_bad_name",
    "Sumo.GlbSave.C99_false"
   ],
   "note": "False for relative paths: the path is resolved inside the temporary folder (gltf_model.pyx:266-273), so a bare name is silently lost and a path with directories raises IOError. A wrong extension leaks the temporary folder. Proved for absolute paths."
  },
  {
   "property": "C100",
   "status": "partial",
   "theorems": [
    "Sumo.Tiff.C100_partial",
    "Sumo.Tiff.C100_false"
   ],
   "note": "False: a 16 bit colour page overflows its buffer (RgbdTiff.cpp:160-176) and a colour page named category or instance ends in an uncaught C++ exception. Proved for all other files."
  },
  {
   "property": "C101",
   "status": "partial",
   "theorems": [
    "Sumo.Ply.C101_written",
    "Sumo.Ply.C101_round_trip_partial",
    "Sumo.Ply.C101_false",
    "Sumo.Ply.C101_empty_false"
   ],
   "note": "False: colours are written but never read back (point_cloud_ply_c.cpp:24-51), and the file of an empty cloud fails an assertion when loaded. Proved: what is written, and that points come back in order, rounded to single precision."
  },
  {
   "property": "C102",
   "status": "partial",
   "theorems": [
    "Sumo.Ply.C102_reads_partial",
    "Sumo.Ply.C102_order_false",
    "Sumo.Ply.C102_double_false"
   ],
   "note": "False: columns are read in file order whatever their names, so z, y, x come back swapped, and double coordinates overflow the buffer. Proved for every well formed binary file of either byte order with float columns in the order x, y, z, with any other elements, columns and lists."
  },
  {
   "property": "C103",
   "status": "partial",
   "theorems": [
    "Sumo.Ply.C103_partial",
    "Sumo.Ply.C103_missing_false",
    "Sumo.Ply.C103_no_vertex_false",
    "Sumo.Ply.C103_truncated_false",
    "Sumo.Ply.C103_negative_false",
    "Sumo.Ply.C103_no_count_false"
   ],
   "note": "False: a negative number of points is taken modulo 2^64, a missing one is undefined; a missing file or one without vertices ends the process (no `except +` in the declaration) and a truncated file gives made-up points. Proved: the only Python exception is the AssertionError for a file without points."
  },
  {
   "property": "C104",
   "status": "partial",
   "theorems": [
    "Sumo.Ply.C104_partial",
    "Sumo.Ply.C104_false",
    "Sumo.Ply.C104_unwritable_false"
   ],
   "note": "False: a cloud merged from one without and one with colours has fewer colours than points and is written by reading outside its memory; an unwritable file ends the process. Proved: reading outside happens exactly if there are fewer colours (but some) than points."
  },
  {
   "property": "C105",
   "status": "partial",
   "theorems": [
    "Sumo.C105_outcome_partial",
    "Sumo.C105_slices",
    "Sumo.C105_false"
   ],
   "note": "False: a colour or range image that is not contiguous in memory (a slice) makes the code read a null pointer, and an image wider than six times its height ends the process (rgbdci_360.pxd has no `except +`). Proved: this happens exactly if a pixel of valid range lies beyond the sixth face; otherwise a cloud is returned."
  },
  {
   "property": "C106",
   "status": "partial",
   "theorems": [
    "Sumo.Gltf.C106_outcome_partial",
    "Sumo.Gltf.C106_covers",
    "Sumo.Gltf.C106_false"
   ],
   "note": "False: a picture file that is missing or empty ends the process (gltf_model.pxd:34-35 has no `except +`). Proved: the outcome for every list of entries."
  },
  {
   "property": "C107",
   "status": "proved",
   "theorems": [
    "Sumo.Gltf.C107_add_never_fails"
   ],
   "note": ""
  },
  {
   "property": "C108",
   "status": "partial",
   "theorems": [
    "Sumo.Track.C108_scores_stable_partial",
    "Sumo.Track.C108_rms_partial",
    "Sumo.Track.C108_false"
   ],
   "note": "False of the surface errors of a mesh evaluator: a later mesh evaluator on the same elements draws new points into them, and the first evaluator then reports other surface errors. Proved: all other metrics stay for every sequence of later constructor calls; the surface errors stay for voxels always, for meshes if no later mesh evaluator touches the elements."
  },
  {
   "property": "C109",
   "status": "partial",
   "theorems": [
    "Sumo.Track.C109_defaults_partial",
    "Sumo.Track.C109_missing_keys",
    "Sumo.Track.C109_false"
   ],
   "note": "False of the mesh track: without settings MeshEvaluator reads settings[\"density\"] of None and raises TypeError as soon as there is an element. Proved for bounding boxes and voxels; which missing keys raise KeyError."
  },
  {
   "property": "C110",
   "status": "partial",
   "theorems": [
    "Sumo.Track.C110_partial",
    "Sumo.Track.C110_false"
   ],
   "note": "False: the thresholds are 0.25 to 0.75, the recall samples 0 to 1 in steps of 0.1. Proved: what the defaults are."
  },
  {
   "property": "C111",
   "status": "partial",
   "theorems": [
    "Sumo.Track.C111_bb_partial",
    "Sumo.Track.C111_voxel_partial",
    "Sumo.Track.C111_mesh_partial",
    "Sumo.Track.C111_false"
   ],
   "note": "False of the mesh track: with some random numbers the points drawn for an element and its copy are so far apart that nothing is matched. Proved: the best result for boxes with a volume and for voxel grids, if different elements are distinguishable; for meshes if the drawn points overlap enough."
  },
  {
   "property": "C112",
   "status": "partial",
   "theorems": [
    "Sumo.Track.C112_sorted",
    "Sumo.Track.C112_own_partial",
    "Sumo.Track.C112_false"
   ],
   "note": "False of a dict passed by the caller: it is kept by reference, and a threshold put into it later makes pose_error raise KeyError. Proved: the construction only sorts the thresholds; an evaluator constructed without settings is unaffected by all other dicts."
  },
  {
   "property": "C113",
   "status": "proved",
   "theorems": [
    "Sumo.Track.C113_refused",
    "Sumo.Track.C113_labels",
    "Sumo.Track.C113_printed",
    "Sumo.Track.C113_copy_partial"
   ],
   "note": "C113_copy_partial combines C113 and C111 for copies of scenes of boxes; the loading of the scenes is C61 ff."
  },
  {
   "property": "C114",
   "status": "partial",
   "theorems": [
    "Sumo.C114_refused_partial",
    "Sumo.C114_accepted",
    "Sumo.C114_unknown_tags",
    "Sumo.C114_false"
   ],
   "note": "False of a <scene> document without <elements>: UnboundLocalError instead of the documented ValueError. Proved: which documents give IOError and ValueError, what a loaded scene is, and that unknown tags are ignored. Text that is not XML (ParseError) is outside the model."
  },
  {
   "property": "C115",
   "status": "partial",
   "theorems": [
    "Sumo.Gltf.Model.C115_texture",
    "Sumo.Gltf.Model.C115_refused_partial",
    "Sumo.Gltf.Model.C115_base_color",
    "Sumo.Gltf.Model.C115_false"
   ],
   "note": "False of a texture without source (-1 in memory): images[-1] is read, undefined. Proved for textures that name a picture."
  },
  {
   "property": "C116",
   "status": "partial",
   "theorems": [
    "Sumo.Texture.C116_refused",
    "Sumo.Texture.C116_kept_partial",
    "Sumo.Texture.C116_derived",
    "Sumo.Texture.C116_channels_undefined",
    "Sumo.Texture.C116_false",
    "Sumo.Texture.C116_uniform",
    "Sumo.Texture.C116_uniform_false"
   ],
   "note": "False of arrays with a number of channels other than three: with one or two channels memory past the end is read, with four the channels of neighbouring pixels mix. Proved for three channels and all histories; for from_mesh with a colour of three entries (with four entries the texture is not uniform)."
  },
  {
   "property": "C117",
   "status": "partial",
   "theorems": [
    "Sumo.C117_kept_partial",
    "Sumo.C117_textured_partial",
    "Sumo.C117_refused",
    "Sumo.C117_rows_lost",
    "Sumo.C117_false",
    "Sumo.C117_open3d"
   ],
   "note": "False of vertex arrays that do not have three rows: the exception is lost in a C function and the mesh has no vertices. Proved for arrays of three rows; element types and dimensions that are refused; meshes from Open3D."
  },
  {
   "property": "C118",
   "status": "partial",
   "theorems": [
    "Sumo.C118_kept_partial",
    "Sumo.C118_refused",
    "Sumo.C118_plain",
    "Sumo.C118_black",
    "Sumo.C118_false"
   ],
   "note": "False of colours with an entry outside 0 to 255: such a colour becomes black without an exception, and fractions are cut off. Proved for entries from 0 to 255 (integer parts)."
  },
  {
   "property": "C119",
   "status": "partial",
   "theorems": [
    "Sumo.C119_matrix_partial",
    "Sumo.C119_vector",
    "Sumo.C119_refused",
    "Sumo.C119_false"
   ],
   "note": "False of 3x3 arrays of another type than float64: the exception is lost and the quaternion is computed from unset memory. Proved for float64 arrays."
  },
  {
   "property": "C120",
   "status": "partial",
   "theorems": [
    "Sumo.PoseHeap.C120_pose_values",
    "Sumo.PoseHeap.C120_values",
    "Sumo.PoseHeap.C120_frame",
    "Sumo.PoseHeap.C120_fresh",
    "Sumo.PoseHeap.C120_inverse_follows",
    "Sumo.PoseHeap.C120_default_partial",
    "Sumo.PoseHeap.C120_false"
   ],
   "note": "False: writing through Pose3().translation() changes every later Pose3(); an inverse and a pose from FromMatrix34 share the memory of the original. Proved: the value of every operation in every reachable state; nothing changes while the program writes only to arrays it made; results of products, transforms and matrix34 are independent of older arrays; an inverse follows its original."
  },
  {
   "property": "C121",
   "status": "partial",
   "theorems": [
    "Sumo.Gltf.C121_partial",
    "Sumo.Gltf.C121_false",
    "Sumo.Gltf.C122_false"
   ],
   "note": "False: a model whose meshes are all empty, and one with a plain mesh of the default (empty) material, are saved but cannot be loaded (loading the first ends the process: data.at(0), tiny_gltf.h:2458, throws out of a function declared without except). Proved for every history of adding meshes (with some geometry, with materials each of whose entries has one kind of value), saving and loading: saving and loading restore every mesh, saving fails exactly from 4 GiB on, loading exactly from 2 GiB on. Assumed of JSON texts and PNG: Faithful."
  },
  {
   "property": "C122",
   "status": "partial",
   "theorems": [
    "Sumo.Gltf.C122_partial",
    "Sumo.Gltf.C122_false"
   ],
   "note": "False for a mesh with the default (empty) material: it is written as null, and the file cannot be loaded. Proved under the conditions of C121 for files of less than 2 GiB."
  },
  {
   "property": "C123",
   "status": "partial",
   "theorems": [
    "Sumo.Gltf.C123_partial",
    "Sumo.Gltf.C123_false"
   ],
   "note": "False for the material: after saving and loading, its name is also among the additional entries, so has_same_material says it is another one (C123_false). Proved, for meshes whose material is not empty and has one kind of value per entry (see C122_false for empty ones): everything else is kept, and what changes in the material is said exactly (the additional entry name, the numbers of textures, rounding)."
  },
  {
   "property": "C124",
   "status": "proved",
   "theorems": [
    "Sumo.Gltf.C124"
   ],
   "note": "For all models and outcomes; only the URIs of images change."
  },
  {
   "property": "C125",
   "status": "partial",
   "theorems": [
    "Sumo.Gltf.C125_false",
    "Sumo.Gltf.C125_partial",
    "Sumo.Gltf.C125_overflow"
   ],
   "note": "False: if the file is cut off behind the JSON text, the loader reads behind the end of the buffer, and so it does if the length of the JSON part is close to 2^32. Proved: exactly which lengths lead to IOError and which to undefined behaviour; IOError for every file with a header that does not fit otherwise."
  },
  {
   "property": "C126",
   "status": "partial",
   "theorems": [
    "Sumo.Gltf.C126_partial",
    "Sumo.Gltf.C126_false"
   ],
   "note": "False for pictures: the file is loaded without them and with uninitialised sizes. Proved for the file of the buffer."
  },
  {
   "property": "C127",
   "status": "proved",
   "theorems": [
    "Sumo.Objects.C127_safe",
    "Sumo.Objects.C127_held",
    "Sumo.Objects.C127_none"
   ],
   "note": "For all programs. None passed for a mesh does follow a NULL pointer (C127_none)."
  },
  {
   "property": "C128",
   "status": "partial",
   "theorems": [
    "Sumo.Objects.C128_partial",
    "Sumo.Objects.C128_end_partial",
    "Sumo.Objects.C128_false_quaternion",
    "Sumo.Objects.C128_false_init",
    "Sumo.Objects.C128_false_extract",
    "Sumo.Objects.C128_false_save",
    "Sumo.Objects.C128_false_load"
   ],
   "note": "False: a quaternion is never freed, a second __init__ loses the first C++ object, loading a TIFF file loses the image header of every page the file does not have, saving loses one if depth and inverse depth are given and all of them after an exception, and a failed extraction loses the meshes made before. Proved for programs without these."
  },
  {
   "property": "C129",
   "status": "partial",
   "theorems": [
    "Sumo.Objects.C129_partial",
    "Sumo.Objects.C129_ends_partial",
    "Sumo.Objects.C129_false_replace",
    "Sumo.Objects.C129_false_merge"
   ],
   "note": "False: replace_geometry of a mesh with itself empties it; merging or appending an object with itself has undefined behaviour; the sum of a single cloud is that cloud. Proved for programs without such calls."
  },
  {
   "property": "C130",
   "status": "partial",
   "theorems": [
    "Sumo.Objects.C130_others",
    "Sumo.Objects.C130_new_partial",
    "Sumo.Objects.C130_false"
   ],
   "note": "False: the sum of a single cloud is the cloud itself, so that changing the sum changes it. The rest is proved for all programs."
  },
  {
   "property": "C131",
   "status": "partial",
   "theorems": [
    "Sumo.Project.C131_partial",
    "Sumo.Project.C131_false"
   ],
   "note": "False for relative paths and scenes of meshes, all of them: saving raises IOError and leaves an empty folder behind (C131_false). Proved for absolute paths and for scenes without meshes. Poses and bounds come back to within the eight decimals of the XML text; mesh files of 4 GiB cannot be written and of 2 GiB not be loaded."
  },
  {
   "property": "C132",
   "status": "proved",
   "theorems": [
    "Sumo.Project.C132",
    "Sumo.Project.C132_taken"
   ],
   "note": "For every scene and every moment, assuming that an XML text that is cut off is not well formed."
  },
  {
   "property": "C133",
   "status": "partial",
   "theorems": [
    "Sumo.Project.C133_partial",
    "Sumo.Project.C133_false"
   ],
   "note": "False: an id that starts with a slash makes saving overwrite a file elsewhere. Proved for ids without slashes."
  },
  {
   "property": "C134",
   "status": "proved",
   "theorems": [
    "Sumo.C134_formula",
    "Sumo.C134_curve"
   ],
   "note": ""
  },
  {
   "property": "C135",
   "status": "partial",
   "theorems": [
    "Sumo.C135_range_partial",
    "Sumo.C135_sampled",
    "Sumo.C135_false"
   ],
   "note": "False: nine correct detections of nine elements get 1 + 2^-52 (C135_false). Proved up to TP / 2^49 above 1, and exactly for area_under_curve=False."
  },
  {
   "property": "C136",
   "status": "proved",
   "theorems": [
    "Sumo.C136_accuracy"
   ],
   "note": ""
  },
  {
   "property": "C137",
   "status": "proved",
   "theorems": [
    "Sumo.C137_false_positive_never_helps",
    "Sumo.C137_trailing_false_positives"
   ],
   "note": ""
  },
  {
   "property": "C138",
   "status": "proved",
   "theorems": [
    "Sumo.C138_fixing_a_detection"
   ],
   "note": ""
  },
  {
   "property": "C139",
   "status": "partial",
   "theorems": [
    "Sumo.C139_shape_accuracy",
    "Sumo.C139_semantics_accuracy",
    "Sumo.C139_range_false"
   ],
   "note": "The range is false: nine elements submitted as they are score 1 + 2^-52. The error bounds and the NaN cases are proved."
  },
  {
   "property": "C140",
   "status": "partial",
   "theorems": [
    "Sumo.C140_rejects",
    "Sumo.C140_voxelizer",
    "Sumo.C140_occupied",
    "Sumo.C140_bounds_partial",
    "Sumo.C140_bounds_false",
    "Sumo.C140_bounds_false_double",
    "Sumo.C140_voxel_size_false"
   ],
   "note": "False: with the default corner and voxels of 0.1 the bounds of the voxel of the origin leave out the origin; VoxelGrid(49).voxel_size is not 49. Rejection is proved exactly; cells, centres, bounds and voxel size up to explicit error bounds."
  },
  {
   "property": "C141",
   "status": "proved",
   "theorems": [
    "Sumo.C141_unit_quaternion",
    "Sumo.C141_doubles"
   ],
   "note": "Square roots and divisions are rounded to nearest; the range of the exponent is not modelled."
  },
  {
   "property": "C142",
   "status": "partial",
   "theorems": [
    "Sumo.C142_false",
    "Sumo.C142_returns_iff",
    "Sumo.C142_sine_partial",
    "Sumo.C142_euler_partial",
    "Sumo.C142_no_cylinder",
    "Sumo.C142_cylinder_iff",
    "Sumo.C142_pose_error_partial",
    "Sumo.C142_pose_error_cylinder_partial"
   ],
   "note": "False: for a cylinder turned by 90 degrees about the y axis, rounding pushes the argument of math.asin above 1 and pose_error raises ValueError, whatever the C library returns. Proved: exactly which inputs raise, none without cylinders, and none with one cylindrical axis when poses stay 2^-36 away from gimbal lock."
  },
  {
   "property": "C143",
   "status": "proved",
   "theorems": [
    "Sumo.C143_range",
    "Sumo.C143_perfect",
    "Sumo.C143_missed",
    "Sumo.C143_extra",
    "Sumo.C143_room_scale"
   ],
   "note": "math.exp, squaring and the norm are parameters with the assumptions of PerceptualLib.Lawful; the range of the exponent is not modelled."
  },
  {
   "property": "C144",
   "status": "partial",
   "theorems": [
    "Sumo.C144_reproducible_partial",
    "Sumo.C144_false"
   ],
   "note": "False: with the default settings and two hallucinated boxes of volume 0.05 and 2.2 the last bit of the score depends on the order in which the set of ids is iterated. Proved: the difference is at most (elements + 1) / 2^52 + (thresholds + 1) / 2^50. In exact arithmetic the order does not matter (C24)."
  },
  {
   "property": "C145",
   "status": "partial",
   "theorems": [
    "Sumo.C145_range",
    "Sumo.C145_symmetric",
    "Sumo.C145_self",
    "Sumo.C145_exact",
    "Sumo.C145_reject_partial",
    "Sumo.C145_false"
   ],
   "note": "False in one respect: two points whose computed distance is exactly the threshold overlap, but their bounding boxes can be rejected, so that the quick rejection turns an IoU of 1 into 0. Proved: range, symmetry and value 1 on equal sets without exception; the exact IoU, rounded once, when no distance is within a factor 1 +- 2^-49 of the threshold; after a rejection no computed distance is below the threshold. BallTree.query is a parameter."
  },
  {
   "property": "C146",
   "status": "proved",
   "theorems": [
    "Sumo.Project.C146_refused",
    "Sumo.Project.C146_loaded",
    "Sumo.Project.C146_bounds"
   ],
   "note": "Binary floats are read by an independent function from the bits."
  },
  {
   "property": "C147",
   "status": "partial",
   "theorems": [
    "Sumo.Downloader.C147_plain_partial",
    "Sumo.Downloader.C147_sees_itself",
    "Sumo.Downloader.C147_brackets",
    "Sumo.Downloader.C147_sees_instead",
    "Sumo.Downloader.C147_sees_instead_negated",
    "Sumo.Downloader.C147_false",
    "Sumo.Downloader.C147_other_folder_false"
   ],
   "note": "False of the code: glob takes the name of the folder as a pattern (download_sumo_datasets.py:240-247). In a folder called data[1] nothing is ever extracted, but the script says so. Proved for names without *, ? and [."
  },
  {
   "property": "C148",
   "status": "partial",
   "theorems": [
    "Sumo.Downloader.C148_kept_partial",
    "Sumo.Downloader.C148_false",
    "Sumo.Downloader.C148_false_run"
   ],
   "note": "False of the code: every *.zip in the folder is extracted and deleted, the user's own too. Proved for files that are neither requested nor called *.zip."
  },
  {
   "property": "C149",
   "status": "proved",
   "theorems": [
    "Sumo.C149_surface",
    "Sumo.C149_color",
    "Sumo.C149_zero"
   ],
   "note": "Doubles without exponent range: underflow of squares (distances below 1e-154) is not modelled. The colour error is bounded relative to the neighbours the query returns, for matched elements that have points."
  },
  {
   "property": "C150",
   "status": "proved",
   "theorems": [
    "Sumo.C150_inside",
    "Sumo.C150_inside_uniform",
    "Sumo.C150_voxel",
    "Sumo.C150_self",
    "Sumo.C150_mesh",
    "Sumo.C150_far"
   ],
   "note": "Doubles without exponent range. The matrix product (BLAS) is a parameter: any product within 2^-50 of the sum of the sizes of the terms, for grids within 2^43 voxels of the origin (C150_far: the limit is needed), or any that computes every entry alike, without a limit. For the copy, both products are taken to be the same function of their input."
  },
  {
   "property": "C151",
   "status": "partial",
   "theorems": [
    "Sumo.Tiff.C151_same_load",
    "Sumo.Tiff.C151_same_save",
    "Sumo.Tiff.C151_load_partial",
    "Sumo.Tiff.C151_open_files",
    "Sumo.Tiff.C151_save",
    "Sumo.Tiff.C151_false",
    "Sumo.Tiff.C151_refused_false"
   ],
   "note": "False of the code: each load of an Rgbd360 leaves two empty cv::Mat objects (rgbd_tiff.pyx:81-82 continues before the del); a refused file stays open or its pixels stay allocated; a save given both depths, or that cannot write, loses objects. Proved: exactly what a returning load leaves (no file, no pixels, 4 minus the number of images), exactly when a file stays open, exactly what save leaves when it returns or cannot write."
  },
  {
   "property": "C152",
   "status": "proved",
   "theorems": [
    "Sumo.C152_reject",
    "Sumo.C152_depth",
    "Sumo.C152_ratio",
    "Sumo.C152_exact_values"
   ],
   "note": "Doubles without exponent range. pymesh's boolean operation and volumes are parameters; the ratio is judged against the volumes it returns, assumed to satisfy intersection <= each solid. Volume 0 of both solids gives NaN."
  },
  {
   "property": "C153",
   "status": "partial",
   "theorems": [
    "Sumo.Tiff.C153_made_partial",
    "Sumo.Tiff.C153_loaded",
    "Sumo.Tiff.C153_saved",
    "Sumo.Tiff.C153_round_trip",
    "Sumo.Tiff.C153_inverse_depth",
    "Sumo.Tiff.C153_false",
    "Sumo.Tiff.C153_options_false"
   ],
   "note": "False of the code: the constructor keeps the caller's dict, so changing that dict later changes the object (and others made of it); load(path, **options) hands the options to a function that takes none. Proved: stable as long as the dict is left alone; loaded objects are stable in every program; saved files and the round trip."
  },
  {
   "property": "C154",
   "status": "partial",
   "theorems": [
    "Sumo.Ply.C154_ply_partial",
    "Sumo.Ply.C154_ply_false",
    "Sumo.Tiff.C154_tiff_partial",
    "Sumo.Tiff.C154_tiff_false",
    "Sumo.Gltf.C154_gltf_partial",
    "Sumo.Gltf.C154_gltf_false",
    "Sumo.Gltf.C154_glb_bundle",
    "Sumo.Gltf.C154_glb_partial",
    "Sumo.Gltf.C154_glb_false"
   ],
   "note": "False of the code: the C++ writers (PLY, TIFF, glTF, pictures) never look at the state of their streams, so the calls return with incomplete files; a cut PLY file is even loaded without an error. save_as_glb: the bundle itself is written by Python and is complete when the call returns; the data are complete too (a cut document cannot be parsed); pictures cut in the temporary folder are bundled as they are. A file is written from the beginning; for TIFF what libtiff stores is a parameter."
  },
  {
   "property": "C155",
   "status": "proved",
   "theorems": [
    "Sumo.C155_rotations",
    "Sumo.C155_poses",
    "Sumo.C155_points",
    "Sumo.C155_points_back",
    "Sumo.C155_round_trip",
    "Sumo.C155_distances",
    "Sumo.C155_growth"
   ],
   "note": "Doubles without exponent range. np.dot, math.sin and math.cos are parameters: each entry of a product within 2^-50 of the sum of the sizes of its terms, sine and cosine within 2^-53. AxisAngle and matrices from elsewhere enter as given matrices near a rotation."
  },
  {
   "property": "C156",
   "status": "partial",
   "theorems": [
    "Sumo.C156_rot3",
    "Sumo.C156_partial",
    "Sumo.C156_false"
   ],
   "note": "False of the code: the angles of the two Pose3 constructors are declared float, a C float in Cython, so they are rounded to single precision (a roll of 0.1 is off by more than 2^-30, against a rounding error below 2^-44). The Rot3 constructors are right; the Pose3 ones are right up to 2^-24 of each angle."
  },
  {
   "property": "C157",
   "status": "partial",
   "theorems": [
    "Sumo.Gltf.C157_indices_partial",
    "Sumo.Gltf.C157_attributes_partial",
    "Sumo.Gltf.C157_mesh_partial",
    "Sumo.Gltf.C157_false"
   ],
   "note": "False of the code: indices of one byte (UNSIGNED_BYTE) are read as if they had four bytes, and byteStride is ignored, so interleaved vertices and normals are misread; both without an error. Proved for indices of two and four bytes and packed float attributes. Sparse accessors, normalised texture coordinates, primitives without indices, normals or material (which raise) and node transforms (which are ignored) are outside the statement."
  },
  {
   "property": "C158",
   "status": "proved",
   "theorems": [
    "Sumo.C158_points",
    "Sumo.C158_all_points",
    "Sumo.C158_distance",
    "Sumo.C158_shape_mismatch",
    "Sumo.leftNorm_good"
   ],
   "note": "Doubles without exponent range. The norm of Eigen is a parameter, accurate to a few roundings; leftNorm_good shows that summing from the left with a rounded square root is. At most 2^31 rows and width at most six times the height."
  },
  {
   "property": "C159",
   "status": "partial",
   "theorems": [
    "Sumo.C159_pose_partial",
    "Sumo.C159_pose_drift",
    "Sumo.C159_false",
    "Sumo.C159_box_partial",
    "Sumo.C159_box_false"
   ],
   "note": "False of the code: numpy prints a vector in fixed or exponential notation depending on its values, and after the first rounding the choice may change, so the second save rounds again. Proved: poses are stable from the second round on and boxes from the seventh; the numbers of a pose stay within 1.01e-8 of their size (or of 1) for ever."
  },
  {
   "property": "C160",
   "status": "proved",
   "theorems": [
    "Sumo.C160_text",
    "Sumo.C160_injective",
    "Sumo.C160_own_colours_dropped",
    "Sumo.C160_default_color"
   ],
   "note": "np.savetxt prints nineteen significant digits. The given colour is written for every point; the cloud's own colours are not written and the parameter keep has no effect (neither is promised). Infinities and NaN are not modelled."
  },
  {
   "property": "C161",
   "status": "partial",
   "theorems": [
    "Sumo.Gltf.C161_added",
    "Sumo.Gltf.C161_partial",
    "Sumo.Gltf.C161_false"
   ],
   "note": "False of the code: metallic and roughness are set without has_number_value (GltfModel.cpp:638-644), so both are written as truth values, and the roughness under the misspelt name roughNessFactor; they never reach a file. Proved: number, name and colour, and the other materials."
  },
  {
   "property": "C162",
   "status": "partial",
   "theorems": [
    "Sumo.Timing.C162_result",
    "Sumo.Timing.C162_gc",
    "Sumo.Timing.C162_nested",
    "Sumo.Timing.C162_printed",
    "Sumo.Timing.C162_false",
    "Sumo.Timing.C162_interrupt",
    "Sumo.Timing.C162_threads_off",
    "Sumo.Timing.C162_threads_partial",
    "Sumo.Timing.C162_threads_false"
   ],
   "note": "False of the code in three ways: a function that disables the collector finds it enabled again; a KeyboardInterrupt between gc.disable() and try, or in finally before gc.enable(), leaves it off (C162_interrupt says exactly when); two threads can leave it off for good. Proved: the result, the printed line, the collector for functions that leave it alone, to any nesting and when they raise, and for threads whose entries do not interleave."
  },
  {
   "property": "C163",
   "status": "partial",
   "theorems": [
    "Sumo.Access.C163_negative",
    "Sumo.Access.C163_point_partial",
    "Sumo.Access.C163_color_partial",
    "Sumo.Access.C163_images_partial",
    "Sumo.Access.C163_mesh",
    "Sumo.Access.C163_mesh_error",
    "Sumo.Access.C163_column",
    "Sumo.Access.C163_false"
   ],
   "note": "False of the code: point, color, image_size and image_uri use the unchecked operator[] of std::vector, so an index past the end reads other memory; so does color(i) for an existing point of a cloud without colours, or of one merged from clouds with and without. Proved: the element for all indices inside, exactly which indices are undefined, OverflowError for negative ones, and the whole property for meshes and columns."
  },
  {
   "property": "C164",
   "status": "proved",
   "theorems": [
    "Sumo.Fl.float64_good",
    "Sumo.Fl.float32_good",
    "Sumo.Fl.C164_center",
    "Sumo.Fl.C164_volume",
    "Sumo.Fl.C164_monotone",
    "Sumo.Fl.C164_inside",
    "Sumo.Fl.C164_center_on_boundary"
   ],
   "note": "Each theorem holds for every format with the listed laws; float64_good and float32_good prove them for rounding to 53 and to 24 bits. The range of the exponent is not modelled: volumes that overflow or underflow are not covered."
  },
  {
   "property": "C165",
   "status": "proved",
   "theorems": [
    "Sumo.C165_exact",
    "Sumo.C165_double",
    "Sumo.C165_not_exact"
   ],
   "note": "In double precision within 2^-49. The computed length need not be exactly 1, as the unit test assumes (C165_not_exact). The range of the exponent is not modelled: vectors whose squares overflow or underflow are not covered."
  },
  {
   "property": "C166",
   "status": "partial",
   "theorems": [
    "Sumo.C166_triangle",
    "Sumo.C166_reverse",
    "Sumo.C166_rigid",
    "Sumo.Fl.C166_double_partial",
    "Sumo.Fl.C166_false"
   ],
   "note": "Proved in exact arithmetic. False in double precision for points within rounding of the line: a point on the right may be said to be on the left (C166_false). Proved in double precision for all other points, with an explicit bound."
  },
  {
   "property": "C167",
   "status": "partial",
   "theorems": [
    "Sumo.Close.C167_pose",
    "Sumo.Close.C167_box",
    "Sumo.Close.C167_self_partial",
    "Sumo.Close.C167_symmetric_partial",
    "Sumo.Close.C167_eq",
    "Sumo.Close.C167_eq_close",
    "Sumo.Close.C167_false"
   ],
   "note": "False of the code: almost_equal is neither symmetric nor transitive, and a pose with a not-a-number entry is not almost equal to itself (C167_false). Proved: the exact meaning, when something is almost equal to itself, and that exchanging the two needs a tolerance larger by 1/(1-rtol) only. The rounding of the tolerance itself is not modelled."
  },
  {
   "property": "C168",
   "status": "partial",
   "theorems": [
    "Sumo.DownloaderMain.C168_logged",
    "Sumo.DownloaderMain.C168_stage_partial",
    "Sumo.DownloaderMain.C168_interrupt_partial",
    "Sumo.DownloaderMain.C168_preparation",
    "Sumo.DownloaderMain.C168_false"
   ],
   "note": "False of the code before the process pool exists: the handlers use the variable pool, which is not bound yet. The program then ends before unzipping with a message about that variable, and an interrupt is not recognised (C168_false). Proved: every exception is logged in any case; the rest of the property where the pool exists."
  },
  {
   "property": "C169",
   "status": "partial",
   "theorems": [
    "Sumo.DownloaderMain.C169_log_partial",
    "Sumo.DownloaderMain.C169_retries_partial",
    "Sumo.DownloaderMain.C169_gives_up_partial",
    "Sumo.DownloaderMain.C169_false",
    "Sumo.DownloaderMain.C169_silent_false"
   ],
   "note": "False of the code: the exit status is 0 whatever happened (C169_false), and a stage may end without a word if files turn up between the last two looks (C169_silent_false). Proved: without exceptions the log says complete or unable to in all other cases, after up to three attempts."
  },
  {
   "property": "C170",
   "status": "partial",
   "theorems": [
    "Sumo.DownloaderMain.C170_partial",
    "Sumo.DownloaderMain.C170_refuses",
    "Sumo.DownloaderMain.C170_false"
   ],
   "note": "False of the code: it counts 6 GB per archive where its comment says 6.5 GB on average, so from 21 archives on it may pass although the archives do not fit (C170_false). Proved for archives of at most 6 GB and 10 GB of extracted data."
  },
  {
   "property": "C171",
   "status": "proved",
   "theorems": [
    "Sumo.Uniform.C171_colored",
    "Sumo.Uniform.C171_box_mesh",
    "Sumo.Uniform.C171_box"
   ],
   "note": "Colours with another number of entries are repeated to fill the texture and need not be uniform (C116_uniform_false)."
  },
  {
   "property": "C172",
   "status": "partial",
   "theorems": [
    "Sumo.Show.C172_partial",
    "Sumo.Show.C172_determines",
    "Sumo.Show.C172_false"
   ],
   "note": "False of the code with colored=True: it takes the method colors for the array and every call raises (C172_false). Proved without colours."
  },
  {
   "property": "C173",
   "status": "partial",
   "theorems": [
    "Sumo.Show.C173_partial",
    "Sumo.Show.C173_empty_false",
    "Sumo.Show.C173_iterator_false"
   ],
   "note": "False of the code for no poses and for iterators, which raise ValueError, the latter after the first axes (C173_empty_false, C173_iterator_false). Proved for sequences of one or more poses."
  },
  {
   "property": "C174",
   "status": "proved",
   "theorems": [
    "Sumo.Show.C174_rgbdci",
    "Sumo.Show.C174_range",
    "Sumo.Show.C174_surface"
   ],
   "note": "What matplotlib, pymesh and pyny3d make of the requests is not modelled."
  },
  {
   "property": "C175",
   "status": "partial",
   "theorems": [
    "Sumo.Setup.C175_partial",
    "Sumo.Setup.C175_safe_partial",
    "Sumo.Setup.C175_false"
   ],
   "note": "False of the code for names with blanks: xargs takes them apart, so the generated file stays and another file is deleted (C175_false). Proved for names without blanks, for all interleavings."
  },
  {
   "property": "C176",
   "status": "partial",
   "theorems": [
    "Sumo.Setup.C176_partial",
    "Sumo.Setup.C176_false"
   ],
   "note": "False of cleanall: the program exits before the clean that its comment announces (C176_false). Proved for build_ext."
  },
  {
   "property": "C177",
   "status": "proved",
   "theorems": [
    "Sumo.Plots.C177_axes",
    "Sumo.Plots.C177_window",
    "Sumo.Plots.C177_curve",
    "Sumo.Plots.C177_sampled"
   ],
   "note": "C177_curve in double precision; C177_sampled exact. What matplotlib draws is not modelled."
  },
  {
   "property": "C178",
   "status": "proved",
   "theorems": [
    "Sumo.Plots.C178_listing"
   ],
   "note": "For elements with different ids; the text of the numbers is not modelled."
  },
  {
   "property": "C179",
   "status": "proved",
   "theorems": [
    "Sumo.PicoJson.C179_round_trip",
    "Sumo.PicoJson.C179_injective",
    "Sumo.PicoJson.C179_description",
    "Sumo.PicoJson.C179_near"
   ],
   "note": "Texts byte by byte: the notations of printf(\"%.f\") and printf(\"%.17g\"), and the parser with its partial results. C179_description and C179_near connect the text with Model/Tiff, where it is left out. PicoJson.parseText_enough: the bound on the steps of the parser does not matter."
  },
  {
   "property": "C180",
   "status": "partial",
   "theorems": [
    "Sumo.PicoJson.C180_false",
    "Sumo.PicoJson.C180_truncated_false",
    "Sumo.PicoJson.C180_brace_partial"
   ],
   "note": "False: readMetadata does not look at the error of picojson::parse, and an object is filled in as its text is read; for every near plane the text without its end (no version, no closing brace) is accepted, and the text of 0.25 cut after 0.2 gives another near plane. Proved: a text that does not begin with a brace is refused."
  },
  {
   "property": "C181",
   "status": "proved",
   "theorems": [
    "Sumo.PicoJson.C181_round_trip",
    "Sumo.PicoJson.C181_unique"
   ],
   "note": "After a number, the text that follows must not begin with a character of numbers; the recursion of the C++ parser has no bound in the model (PicoJson.parseText_enough), the stack of the process is not modelled."
  },
  {
   "property": "C182",
   "status": "proved",
   "theorems": [
    "Sumo.Base64.C182_round_trip",
    "Sumo.Base64.C182_length",
    "Sumo.Base64.C182_plain",
    "Sumo.Base64.C182_uri",
    "Sumo.Base64.C182_buffer"
   ],
   "note": "Masks and shifts as remainders and quotients. Model/TinyGltf has the decoder of data URIs as a parameter; C182_buffer takes the modelled one for it. For data of 4 GiB and more the length is taken modulo 2^32 (not modelled)."
  },
  {
   "property": "C183",
   "status": "proved",
   "theorems": [
    "Sumo.Wrap.C183_view",
    "Sumo.Wrap.C183_round_trip",
    "Sumo.Wrap.C183_accepted",
    "Sumo.Wrap.C183_refused"
   ],
   "note": "How an exception of these cdef functions reaches their Cython caller is not modelled."
  },
  {
   "property": "C184",
   "status": "partial",
   "theorems": [
    "Sumo.Wrap.C184_false",
    "Sumo.Wrap.C184_alpha_false",
    "Sumo.Wrap.C184_part_false",
    "Sumo.Wrap.C184_grey_partial",
    "Sumo.Wrap.C184_color_partial",
    "Sumo.Wrap.C184_refused"
   ],
   "note": "False of the code: mat_from_array looks only at the first stride and takes three channels for granted, so that OpenCV sees other bytes of views with reversed channels or transposed axes and of images with an alpha channel; array_from_mat ignores the distance of the rows and garbles parts of images (wrap.pyx:15-41, 72-97). Proved: images whose rows are packed are seen correctly, and recovered if the rows also follow each other. Nothing else in the repository calls the two functions."
  },
  {
   "property": "C185",
   "status": "proved",
   "theorems": [
    "Sumo.PicoJson.C185_string"
   ],
   "note": ""
  },
  {
   "property": "C186",
   "status": "proved",
   "theorems": [
    "Sumo.PicoJson.C186_accepted"
   ],
   "note": "Which number a run of number characters stands for is left open here (C181 has it for the texts that are written); the parser accepts some that JSON does not have, such as 01 and 1. ."
  }
 ]
}