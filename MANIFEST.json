{
 "claims": [
  {
   "property": "C01",
   "status": "proved",
   "theorems": [
    "Verif.C01_read_after_write",
    "Verif.C01_setValue_result",
    "Verif.C01_fresh"
   ],
   "note": "All histories and indices. Index overloads; the coordinate overloads go through the same index function."
  },
  {
   "property": "C02",
   "status": "proved",
   "theorems": [
    "Verif.C02_call_result",
    "Verif.C02_read_last_unlocked_write",
    "Verif.C02_locked_is_frozen",
    "Verif.C02_held_reference_bypasses_lock"
   ],
   "note": "the last theorem records a limit of the lock: references obtained before Lock still write"
  },
  {
   "property": "C03",
   "status": "partial",
   "theorems": [
    "Verif.C03_oob_stable_partial",
    "Verif.C03_oob_value_can_change",
    "Verif.C03_sdf_oob_stable_partial",
    "Verif.C03_sdf_locked_oob_can_change"
   ],
   "note": "The property is violated by the code: a write through the reference GetMutable returns out of bounds changes the OOB value (negation proved on a concrete history). Proved for all SetValue histories."
  },
  {
   "property": "C04",
   "status": "proved",
   "theorems": [
    "Verif.C04_flag_never_stale",
    "Verif.C04_recompute_is_noop",
    "Verif.C04_held_reference_makes_flag_stale"
   ],
   "note": "Grids with fewer than 2^32 cells. The third theorem shows that references kept across an update are rightly excluded."
  },
  {
   "property": "C05",
   "status": "proved",
   "theorems": [
    "Verif.C05_components_are_regions"
   ],
   "note": "Grids with fewer than 2^32 cells (labels are uint32_t)."
  },
  {
   "property": "C06",
   "status": "proved",
   "theorems": [
    "Verif.C06_labels_scan_order",
    "Verif.C06_labels_determined"
   ],
   "note": "The second theorem shows that the specification determines the labelling."
  },
  {
   "property": "C07",
   "status": "proved",
   "theorems": [
    "Verif.C07_terminates_preserves_idempotent"
   ],
   "note": "Every grid size, every stored label."
  },
  {
   "property": "C08",
   "status": "proved",
   "theorems": [
    "Verif.C08_sound"
   ],
   "note": "every propagation state satisfies the soundness invariant"
  },
  {
   "property": "C09",
   "status": "proved",
   "theorems": [
    "Verif.C09_zero_iff_source"
   ],
   "note": ""
  },
  {
   "property": "C10",
   "status": "partial",
   "theorems": [
    "Verif.C10_false",
    "Verif.C10_exact_on_chains_partial",
    "Verif.C10_exact_below_8_partial",
    "Verif.C10_exact_thin_grid_partial",
    "Verif.C10_exact_single_source_partial",
    "Verif.C10_flat_factor_partial",
    "Verif.C10_exact_product_partial"
   ],
   "note": "the code is not exact (C10_false, kernel-evaluated witness); exactness proved on chains, below squared distance 8, on thin grids and for one source; within a factor 2 of the squared distance on flat grids"
  },
  {
   "property": "C100",
   "status": "partial",
   "theorems": [
    "Verif.C100_history_partial",
    "Verif.C100_unnoticed",
    "Verif.C100_full_device"
   ],
   "note": "Violated by the code: SaveToFile never tests the stream, so refused and incomplete writes return normally, and it truncates the old file first, so a crash loses the old map (C100_unnoticed, C100_full_device). Proved for all histories: a load returns the map of the last save that opened the file if that save was complete and throws otherwise, never any other map. zlib is assumed to decompress what it compressed and to refuse strict prefixes."
  },
  {
   "property": "C101",
   "status": "partial",
   "theorems": [
    "Verif.FSdf.C101_accuracy_partial",
    "Verif.FSdf.C101_flat",
    "Verif.FSdf.C101_infinite",
    "Verif.FSdf.C101_no_obstacle"
   ],
   "note": "Violated on maps whose cells are all free or all filled: the stored distances are infinite and every estimate is NaN but flagged valid (C101_infinite, C101_no_obstacle). Proved for every field of finite values with at most 2^20 cells per axis, cell sizes from 2^-100 to 2^100 and distances up to 2^150; C101_flat shows that the fields of two-dimensional maps with both classes are finite. The location may be up to one cell size from the centre of its cell; C112 covers the transform to the grid frame and the choice of the cell."
  },
  {
   "property": "C102",
   "status": "partial",
   "theorems": [
    "Verif.FSdf.C102_accuracy_partial",
    "Verif.FSdf.C102_infinite",
    "Verif.FSdf.C102_no_obstacle"
   ],
   "note": "Violated next to cells that share an infinite distance: all components are NaN (C102_infinite, C102_no_obstacle). Proved for every field of finite values up to 2^126 and cell sizes from 2^-100 to 2^100. The rotation of the gradient into the world frame is C111."
  },
  {
   "property": "C103",
   "status": "partial",
   "theorems": [
    "Verif.FSdf.C103_returned_partial",
    "Verif.FSdf.C103_filled"
   ],
   "note": "Violated on a map without free cells: the estimate is NaN, the loop condition NaN <= minimum is false, and every location inside the grid is returned as it was (C103_filled). Proved for every field of finite values (bounds as in C101), any norm and normalization; the base class's cell lookup must return a cell within one cell size of the location. Termination is not claimed."
  },
  {
   "property": "C104",
   "status": "proved",
   "theorems": [
    "Verif.C104_new_field"
   ],
   "note": "Locations are converted to cells by the base class (a parameter)."
  },
  {
   "property": "C105",
   "status": "partial",
   "theorems": [
    "Verif.Serial.Py.C105_files_partial",
    "Verif.Serial.Py.C105_deserialize_partial",
    "Verif.Serial.Py.C105_serialize_lost",
    "Verif.Serial.Py.C105_messages_raise",
    "Verif.Serial.Py.C105_load_on_object_raises"
   ],
   "note": "Violated by the bindings: SerializeSelf fills a copy of the list, so its output is lost (C105_serialize_lost); the message type is not registered, so both message methods always raise TypeError (C105_messages_raise); LoadFromFile is bound as a method although it is static, so it can only be called on the class (C105_load_on_object_raises). Proved: files and DeserializeSelf. The conversion rules of pybind11 are external and stated in Verif/PyBind.lean."
  },
  {
   "property": "C106",
   "status": "partial",
   "theorems": [
    "Verif.FSdf.C106_outcome",
    "Verif.FSdf.C106_accuracy_partial",
    "Verif.FSdf.C106_tiny_window",
    "Verif.FSdf.C106_no_obstacle",
    "Verif.FSdf.C106_window"
   ],
   "note": "Violated by windows that vanish when added to the coordinates (0/0, three NaN components: C106_tiny_window) and on maps without obstacles (C106_no_obstacle). Proved: the outcome for any rounding; the accuracy for fields of finite values (bounds as in C101) and stretches from 2^-100 to 2^100."
  },
  {
   "property": "C107",
   "status": "partial",
   "theorems": [
    "Verif.FSdf.C107_clamped",
    "Verif.FSdf.C107_inside_partial",
    "Verif.FSdf.C107_translated",
    "Verif.FSdf.C107_far_origin",
    "Verif.FSdf.C107_kept",
    "Verif.FSdf.C107_kept_world",
    "Verif.FSdf.C107_reported",
    "Verif.FSdf.C107_nearest_world",
    "Verif.FSdf.C107_again_world"
   ],
   "note": "Violated for grids 2^43 cells away from the world origin, where the margin of 1e-4 cells is lost in rounding (C107_far_origin). Proved for all transforms whose round trip is accurate to a quarter of the margin, in particular for unrotated grids with an origin at most 2^30 cells away (C107_translated) and for grids with any pose and an origin at most 2^26 cells away (C112_projection); sides of at most 2^21 cells, cell sizes from 2^-100 to 2^100. Not included: coordinates that are NaN. C107_kept_world, C107_reported, C107_nearest_world and C107_again_world are for maps whose pose is a rotation up to rounding, up to 2^29 (C107_kept_world) or 2^26 cells from the world origin; C107_nearest_world is for locations up to 2^26 cells from the corner of the volume and cell sizes up to 2^60."
  },
  {
   "property": "C108",
   "status": "proved",
   "theorems": [
    "Verif.FSdf.C108_inside",
    "Verif.FSdf.C108_flag",
    "Verif.FSdf.C108_value",
    "Verif.FSdf.C108_world",
    "Verif.FSdf.C108_world_outside"
   ],
   "note": "C108_inside, C108_flag and C108_value are in terms of the grid-frame coordinates that the base class computes; the side lengths are those it stores. C108_world and C108_world_outside are for maps whose pose is a rotation up to rounding, up to 2^29 cells from the world origin."
  },
  {
   "property": "C109",
   "status": "partial",
   "theorems": [
    "Verif.FSdf.C109_extrema",
    "Verif.FSdf.C109_segmentation",
    "Verif.FSdf.C109_border_partial",
    "Verif.FSdf.C109_shell_partial",
    "Verif.FSdf.C109_no_obstacle",
    "Verif.FSdf.C109_false",
    "Verif.FSdf.C109_steps",
    "Verif.FSdf.C109_nan",
    "Verif.FSdf.C109_agrees"
   ],
   "note": "The last sentence is violated as in C81: cells on the grid's face beside a cell of the other class stay unsegmented (C109_false). Proved: the map of extrema for any rounding and rotation, what a step is (C109_steps, C109_nan), and that it is the map of exact arithmetic when no gradient component is within rounding errors of the step size (C109_agrees); the segmentation for cell sizes from 2^-100 to 2^100, any rotation and any norm with a relative error of 2^-48 (fnorm_ok: square root of the sum of squares, each operation rounded); full coverage for maps whose faces match their inward neighbours, and for maps enclosed in a shell; on a map without obstacles every cell is its own extremum because the gradients are NaN."
  },
  {
   "property": "C11",
   "status": "partial",
   "theorems": [
    "Verif.C11_false",
    "Verif.C11_monotone_on_chains_partial",
    "Verif.C11_monotone_below_8_partial",
    "Verif.C11_flat_factor_partial"
   ],
   "note": "false in general (C11_false); proved where the larger source list is exact; on flat grids the squared distance at most doubles"
  },
  {
   "property": "C110",
   "status": "partial",
   "theorems": [
    "Verif.C110_gradient",
    "Verif.C110_extrema_partial",
    "Verif.TMap.C110_extraction",
    "Verif.C110_segments_partial",
    "Verif.C110_coarse",
    "Verif.C110_false"
   ],
   "note": "Violated: gradients, which have no unit, are compared with 0.06125 times the cell size, so a map gets other segments when its lengths are multiplied by 64 (C110_false), and with cell sizes of 33 or more every cell of a flat grid is its own extremum, whatever the obstacles are (C110_coarse). Proved: gradients and extracted fields are independent of the unit; extrema and segments are when no gradient component lies between the two step sizes."
  },
  {
   "property": "C111",
   "status": "proved",
   "theorems": [
    "Verif.C111_exact",
    "Verif.FSdf.C111_rotation",
    "Verif.FSdf.C111_accuracy",
    "Verif.C111_mirrored"
   ],
   "note": "Eigen's quaternion functions are written down from its documentation; the squared norm may be summed in any order (sqNorm_computed). C111_mirrored shows that the claim needs a rotation: in a mirrored frame, which is an isometry as well, the answer is that of another frame."
  },
  {
   "property": "C112",
   "status": "proved",
   "theorems": [
    "Verif.FSdf.C112_product",
    "Verif.FSdf.C112_lookup",
    "Verif.FSdf.C112_inverse",
    "Verif.FSdf.C112_frame",
    "Verif.FSdf.C112_geometry",
    "Verif.FSdf.C112_estimate",
    "Verif.FSdf.C112_trip",
    "Verif.FSdf.C112_center",
    "Verif.FSdf.C112_projection"
   ],
   "note": "Any evaluation of the matrix products with a relative error of 2^-50 of the terms and any cell lookup with a relative error of 2^-50 is allowed (Accurate, LookupOk); left-to-right evaluation, Eigen's inverse of an isometry and rounding down the product with the rounded reciprocal are proved to qualify (C112_product, C112_inverse, C112_lookup). C112_frame and C112_geometry discharge the assumptions of C101, C103 and C106 about the base class."
  },
  {
   "property": "C113",
   "status": "partial",
   "theorems": [
    "Verif.FSdf.C113_product",
    "Verif.FSdf.C113_gradient_partial",
    "Verif.FSdf.C113_outside",
    "Verif.FSdf.C113_infinite",
    "Verif.FSdf.C113_no_obstacle",
    "Verif.FSdf.C113_index_false"
   ],
   "note": "The code violates the property for fields with infinite distances: maps without obstacles give three NaN (C113_infinite, C113_no_obstacle). Queries by index sit exactly on the kinks of the interpolant: exact arithmetic takes the difference to the next cell (C88), but C113_index_false shows a pose whose rounding makes the code take the difference to the previous cell."
  },
  {
   "property": "C114",
   "status": "proved",
   "theorems": [
    "Verif.FSdf.C114_product",
    "Verif.FSdf.C114_lookup",
    "Verif.FSdf.C114_queries"
   ],
   "note": "The conversion of NaN and infinities to int64_t is undefined in C++; the lookup of the base class is assumed to give the least int64_t as on x86-64 (C114_lookup) or any other negative index (Rejects)."
  },
  {
   "property": "C115",
   "status": "proved",
   "theorems": [
    "Verif.FSdf.C115_exact",
    "Verif.FSdf.C115_exact_bound",
    "Verif.FSdf.C115_product",
    "Verif.FSdf.C115_collision_map",
    "Verif.FSdf.C115_every_map",
    "Verif.FSdf.C115_flat",
    "Verif.FSdf.C115_clearance",
    "Verif.FSdf.C115_clearance_flat"
   ],
   "note": "C115_exact and C115_exact_bound hold in exact arithmetic for any stored values that are the centre distances up to e. The IEEE theorems combine them with C91/C86 (stored values) and C112 (pose, lookup, interpolation)."
  },
  {
   "property": "C116",
   "status": "proved",
   "theorems": [
    "Verif.Py.C116_3d",
    "Verif.Py.C116_2d",
    "Verif.Py.C116_2d_mixed",
    "Verif.Py.C116_2d_uniform"
   ],
   "note": "The quaternion of the origin is computed in IEEE arithmetic from the wrappers' transform. The NaN case is part of the statement: one infinite distance next to a cell makes all components of its gradient NaN, because the quaternion product multiplies it by zero."
  },
  {
   "property": "C117",
   "status": "proved",
   "theorems": [
    "Verif.FSdf.C117_quaternion",
    "Verif.FSdf.C117_gradient"
   ],
   "note": "Replaces the assumption of C111_accuracy that the quaternion is close to the rotation: every one of the four conversion formulas is well conditioned in the case in which it is chosen, also when rounding changes the choice."
  },
  {
   "property": "C118",
   "status": "proved",
   "theorems": [
    "Verif.FSdf.C118_product",
    "Verif.FSdf.C118_collision_map",
    "Verif.FSdf.C118_clearance",
    "Verif.FSdf.C118_every_map",
    "Verif.FSdf.C118_flat"
   ],
   "note": "No abstract contracts for transforms or lookup are left: the computed inverse, left-to-right matrix products and the cell lookup of C112 are used. The set of obstacles in the world is the image of the filled cells under the stored transform."
  },
  {
   "property": "C119",
   "status": "proved",
   "theorems": [
    "Verif.FSdf.C119_object",
    "Verif.FSdf.C119_scene"
   ],
   "note": "Combines C40 (one field per object, its fill rule) with C118. Without virtual border. The field of the whole scene is in general not a product, so C118_product does not apply to it; the per-object fields are."
  },
  {
   "property": "C12",
   "status": "proved",
   "theorems": [
    "Verif.C12_safe",
    "Verif.C12_flag_sticky"
   ],
   "note": "undefined-behaviour flag of the model is never raised"
  },
  {
   "property": "C120",
   "status": "partial",
   "theorems": [
    "Verif.Demo.C120_voxels_partial",
    "Verif.Demo.C120_rejects",
    "Verif.Demo.C120_false",
    "Verif.Demo.C120_distances"
   ],
   "note": "Proved for clouds inside the volume, and rejection of points on or beyond the far faces. False for points below the corner: indices are truncated toward zero and negative ones count from the end, so such points set voxels (C120_false). Coordinates are exact."
  },
  {
   "property": "C121",
   "status": "partial",
   "theorems": [
    "Verif.Demo.C121_display_partial",
    "Verif.Demo.C121_arrows_partial",
    "Verif.Demo.C121_false",
    "Verif.Demo.C121_demo_false",
    "Verif.Demo.C121_corner_false",
    "Verif.Demo.C121_arrows_false"
   ],
   "note": "Holds for grids with one row or one column and the corner at the origin of the frame. False otherwise: np.meshgrid swaps the first two axes, so distances are shown in the wrong voxels (also for the shape of the demo), the corner is subtracted instead of added, and the arrows have the first two components of the gradient swapped with respect to the axes of the array."
  },
  {
   "property": "C122",
   "status": "proved",
   "theorems": [
    "Verif.Py.C122_2d",
    "Verif.Py.C122_3d",
    "Verif.Py.C122_pixel",
    "Verif.Py.C122_beside"
   ],
   "note": "C91 carried through the wrappers (layout, conversions to float32). The environment and cell size of test/test_bindings.py are shown to meet the hypotheses of C122_pixel and C122_beside."
  },
  {
   "property": "C123",
   "status": "proved",
   "theorems": [
    "Verif.FSdf.C123_stored",
    "Verif.FSdf.C123_estimate",
    "Verif.FSdf.C123_world",
    "Verif.FSdf.C123_clearance",
    "Verif.FSdf.C123_product",
    "Verif.FSdf.C123_anywhere"
   ],
   "note": "In IEEE arithmetic. C123_product shows that the check can be passed; a box in a rotated map is the example."
  },
  {
   "property": "C124",
   "status": "proved",
   "theorems": [
    "Verif.FSdf.C124_cell",
    "Verif.FSdf.C124_accept",
    "Verif.FSdf.C124_refuse",
    "Verif.FSdf.C124_marks",
    "Verif.FSdf.C124_reported",
    "Verif.FSdf.C124_clearance",
    "Verif.FSdf.C124_single"
   ],
   "note": "From C112 (rounded transforms and lookup), C118 and C123. The marked position is the image of a grid-frame location under the stored pose. C124_reported assumes finite values and C124_clearance the check of C123; C124_single assumes neither."
  },
  {
   "property": "C125",
   "status": "proved",
   "theorems": [
    "Verif.FSdf.C125_slow",
    "Verif.FSdf.C125_product"
   ],
   "note": "C125_slow assumes that the field passes the check of C123, C125_product derives it. 7/4 is sqrt 3 (trilinear interpolation of values that change by at most one cell along each axis) times 1.01."
  },
  {
   "property": "C126",
   "status": "partial",
   "theorems": [
    "Verif.FSdf.C126_projected_partial",
    "Verif.FSdf.C126_product_partial",
    "Verif.FSdf.C126_false"
   ],
   "note": "The property as stated fails: C126_false is a location inside the filled cell, an eighth of a cell from its faces, that is returned although a quarter of a cell was asked for. C126_projected_partial needs the check of C123 (C126_product_partial derives it) and gives asked <= 7/4 distance + 8 cells; that the projection ends at all is not part of it (C24)."
  },
  {
   "property": "C127",
   "status": "proved",
   "theorems": [
    "Verif.Tutorial.C127_components",
    "Verif.Tutorial.C127_distance"
   ],
   "note": "Coordinates of the grid are exact; the marker messages and console output of the program are C45, C98 and outside the model."
  },
  {
   "property": "C128",
   "status": "proved",
   "theorems": [
    "Verif.FSdf.C128_ball",
    "Verif.FSdf.C128_path",
    "Verif.FSdf.C128_accepts",
    "Verif.FSdf.C128_product",
    "Verif.FSdf.C128_anywhere"
   ],
   "note": "Doubles and floats are IEEE; the condition on the field is the one of C123, which can be checked by reading it."
  },
  {
   "property": "C129",
   "status": "proved",
   "theorems": [
    "Verif.FSdf.C129_world",
    "Verif.FSdf.C129_flat",
    "Verif.FSdf.C129_path",
    "Verif.FSdf.C129_product",
    "Verif.FSdf.C129_anywhere",
    "Verif.FSdf.C129_path_anywhere"
   ],
   "note": "Doubles and floats are IEEE; the condition on three-dimensional fields can be checked by reading the field and is proved (C129_product) for maps without obstacles and others where both classes are products."
  },
  {
   "property": "C13",
   "status": "proved",
   "theorems": [
    "Verif.C13_sign",
    "Verif.C13_nonzero",
    "Verif.C13_throws",
    "Verif.C13_collision_map"
   ],
   "note": "double and float rounding abstract (monotone, odd); no cell keeps the default because every value is the rounded distance"
  },
  {
   "property": "C130",
   "status": "proved",
   "theorems": [
    "Verif.FSdf.C130_path",
    "Verif.FSdf.C130_flat",
    "Verif.FSdf.C130_path_anywhere"
   ],
   "note": "Composes C124 (which cells the positions mark) with C129 (reports with the virtual border). The check on three-dimensional fields can be made by reading the field; the example with a wall of 400 marked positions passes it."
  },
  {
   "property": "C131",
   "status": "proved",
   "theorems": [
    "Verif.FSdf.C131_cells",
    "Verif.FSdf.C131_tagged",
    "Verif.FSdf.C131_same",
    "Verif.FSdf.C131_finer",
    "Verif.FSdf.C131_no_invention"
   ],
   "note": "The floating point counterpart of C39 and C77, whose exact-arithmetic theorems say which of several old cells wins. That coarser resampling can lose an obstacle is C39_coarser_loses_obstacle. The cell counts of the new map are a parameter (external constructor)."
  },
  {
   "property": "C132",
   "status": "proved",
   "theorems": [
    "Verif.FSdf.C132_path",
    "Verif.FSdf.C132_flat",
    "Verif.FSdf.C132_every_object",
    "Verif.FSdf.C132_path_anywhere",
    "Verif.FSdf.C132_every_object_anywhere"
   ],
   "note": "The loop over the positions is the caller's. The check of C123 is a hypothesis for three-dimensional maps because the distance propagation is not exact there (C123, C129)."
  },
  {
   "property": "C133",
   "status": "proved",
   "theorems": [
    "Verif.C133_agrees",
    "Verif.C133_distances"
   ],
   "note": "C41 gives the signs, C62 says when the reported extrema are those of the returned field. The relative error is that of C86."
  },
  {
   "property": "C134",
   "status": "partial",
   "theorems": [
    "Verif.C134_near_partial",
    "Verif.C134_flat_partial",
    "Verif.C134_false",
    "Verif.C134_order",
    "Verif.congruent_mirrorX",
    "Verif.congruent_swapXY"
   ],
   "note": "The full statement is false (C134_false); proved for nearest squared distances below 8 and, up to a factor of 1.42, on flat maps."
  },
  {
   "property": "C135",
   "status": "partial",
   "theorems": [
    "Verif.C135_flat_partial",
    "Verif.C135_near_partial",
    "Verif.C135_false",
    "Verif.reported_enlarged"
   ],
   "note": "The full statement is false on thick maps (C135_false); proved in full on maps one cell thick, and near obstacles on all maps."
  },
  {
   "property": "C136",
   "status": "partial",
   "theorems": [
    "Verif.C136_topology",
    "Verif.C136_partial",
    "Verif.C136_false_for_every_block",
    "Verif.C136_silent",
    "Verif.C136_tagged_free"
   ],
   "note": "What the call returns is proved for every component (C136_topology; the hole count for boundaries that do not touch themselves). The property itself is false for every component with a 2x2x2 block; proved for all others whose boundary does not touch itself. C136_tagged_free gives the same for the empty components of tagged maps without unknown cells. That pieces minus Euler number is the number of tunnels is standard topology and not part of the proof."
  },
  {
   "property": "C137",
   "status": "proved",
   "theorems": [
    "Verif.C137_sdf_file",
    "Verif.C137_cmap_file",
    "Verif.C137_tmap_file",
    "Verif.C137_files_by_layout_load",
    "Verif.C137_sdf_value",
    "Verif.C137_files_tell_maps_apart",
    "Verif.C137_messages"
   ],
   "note": "Positions are stated with a specification of its own (Spec/FileLayout.lean). Relies on the assumed contracts of the external arc_utilities serializers: little-endian members, 64-bit lengths, sixteen doubles per transform."
  },
  {
   "property": "C138",
   "status": "proved",
   "theorems": [
    "Verif.C138_sessions",
    "Verif.C138_continue",
    "Verif.C138_calls",
    "Verif.C138_flags",
    "Verif.C138_cells"
   ],
   "note": "zlib is a parameter: decompressing undoes compressing, and a cut-off stream is refused. Cells are addressed by index. A save that could not be written returns normally (C100), so the program is not told; what a later load then does is part of the statement."
  },
  {
   "property": "C139",
   "status": "proved",
   "theorems": [
    "Verif.C139_float",
    "Verif.C139_double",
    "Verif.C139_one_pattern",
    "Verif.C139_tests"
   ],
   "note": "That the compiler and the processor perform IEEE 754 arithmetic is assumed; the rounding used in the accuracy theorems is proved to be that arithmetic."
  },
  {
   "property": "C14",
   "status": "proved",
   "theorems": [
    "Verif.C14_uniform",
    "Verif.C14_close"
   ],
   "note": ""
  },
  {
   "property": "C140",
   "status": "proved",
   "theorems": [
    "Verif.C140_storable",
    "Verif.C140_cell",
    "Verif.C140_file",
    "Verif.C140_program",
    "Verif.C140_border_storable",
    "Verif.C140_border_cell",
    "Verif.C140_border_flat",
    "Verif.C140_border_file",
    "Verif.C140_border_program"
   ],
   "note": "C140_storable, _cell, _file and _program are without virtual border, the C140_border theorems with it. The lower bound on the magnitude is against the nearest cell of the other class (or of the border); the upper bound is against some such cell, because the two-pass computation does not always find the nearest one (C10_false)."
  },
  {
   "property": "C141",
   "status": "proved",
   "theorems": [
    "Verif.C141_field",
    "Verif.C141_extraction",
    "Verif.C141_components",
    "Verif.C141_tagged_components",
    "Verif.C141_segments"
   ],
   "note": "Counts iterations of the loops over queue entries and neighbours, and of the work loop of the flood fills. The loops over all buckets (nx^2+ny^2+nz^2+1 of them) and over all cells are not counted, nor is the field computed before the segments."
  },
  {
   "property": "C142",
   "status": "proved",
   "theorems": [
    "Verif.C142_power_of_two",
    "Verif.C142_order",
    "Verif.C142_gradient"
   ],
   "note": "IEEE rounding to nearest even without fused operations; cell sizes in the stated range so that nothing under- or overflows."
  },
  {
   "property": "C143",
   "status": "partial",
   "theorems": [
    "Verif.C143_history",
    "Verif.C143_gray_partial",
    "Verif.C143_preview_partial",
    "Verif.C143_ignored",
    "Verif.C143_false"
   ],
   "note": "Independence of the history is proved for all pictures. The contents are proved for one byte per pixel (mono8 and the like) and false otherwise (C143_false): C143_ignored says which part of the picture is looked at. The preview needs both kinds of pixels (C66). cv::Mat::at is taken without debug assertions."
  },
  {
   "property": "C144",
   "status": "proved",
   "theorems": [
    "Verif.FSdf.C144_world",
    "Verif.FSdf.C144_flat",
    "Verif.FSdf.C144_path",
    "Verif.FSdf.C144_anywhere",
    "Verif.FSdf.C144_path_anywhere",
    "Verif.FSdf.C144_product"
   ],
   "note": "In three dimensions the claim is conditional on the check, as for C123. EstimateDistance, transform, inverse and cell lookup in IEEE arithmetic as in C112; the lower bounds (clear, inside) leave out the outermost half cells."
  },
  {
   "property": "C15",
   "status": "proved",
   "theorems": [
    "Verif.C15_extrema"
   ],
   "note": "max/min of the double distances; their float roundings are the max/min of the stored values"
  },
  {
   "property": "C16",
   "status": "partial",
   "theorems": [
    "Verif.C16_false",
    "Verif.C16_extrema_partial"
   ],
   "note": "false for all-filled (and all-free) maps; proved when both kinds of cell exist"
  },
  {
   "property": "C17",
   "status": "proved",
   "theorems": [
    "Verif.C17_safe_queries",
    "Verif.C17_sign",
    "Verif.C17_collision_map",
    "Verif.C17_boundary"
   ],
   "note": ""
  },
  {
   "property": "C18",
   "status": "proved",
   "theorems": [
    "Verif.C18_swap"
   ],
   "note": "with and without border"
  },
  {
   "property": "C19",
   "status": "proved",
   "theorems": [
    "Verif.C19_axis_indices",
    "Verif.C19_outside_throws"
   ],
   "note": "exact ordered field"
  },
  {
   "property": "C20",
   "status": "proved",
   "theorems": [
    "Verif.C20_trilinear",
    "Verif.C20_at_centers",
    "Verif.C20_between"
   ],
   "note": "exact ordered field, any isometric origin transform"
  },
  {
   "property": "C21",
   "status": "proved",
   "theorems": [
    "Verif.C21_continuous",
    "Verif.C21_lipschitz"
   ],
   "note": "real numbers: ContinuousOn over all in-bounds locations; C21_lipschitz bounds how fast the estimate varies"
  },
  {
   "property": "C22",
   "status": "proved",
   "theorems": [
    "Verif.C22_sign_at_centers",
    "Verif.C22_zero_half_way"
   ],
   "note": ""
  },
  {
   "property": "C23",
   "status": "proved",
   "theorems": [
    "Verif.C23_shape",
    "Verif.C23_when",
    "Verif.C23_affine",
    "Verif.C23_location"
   ],
   "note": ""
  },
  {
   "property": "C24",
   "status": "proved",
   "theorems": [
    "Verif.C24_returned_point_is_clear",
    "Verif.C24_clear_start_unchanged",
    "Verif.C24_first_estimate_in_bounds"
   ],
   "note": "norm and normalisation arbitrary functions; exact arithmetic"
  },
  {
   "property": "C25",
   "status": "proved",
   "theorems": [
    "Verif.C25_result_inside",
    "Verif.C25_closest",
    "Verif.C25_inside_unchanged",
    "Verif.C25_idempotent",
    "Verif.C25_result_in_bounds"
   ],
   "note": ""
  },
  {
   "property": "C26",
   "status": "partial",
   "theorems": [
    "Verif.C26_inside",
    "Verif.C26_flag",
    "Verif.C26_false",
    "Verif.C26_outside_partial"
   ],
   "note": "the sign claim fails outside the volume (concrete point); inside part and flag proved in full"
  },
  {
   "property": "C27",
   "status": "proved",
   "theorems": [
    "Verif.C27_extrema_map",
    "Verif.C27_sdf",
    "Verif.C27_larger_map_is_ub"
   ],
   "note": "Full fixed-point characterisation for every gradient field with 3-component gradients, including cycles and NaN, and termination. C27_sdf discharges the hypothesis for signed distance fields. C27_larger_map_is_ub records what happens if the rebuilt map has more cells than the field."
  },
  {
   "property": "C28",
   "status": "proved",
   "theorems": [
    "Verif.C28_sdf_round_trip"
   ],
   "note": "All fields, any surrounding bytes, any previous contents of the object. Vector and string lengths below 2^64."
  },
  {
   "property": "C29",
   "status": "proved",
   "theorems": [
    "Verif.C29_cmap_round_trip"
   ],
   "note": "As C28."
  },
  {
   "property": "C30",
   "status": "proved",
   "theorems": [
    "Verif.C30_tmap_round_trip"
   ],
   "note": "As C28."
  },
  {
   "property": "C31",
   "status": "proved",
   "theorems": [
    "Verif.C31_sdf",
    "Verif.C31_cmap",
    "Verif.C31_tmap"
   ],
   "note": "Assumes that zlib decompression undoes compression (hypothesis ZlibOk)."
  },
  {
   "property": "C32",
   "status": "proved",
   "theorems": [
    "Verif.C32_rejects",
    "Verif.C32_headers",
    "Verif.C32_other_type"
   ],
   "note": "All byte strings."
  },
  {
   "property": "C33",
   "status": "proved",
   "theorems": [
    "Verif.C33_interrupted_save",
    "Verif.C33_interrupted_compressed_save"
   ],
   "note": "Assumes the external readers fail when reading past the end (DESIGN.md section 2). The compressed variant additionally assumes that zlib refuses truncated data."
  },
  {
   "property": "C34",
   "status": "partial",
   "theorems": [
    "Verif.C34_component_surface_partial",
    "Verif.C34_after_update_partial",
    "Verif.C34_top_layer_can_be_missed"
   ],
   "note": "Violated when the OOB cell carries a component in use (line 108 compares z with nz); proved whenever no cell carries the OOB component, in particular after an update with OOB component 0."
  },
  {
   "property": "C35",
   "status": "partial",
   "theorems": [
    "Verif.C35_empty_surfaces_partial",
    "Verif.C35_filled_surface_missed",
    "Verif.C35_unknown_surface_missed",
    "Verif.C35_filled_surface_spurious"
   ],
   "note": "Violated for filled and unknown components (wrong index arguments, collision_map.cpp:723 and 743); proved for empty components."
  },
  {
   "property": "C36",
   "status": "proved",
   "theorems": [
    "Verif.C36_connectivity",
    "Verif.C36_any_order"
   ],
   "note": "Proved for every vertex map with symmetric edges and every iteration order: throws exactly when some edge leads to an absent vertex, otherwise returns the number of connected pieces; the outcome does not depend on the order."
  },
  {
   "property": "C37",
   "status": "partial",
   "theorems": [
    "Verif.C37_slab_partial",
    "Verif.C37_false_for_every_thick_box"
   ],
   "note": "Holds for boxes one cell thick along some axis (any size, position, iteration order). False for every box at least two cells thick along every axis: ComputeHolesInSurface reads z-1 where z+1 is meant, drops top vertices and throws std::out_of_range; proved for all such boxes. Hypotheses: out-of-bounds value with component 0, at most 2^32-1 cells."
  },
  {
   "property": "C38",
   "status": "proved",
   "theorems": [
    "Verif.C38_candidate_corner"
   ],
   "note": ""
  },
  {
   "property": "C39",
   "status": "partial",
   "theorems": [
    "Verif.C39_resample_identity_partial",
    "Verif.C39_resample_keeps_centres_partial",
    "Verif.C39_resample_uncovered",
    "Verif.C39_finer_leaves_holes",
    "Verif.C39_finer_keeps_every_cell_partial",
    "Verif.C39_coarser_loses_obstacle"
   ],
   "note": "Identity and centre preservation proved; the claim about finer resolutions is violated (uncovered new cells keep the OOB value)."
  },
  {
   "property": "C40",
   "status": "proved",
   "theorems": [
    "Verif.C40_object_filter",
    "Verif.C40_make_objects",
    "Verif.C40_all_objects"
   ],
   "note": "Fill rule for both border settings, MakeObjectSDFs and MakeAllObjectSDFs."
  },
  {
   "property": "C41",
   "status": "proved",
   "theorems": [
    "Verif.C41_trichotomy",
    "Verif.C41_touching"
   ],
   "note": "Positive, negative and zero cells characterised; needs the stored float resolution to be positive."
  },
  {
   "property": "C42",
   "status": "proved",
   "theorems": [
    "Verif.C42_segments",
    "Verif.C42_one_object"
   ],
   "note": "Extrema enter as parameters far/near (near symmetric); labels are exactly the same-object regions."
  },
  {
   "property": "C43",
   "status": "partial",
   "theorems": [
    "Verif.C43_fresh_flag_is_junk",
    "Verif.C43_flag_goes_stale",
    "Verif.C43_current_partial",
    "Verif.C43_default_partial"
   ],
   "note": "The property is false: the flag is uninitialised after construction and SetValue leaves it set. Proved: current after an update until the next cell write; false on a default-constructed map."
  },
  {
   "property": "C44",
   "status": "proved",
   "theorems": [
    "Verif.C44_list",
    "Verif.C44_color_map",
    "Verif.C44_sizes"
   ],
   "note": "Both overloads; lists of at most 2^32 entries; colour generator is a parameter."
  },
  {
   "property": "C45",
   "status": "proved",
   "theorems": [
    "Verif.C45_export_for_display",
    "Verif.C45_separate_partition",
    "Verif.C45_component_display",
    "Verif.C45_separate_colours"
   ],
   "note": "Points are represented by cell indices."
  },
  {
   "property": "C46",
   "status": "proved",
   "theorems": [
    "Verif.C46_display"
   ],
   "note": "Exact arithmetic."
  },
  {
   "property": "C47",
   "status": "proved",
   "theorems": [
    "Verif.C47_cached",
    "Verif.C47_no_scene",
    "Verif.C47_requests",
    "Verif.C47_rejected"
   ],
   "note": "State machine over all histories; service and MoveIt are abstract."
  },
  {
   "property": "C48",
   "status": "partial",
   "theorems": [
    "Verif.C48_false",
    "Verif.C48_failed_call_ignored",
    "Verif.C48_returns_sdf",
    "Verif.C48_success_partial",
    "Verif.C48_false_ieee"
   ],
   "note": "False: the result of the service call is ignored, so a failed call is treated as an answer with an empty message. Proved: results after successful calls. C48_false_ieee: also with IEEE distances."
  },
  {
   "property": "C49",
   "status": "proved",
   "theorems": [
    "Verif.C49_value",
    "Verif.C49_sign",
    "Verif.C49_uniform",
    "Verif.C49_extrema",
    "Verif.C49_ieee"
   ],
   "note": "Model of the four sweeps. NaN never occurs. In IEEE double arithmetic the values of an image with both classes are finite and of magnitude at least 1 (C49_ieee)."
  },
  {
   "property": "C50",
   "status": "proved",
   "theorems": [
    "Verif.C50_3d",
    "Verif.C50_2d"
   ],
   "note": "Gradient function is a parameter that returns three components for in-bounds cells (C23_when proves that for the exact-field gradient). Non-empty environments; an empty one raises at shape[1]."
  },
  {
   "property": "C51",
   "status": "proved",
   "theorems": [
    "Verif.C51_extract_components"
   ],
   "note": "All histories on fresh maps, fewer than 2^32 cells."
  },
  {
   "property": "C52",
   "status": "proved",
   "theorems": [
    "Verif.C52_surface_export",
    "Verif.C52_nan_not_surface",
    "Verif.C52_separate_surfaces"
   ],
   "note": "Maps without NaN; the second theorem shows that NaN has to be excluded."
  },
  {
   "property": "C53",
   "status": "partial",
   "theorems": [
    "Verif.C53_false",
    "Verif.C53_progress_partial"
   ],
   "note": "violated: a narrow gap makes the loop oscillate for ever; ends whenever each step raises the estimate by a fixed amount"
  },
  {
   "property": "C54",
   "status": "partial",
   "theorems": [
    "Verif.C54_false",
    "Verif.C54_translation_partial"
   ],
   "note": "The code violates the property: steps in grid indices follow the world-frame gradient. C54_false gives the witness; invariance under translation is proved."
  },
  {
   "property": "C55",
   "status": "partial",
   "theorems": [
    "Verif.C55_false",
    "Verif.C55_own_files_partial"
   ],
   "note": "The code violates the property: nothing checks the data length against the cell counts."
  },
  {
   "property": "C56",
   "status": "proved",
   "theorems": [
    "Verif.C56_collision_only"
   ],
   "note": "Exact arithmetic. The alpha of this export is not clamped, unlike the other export."
  },
  {
   "property": "C57",
   "status": "proved",
   "theorems": [
    "Verif.C57_order_independent"
   ],
   "note": "For every component function, surface list and iteration order; also proves termination."
  },
  {
   "property": "C58",
   "status": "proved",
   "theorems": [
    "Verif.C58_static_dynamic",
    "Verif.C58_dynamic_static",
    "Verif.C58_index_map"
   ],
   "note": "All lists, maps and iteration orders."
  },
  {
   "property": "C59",
   "status": "proved",
   "theorems": [
    "Verif.C59_components",
    "Verif.C59_flag_never_stale"
   ],
   "note": "Grids of fewer than 2^32 cells."
  },
  {
   "property": "C60",
   "status": "proved",
   "theorems": [
    "Verif.C60_same_queries"
   ],
   "note": ""
  },
  {
   "property": "C61",
   "status": "partial",
   "theorems": [
    "Verif.C61_topology_differs",
    "Verif.C61_flat_partial",
    "Verif.C136_tagged_free"
   ],
   "note": "The property is false: two of the tagged map's surface scans use (x,y,y)/(x,z,z) indices. Proved for grids with at most two x layers and equal y and z sizes. The scan for empty components uses the right index: C136_tagged_free says what the call reports for these on every grid."
  },
  {
   "property": "C62",
   "status": "partial",
   "theorems": [
    "Verif.C62_false",
    "Verif.C62_extrema_partial"
   ],
   "note": "False when there is no free or no named obstacle cell; proved when both exist."
  },
  {
   "property": "C63",
   "status": "proved",
   "theorems": [
    "Verif.C63_objects",
    "Verif.C63_color_map",
    "Verif.C63_occupancy",
    "Verif.C63_components",
    "Verif.C63_segment"
   ],
   "note": "Point positions and colours are parameters."
  },
  {
   "property": "C64",
   "status": "proved",
   "theorems": [
    "Verif.C64_contour",
    "Verif.C64_contour_by_object",
    "Verif.C64_contour_colors",
    "Verif.C64_contour_colors_single",
    "Verif.C64_ieee"
   ],
   "note": "Assumes the rounding keeps sqrt(3)*resolution below 1.9*resolution (KeepsLimit): proved for exact arithmetic and for IEEE arithmetic (C64_ieee)."
  },
  {
   "property": "C65",
   "status": "partial",
   "theorems": [
    "Verif.C65_exact_below_13_partial",
    "Verif.C65_accuracy_partial",
    "Verif.C65_aligned_partial",
    "Verif.C65_false"
   ],
   "note": "False as stated: C65_false exhibits an 8 x 14 image where a pixel at distance 13 is reported as sqrt(170). Proved instead: exact for every image and pixel whose nearest pixel of the other class is less than 13 pixels away (13 is the exact limit), never an under-estimate (C49_value), squared error factor at most 4 - 2 sqrt 2 at any distance, exact at any distance when a nearest pixel is in the same row, column or diagonal."
  },
  {
   "property": "C66",
   "status": "partial",
   "theorems": [
    "Verif.C66_preview_partial",
    "Verif.C66_raw",
    "Verif.C66_uniform_undefined",
    "Verif.C66_false",
    "Verif.C66_ieee"
   ],
   "note": "False for uniform images: inf/inf is NaN and its conversion to uint8_t is undefined (C66_uniform_undefined, C66_false). Proved for every image with both classes; raw image proved for all images. The assumption on the arithmetic (PreviewOk) is proved for IEEE arithmetic (C66_ieee)."
  },
  {
   "property": "C67",
   "status": "proved",
   "theorems": [
    "Verif.C67_sdf",
    "Verif.C67_cmap",
    "Verif.C67_agree",
    "Verif.C67_deterministic"
   ],
   "note": ""
  },
  {
   "property": "C68",
   "status": "partial",
   "theorems": [
    "Verif.C68_false",
    "Verif.C68_oob_undefined",
    "Verif.C68_defined_partial",
    "Verif.C68_default_undefined",
    "Verif.C68_false_ieee"
   ],
   "note": "False: the float out-of-bounds value is converted to uint8_t (undefined outside (-1, 256), e.g. +inf), and a default-constructed builder dereferences a null pointer on a scene message. Proved: no history is undefined for fitting values. C68_false_ieee: also with IEEE distances."
  },
  {
   "property": "C69",
   "status": "partial",
   "theorems": [
    "Verif.C69_false",
    "Verif.C69_limits_partial",
    "Verif.C69_centred_partial",
    "Verif.C69_rotated_false"
   ],
   "note": "False: upper limit and velocity of virtual_x are swapped, and with a rotated origin the limits of the other joints can be too small. Proved without rotation for y and z, and for x when the grid ends at 10 or before; a volume centred by the constructor without a transform is reached if it is at most 20 long in x. Decimal rendering of the limits is not modelled."
  },
  {
   "property": "C70",
   "status": "proved",
   "theorems": [
    "Verif.C70_get_gradient",
    "Verif.C70_compute_gradient",
    "Verif.C70_layers",
    "Verif.C70_grid_to_np"
   ],
   "note": ""
  },
  {
   "property": "C71",
   "status": "partial",
   "theorems": [
    "Verif.C71_false",
    "Verif.C71_accepts_partial"
   ],
   "note": "The property is false: gradient_to_np reshapes nx*ny*3 numbers to (nx, ny) and raises for every non-empty field. The partial theorem characterises exactly which grids it accepts."
  },
  {
   "property": "C72",
   "status": "proved",
   "theorems": [
    "Verif.C72_forward_derivative",
    "Verif.C72_derivative",
    "Verif.C72_shape"
   ],
   "note": "Real numbers; dual-number model of Eigen's AutoDiffScalar."
  },
  {
   "property": "C73",
   "status": "proved",
   "theorems": [
    "Verif.C73_outcome"
   ],
   "note": "Exact ordered field. A zero window divides by zero and is excluded."
  },
  {
   "property": "C74",
   "status": "proved",
   "theorems": [
    "Verif.C74_estimate_affine",
    "Verif.C74_gradients_agree"
   ],
   "note": "Exact ordered field."
  },
  {
   "property": "C75",
   "status": "proved",
   "theorems": [
    "Verif.C75_display",
    "Verif.C75_order"
   ],
   "note": "Positions and transform are parameters; the chunk store is external."
  },
  {
   "property": "C76",
   "status": "partial",
   "theorems": [
    "Verif.C76_flags_partial",
    "Verif.C76_initialized_is_junk"
   ],
   "note": "Violated by the code: the constructors with arguments never set initialized_. Proved: the default constructor, the component flag; refuted: the constructors with arguments."
  },
  {
   "property": "C77",
   "status": "proved",
   "theorems": [
    "Verif.C77_resample_cells",
    "Verif.C77_no_new_objects",
    "Verif.C77_components_not_valid",
    "Verif.C77_finer_keeps_every_cell"
   ],
   "note": "Exact arithmetic over an ordered field; the external constructor's new cell counts are a parameter."
  },
  {
   "property": "C78",
   "status": "proved",
   "theorems": [
    "Verif.C78_surface_display"
   ],
   "note": ""
  },
  {
   "property": "C79",
   "status": "proved",
   "theorems": [
    "Verif.Py.C79_batch",
    "Verif.Py.C79_failures"
   ],
   "note": "tf.stack modelled by its documented behaviour."
  },
  {
   "property": "C80",
   "status": "partial",
   "theorems": [
    "Verif.GenNode.C80_display",
    "Verif.GenNode.C80_loop_partial",
    "Verif.GenNode.C80_node_undefined"
   ],
   "note": "Holds for every sequence of answers if the out-of-bounds value fits into uint8_t. The node itself passes INFINITY, so its first pass is undefined (C80_node_undefined)."
  },
  {
   "property": "C81",
   "status": "partial",
   "theorems": [
    "Verif.C81_border_partial",
    "Verif.C81_false",
    "Verif.C81_false_rotated",
    "Verif.C81_false_ieee"
   ],
   "note": "The code violates the full statement: a free cell beside a filled cell on the face of the grid is left unsegmented (C81_false), and so is a rotated map of free cells only (C81_false_rotated). C81_border_partial: complete for unrotated maps in which no face cell differs from its inward neighbour in being an obstacle. C81_false_ieee: also with IEEE distances (gradients exact; C109 has the gradients in IEEE arithmetic)."
  },
  {
   "property": "C82",
   "status": "partial",
   "theorems": [
    "Verif.C82_shell_partial",
    "Verif.C82_false",
    "Verif.C82_false_ieee"
   ],
   "note": "The code violates the full statement: a path from an object cell can enter the shell and leave the grid (C82_false). C82_shell_partial: complete for unrotated maps in which no filled object cell touches the shell. C82_false_ieee: also with IEEE distances (gradients exact)."
  },
  {
   "property": "C83",
   "status": "proved",
   "theorems": [
    "Verif.C83_segmentation"
   ],
   "note": "End to end, from the cells of the map to the labels. Gradient arithmetic is exact."
  },
  {
   "property": "C84",
   "status": "proved",
   "theorems": [
    "Verif.C84_designation",
    "Verif.C84_results",
    "Verif.C84_collision_map",
    "Verif.C84_corner",
    "Verif.C84_tagged_results",
    "Verif.C84_tagged_map",
    "Verif.C84_tagged_corner",
    "Verif.C84_not_normalised"
   ],
   "note": "Exact coordinates; the conversion from position to index is the assumed contract of VoxelGrid. C84_not_normalised: a 4-entry vector with last entry other than 1 is not normalised."
  },
  {
   "property": "C85",
   "status": "proved",
   "theorems": [
    "Verif.C85_between",
    "Verif.C85_neighbours",
    "Verif.C85_signed",
    "Verif.C85_signed_neighbours"
   ],
   "note": "Without virtual border. C85_signed holds for every rounding; C85_signed_neighbours is for exact arithmetic."
  },
  {
   "property": "C86",
   "status": "proved",
   "theorems": [
    "Verif.C86_accuracy",
    "Verif.C86_near",
    "Verif.C86_flat"
   ],
   "note": "The rounding is defined in Verif/Ieee.lean and proved to satisfy the abstract rounding contract. Without virtual border. The square root and the product are assumed correctly rounded (IEEE 754)."
  },
  {
   "property": "C87",
   "status": "proved",
   "theorems": [
    "Verif.C87_2d",
    "Verif.C87_3d"
   ],
   "note": "IEEE arithmetic as defined in Verif/Ieee.lean; numpy and the bindings as in C50."
  },
  {
   "property": "C88",
   "status": "proved",
   "theorems": [
    "Verif.C88_location",
    "Verif.C88_outside",
    "Verif.C88_autodiff",
    "Verif.C88_kink"
   ],
   "note": "Exact arithmetic."
  },
  {
   "property": "C89",
   "status": "proved",
   "theorems": [
    "Verif.C89_continuous"
   ],
   "note": "Distances before the rounding to double, which is applied to each."
  },
  {
   "property": "C90",
   "status": "proved",
   "theorems": [
    "Verif.C90_sdf",
    "Verif.C90_sdf_fresh",
    "Verif.C90_collision_map",
    "Verif.C90_tagged_map",
    "Verif.C90_fresh_flags",
    "Verif.C90_counts_before_update"
   ],
   "note": "Relies on the assumed contract that the base class's default grid has size 0 x 0 x 0."
  },
  {
   "property": "C91",
   "status": "proved",
   "theorems": [
    "Verif.C91_exact",
    "Verif.C91_ieee",
    "Verif.C91_box",
    "Verif.C91_collision_map",
    "Verif.C91_straight"
   ],
   "note": "Without a virtual border; C92 covers the border."
  },
  {
   "property": "C92",
   "status": "proved",
   "theorems": [
    "Verif.C92_accuracy",
    "Verif.C92_near",
    "Verif.C92_flat",
    "Verif.C92_exact",
    "Verif.C92_barrier_exists",
    "Verif.C92_collision_map"
   ],
   "note": "IEEE binary64/binary32 arithmetic (C92_exact for any rounding)."
  },
  {
   "property": "C93",
   "status": "proved",
   "theorems": [
    "Verif.C93_sdf",
    "Verif.C93_sdf_collision",
    "Verif.C93_collision_map",
    "Verif.C93_separate",
    "Verif.C93_surfaces",
    "Verif.C93_separate_surfaces",
    "Verif.C93_components",
    "Verif.C93_tagged",
    "Verif.C93_occupancy",
    "Verif.C93_surface",
    "Verif.C93_by_object",
    "Verif.C93_contours",
    "Verif.C93_contours_by_object"
   ],
   "note": "Exact arithmetic. Surface displays of collision maps need occupancies that are not NaN (C52)."
  },
  {
   "property": "C94",
   "status": "partial",
   "theorems": [
    "Verif.C94_translated_map_partial",
    "Verif.C94_rotated_map_misdrawn"
   ],
   "note": "Violated by the code for rotated maps: the cubes are drawn parallel to the axes of the map's frame (C94_rotated_map_misdrawn). Proved for maps that are only translated."
  },
  {
   "property": "C95",
   "status": "partial",
   "theorems": [
    "Verif.C95_base_partial",
    "Verif.C95_wrong_frame"
   ],
   "note": "Violated by the code: the collision map is published in the frame \"base\" whatever frame is configured (C95_wrong_frame). Proved for the frame \"base\"."
  },
  {
   "property": "C96",
   "status": "proved",
   "theorems": [
    "Verif.C96_arrays",
    "Verif.C96_contour_arrays",
    "Verif.C96_separate",
    "Verif.C96_segments",
    "Verif.C96_hashed",
    "Verif.C96_kinds"
   ],
   "note": ""
  },
  {
   "property": "C97",
   "status": "partial",
   "theorems": [
    "Verif.C97_sdf",
    "Verif.C97_collision_map",
    "Verif.C97_tagged",
    "Verif.C97_components_and_surfaces",
    "Verif.C97_by_object_partial",
    "Verif.C97_stale_object",
    "Verif.C97_stale_chunk",
    "Verif.C97_contour_hides_full"
   ],
   "note": "Proved for all displays with a fixed set of markers. Violated by the displays with one marker per object and by the display of hashed maps, which leave out empty markers without deleting the old ones (C97_stale_object, C97_stale_chunk); proved for the first if no object disappears. The contract of the viewer is that a marker to be added replaces the one with the same namespace and number."
  },
  {
   "property": "C98",
   "status": "partial",
   "theorems": [
    "Verif.C98_colours_partial",
    "Verif.C98_not_finite",
    "Verif.C98_no_obstacle",
    "Verif.C98_collision_only"
   ],
   "note": "Violated by the code for infinite values: infinity divided by infinity makes the shade NaN (C98_not_finite), so every colour in the display of a map without obstacles is invalid (C98_no_obstacle). Proved for all fields with finite values; the collision-only part for all fields."
  },
  {
   "property": "C99",
   "status": "partial",
   "theorems": [
    "Verif.C99_replaces",
    "Verif.C99_reads_back",
    "Verif.C99_loads",
    "Verif.C99_cut_in_cells_partial",
    "Verif.C99_torn"
   ],
   "note": "Violated by the code for failures: members are assigned one by one, so an exception leaves a mixed object, which can claim more cells than it stores (C99_torn). Proved: complete replacement on success for all objects and buffers; a failure before the end of the cells changes only the flag and the transforms."
  }
 ]
}