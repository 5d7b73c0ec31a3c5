{
 "claims": [
  {
   "property": "C01",
   "status": "proved",
   "theorems": [
    "Vox.Props.C01_valid_voxel_iff",
    "Vox.Props.C01_voxel_to_linear_to_voxel",
    "Vox.Props.C01_linear_to_voxel_to_linear",
    "Vox.Props.C01_no_aliasing",
    "Vox.Props.C01_huge_block_violated"
   ],
   "note": "Blocks of at most 2^31 voxels; C01_huge_block_violated shows the bound is needed."
  },
  {
   "property": "C02",
   "status": "partial",
   "theorems": [
    "Vox.Props.C02_split_recombine_partial",
    "Vox.Props.C02_pair_roundtrip_partial",
    "Vox.Props.C02_split_violated"
   ],
   "note": "Proved while the global index is exactly representable in float32 arithmetic; beyond that C02_split_violated shows the block index is wrong."
  },
  {
   "property": "C03",
   "status": "proved",
   "theorems": [
    "Vox.Props.C03_local_index",
    "Vox.Props.C03_other_sides_refused",
    "Vox.Props.C03_zero_side_accepted"
   ],
   "note": "Euclidean remainder for every power of two; other sides refused; side zero passes the check."
  },
  {
   "property": "C04",
   "status": "proved",
   "theorems": [
    "Vox.Props.C04_center_roundtrip",
    "Vox.Props.C04_origin_roundtrip",
    "Vox.Props.C04_origin_robust",
    "Vox.Props.C04_point_in_reported_cell",
    "Vox.Props.C04_index_of_cell"
   ],
   "note": "Exact rational arithmetic; the same in float arithmetic with error bounds is C73."
  },
  {
   "property": "C05",
   "status": "proved",
   "theorems": [
    "Vox.Props.C05_truncated_in_block",
    "Vox.Props.C05_center_roundtrip",
    "Vox.Props.C05_far_point_undefined"
   ],
   "note": "Truncated index always inside the block; converting a point too far away is undefined."
  },
  {
   "property": "C06",
   "status": "proved",
   "theorems": [
    "Vox.Props.C06_neighbor_position",
    "Vox.Props.C06_zero_side_refused",
    "Vox.Props.C06_occ_neighbor_agrees",
    "Vox.Props.C06_hierarchical_agrees_with_global",
    "Vox.Props.C06_offset_between"
   ],
   "note": "All directions with components in -1..1; agreement of the three neighbour lookups."
  },
  {
   "property": "C07",
   "status": "proved",
   "theorems": [
    "Vox.Props.C07_table_complete",
    "Vox.Props.C07_connectivity_prefixes",
    "Vox.Props.C07_distances",
    "Vox.Props.C07_symmetric",
    "Vox.Props.C07_occ_enumeration"
   ],
   "note": "Tables transcribed literally from the source."
  },
  {
   "property": "C08",
   "status": "proved",
   "theorems": [
    "Vox.Props.C08_tsdf_roundtrip"
   ],
   "note": "All bit patterns, all block sizes."
  },
  {
   "property": "C09",
   "status": "partial",
   "theorems": [
    "Vox.Props.C09_esdf_roundtrip_partial",
    "Vox.Props.C09_what_survives",
    "Vox.Props.C09_parent_violated"
   ],
   "note": "Lossless exactly for the parent directions characterised by ParentSurvives (C09_what_survives gives the exact extent); C09_parent_violated is the counterexample to the full claim."
  },
  {
   "property": "C10",
   "status": "proved",
   "theorems": [
    "Vox.Props.C10_occupancy_roundtrip",
    "Vox.Props.C10_intensity_roundtrip"
   ],
   "note": "All bit patterns, all block sizes."
  },
  {
   "property": "C11",
   "status": "proved",
   "theorems": [
    "Vox.Props.C11_wrong_length_refused",
    "Vox.Props.C11_right_length_accepted",
    "Vox.Props.C11_empty_payload"
   ],
   "note": "All four voxel types; wrong length aborts, right length decodes without out-of-range reads."
  },
  {
   "property": "C12",
   "status": "proved",
   "theorems": [
    "Vox.Props.C12_layer_is_finite_map",
    "Vox.Props.C12_insert_over_existing_debug"
   ],
   "note": "Refinement of the pointer-based layer to a finite map over every operation sequence; inserting over an existing index is a debug-only check, stated both ways."
  },
  {
   "property": "C13",
   "status": "proved",
   "theorems": [
    "Vox.Props.C13_updated_query",
    "Vox.Props.C13_all_blocks_query",
    "Vox.Props.C13_clear_one_flag"
   ],
   "note": "All reachable layers."
  },
  {
   "property": "C14",
   "status": "proved",
   "theorems": [
    "Vox.Props.C14_remove_distant",
    "Vox.Props.C14_clear_distant_mesh"
   ],
   "note": "Layers drop distant blocks; the mesh layer empties and flags distant mesh blocks."
  },
  {
   "property": "C15",
   "status": "partial",
   "theorems": [
    "Vox.Props.C15_copy_partial",
    "Vox.Props.C15_metadata_violated",
    "Vox.Props.C15_merge_from_copy_transfers_nothing"
   ],
   "note": "Voxel values are copied into fresh blocks; the has-data mark and update flags are not copied, with a counterexample."
  },
  {
   "property": "C16",
   "status": "partial",
   "theorems": [
    "Vox.Props.C16_incompatible",
    "Vox.Props.C16_missing",
    "Vox.Props.C16_prohibit_existing",
    "Vox.Props.C16_replace_existing",
    "Vox.Props.C16_discard_existing",
    "Vox.Props.C16_merge_existing_partial",
    "Vox.Props.C16_merge_unmarked_ignored",
    "Vox.Props.C16_merge_close_size_aborts"
   ],
   "note": "prohibit, replace, discard and insertion proved in full; merge proved for stored blocks with the has-data mark and equal voxel size, with theorems showing the two other cases are ignored or abort."
  },
  {
   "property": "C17",
   "status": "proved",
   "theorems": [
    "Vox.Props.C17_save_load",
    "Vox.Props.C17_save_load_into"
   ],
   "note": "Byte level, generic in the voxel codec; the block origin must map back to the block's own index, which C73_stored_index proves for the float computation of the code within a million blocks."
  },
  {
   "property": "C18",
   "status": "proved",
   "theorems": [
    "Vox.Props.C18_save_subset"
   ],
   "note": "Byte level."
  },
  {
   "property": "C19",
   "status": "partial",
   "theorems": [
    "Vox.Props.C19_first_compatible_partial",
    "Vox.Props.C19_first_compatible_into_partial",
    "Vox.Props.C19_single_only_first",
    "Vox.Props.C19_small_file_violated"
   ],
   "note": "Proved when at least 8191 bytes follow the skipped layers; counterexample for shorter files (stream end-of-file flag)."
  },
  {
   "property": "C20",
   "status": "proved",
   "theorems": [
    "Vox.Props.C20_truncated_load",
    "Vox.Props.C20_truncated_load_into"
   ],
   "note": "Every strict prefix, both loaders."
  },
  {
   "property": "C21",
   "status": "proved",
   "theorems": [
    "Vox.Tsdf.C21_weighted_mean",
    "Vox.Tsdf.C21_commutative",
    "Vox.Tsdf.C21_associative",
    "Vox.Tsdf.C21_zero_neutral",
    "Vox.Tsdf.C21_both_zero",
    "Vox.Tsdf.C21_esdf",
    "Vox.Tsdf.C21_occupancy"
   ],
   "note": "Exact arithmetic for the means; commutativity for every rounding."
  },
  {
   "property": "C22",
   "status": "partial",
   "theorems": [
    "Vox.Merge.C22_merge_partial",
    "Vox.Merge.C22_tsdf_partial",
    "Vox.Merge.C22_unmarked",
    "Vox.Merge.C22_integrated",
    "Vox.Merge.C22_not_transferred"
   ],
   "note": "Exact effect of a merge for any marks; complete merge for maps whose blocks are marked as having data. Violated for maps filled by the integrators: proved that nothing is transferred, with a witness."
  },
  {
   "property": "C23",
   "status": "partial",
   "theorems": [
    "Vox.Merge.C23_effect_partial",
    "Vox.Merge.C23_lost"
   ],
   "note": "Exact effect proved: the resampled map is merged at the block indices of the unresampled map. The full claim is violated; witness where all data is lost."
  },
  {
   "property": "C24",
   "status": "partial",
   "theorems": [
    "Vox.Tsdf.C24_bounds",
    "Vox.Tsdf.C24_bounds_fresh",
    "Vox.Tsdf.C24_weight_monotone",
    "Vox.Tsdf.C24_negligible_total",
    "Vox.Tsdf.C24_zero_weight_exact_partial",
    "Vox.Tsdf.C24_zero_weight_violated"
   ],
   "note": "Limits for every rounding; weight monotone for every monotone idempotent rounding. Violated for zero-weight bundles of the merged integrator (C24_zero_weight_violated): a NaN distance with weight 0 overwrites an observed voxel."
  },
  {
   "property": "C25",
   "status": "proved",
   "theorems": [
    "Vox.Tsdf.C25_weighted_mean",
    "Vox.Tsdf.C25_order_independent",
    "Vox.Tsdf.C25_distance_is_projection",
    "Vox.Tsdf.C25_bundle_mean",
    "Vox.Tsdf.C25_clearing_bundle_first"
   ],
   "note": "Exact arithmetic; colour is excluded from order independence."
  },
  {
   "property": "C26",
   "status": "proved",
   "theorems": [
    "Vox.Tsdf.C26_blend_between",
    "Vox.Tsdf.C26_zero_total_undefined",
    "Vox.Tsdf.C26_update_defined",
    "Vox.Tsdf.C26_sequence_defined",
    "Vox.Tsdf.C26_bundle_defined",
    "Vox.Tsdf.C26_merge_defined",
    "Vox.RoundErr.C26_blend_float32",
    "Vox.RoundErr.C26_sequence_float32",
    "Vox.RoundErr.C26_bundle_float32",
    "Vox.RoundErr.C26_merge_float32"
   ],
   "note": "Any arithmetic with relative error at most 1/4096, and IEEE single precision with underflow and overflow; zero total weight is undefined behaviour and shown unreachable from update, bundle merge and voxel merge. A weight sum that overflows gives black (C26_blend_float32)."
  },
  {
   "property": "C27",
   "status": "proved",
   "theorems": [
    "Vox.Tsdf.C27_classification",
    "Vox.Tsdf.C27_freespace_clears",
    "Vox.Tsdf.C27_nan_accepted",
    "Vox.Tsdf.C27_weight_nonneg",
    "Vox.Tsdf.C27_weight_value"
   ],
   "note": "Includes the NaN case: NaN points are accepted."
  },
  {
   "property": "C28",
   "status": "proved",
   "theorems": [
    "Vox.Props.C28_no_duplicates",
    "Vox.Props.C28_complete",
    "Vox.Props.C28_no_deadlock",
    "Vox.Props.C28_terminates"
   ],
   "note": "Transition system over atomic fetch_add steps; any number of threads, any schedule; n + threads + 1 < 2^64."
  },
  {
   "property": "C29",
   "status": "proved",
   "theorems": [
    "Vox.Props.C29_mixed_order"
   ],
   "note": "All cloud sizes."
  },
  {
   "property": "C30",
   "status": "proved",
   "theorems": [
    "Vox.Props.C30_sorted_order",
    "Vox.Props.C30_nan_undefined",
    "Vox.Props.C30_unknown_mode_refused",
    "Vox.Props.C30_any_mode_dispatch"
   ],
   "note": "Any std::sort meeting the standard; NaN norms make the sort undefined (C30_nan_undefined)."
  },
  {
   "property": "C31",
   "status": "proved",
   "theorems": [
    "Vox.Props.C31_one_thread_per_position",
    "Vox.Props.C31_each_bundle_once",
    "Vox.Props.C31_needs_same_order",
    "Vox.Props.C31_bundles_partition"
   ],
   "note": "Thread partition and bundling; assumes map copies keep iteration order (C31_needs_same_order)."
  },
  {
   "property": "C32",
   "status": "proved",
   "theorems": [
    "Vox.Props.C32_same_index_same_block",
    "Vox.Props.C32_different_index_different_block",
    "Vox.Props.C32_map_blocks_kept",
    "Vox.Props.C32_merge_result",
    "Vox.Props.C32_no_deadlock"
   ],
   "note": "Transition system with mutex; data race on the update flags is not modelled."
  },
  {
   "property": "C33",
   "status": "partial",
   "theorems": [
    "Vox.Ray.C33_unit_steps_partial",
    "Vox.Ray.C33_axis_parallel_violated",
    "Vox.Ray.C33_no_jumps",
    "Vox.Ray.C33_max_length_never_ends",
    "Vox.Ray.C33_plane_ray_stuck_violated",
    "Vox.Ray.C33_parallel_end_missed_violated"
   ],
   "note": "Every rounding, rays with three non-zero components. Violated for all rays parallel to a coordinate plane: C33_plane_ray_stuck_violated and C33_parallel_end_missed_violated characterise them in single precision, C33_axis_parallel_violated is an instance; also violated at the 32-bit step limit."
  },
  {
   "property": "C34",
   "status": "partial",
   "theorems": [
    "Vox.Ray.C34_ends_in_end_voxel_partial",
    "Vox.Ray.C34_cells_partial",
    "Vox.Ray.C34_edge_missed",
    "Vox.Ray.C34_interior_visited_partial",
    "Vox.Ray.C34_measured_point_on_ray",
    "Vox.Ray.C34_clearing_ray_short"
   ],
   "note": "Exact arithmetic, rays with three non-zero components, end point off the cell boundary; the same in single precision, up to a tolerance, is C113. Violated for axis-parallel rays and for end points on cell edges (C34_edge_missed)."
  },
  {
   "property": "C35",
   "status": "partial",
   "theorems": [
    "Vox.Ray.C35_nan_is_undefined",
    "Vox.Ray.C35_finite_safe_partial"
   ],
   "note": "Violated: the NaN branch leaves the step counter uninitialised, which is undefined behaviour (C35_nan_is_undefined). Rays between finite points are safe."
  },
  {
   "property": "C36",
   "status": "proved",
   "theorems": [
    "Vox.Props.C36_refines_stable_priority_queue",
    "Vox.Props.C36_entries_sorted",
    "Vox.Props.C36_push_conserves",
    "Vox.Props.C36_bucket_monotone"
   ],
   "note": "Refinement to a stable priority queue for all operation sequences."
  },
  {
   "property": "C37",
   "status": "proved",
   "theorems": [
    "Vox.Props.C37_no_abort_no_ub",
    "Vox.Props.C37_default_then_configured",
    "Vox.Props.C37_front_of_empty_aborts",
    "Vox.Props.C37_zero_buckets_abort",
    "Vox.Props.C37_default_constructed_undefined",
    "Vox.Props.C37_zero_maximum_undefined"
   ],
   "note": "Safe for configured queues under every operation sequence; the out-of-contract cases (default-constructed, zero maximum) are shown undefined."
  },
  {
   "property": "C38",
   "status": "partial",
   "theorems": [
    "Vox.Props.C38_no_false_positive_partial",
    "Vox.Props.C38_full_resets_only",
    "Vox.Props.C38_zero_hash_violated",
    "Vox.Props.C38_single_bin_violated"
   ],
   "note": "Violated for hash 0 after a partial reset (C38_zero_hash_violated); proved for all other hashes and for full resets, under all interleavings."
  },
  {
   "property": "C39",
   "status": "proved",
   "theorems": [
    "Vox.Props.C39_never_out_of_range",
    "Vox.Props.C39_present_after_insert",
    "Vox.Props.C39_replace_then_present",
    "Vox.Props.C39_array_slot",
    "Vox.Props.C39_index_hash_range",
    "Vox.Props.C39_hash_separates",
    "Vox.Props.C39_hash_collides"
   ],
   "note": "All interleavings; separation of the index hashes in a neighbourhood, and where they collide."
  },
  {
   "property": "C40",
   "status": "proved",
   "theorems": [
    "Vox.Occ.C40_limits",
    "Vox.Occ.C40_observed",
    "Vox.Occ.C40_direction",
    "Vox.Occ.C40_saturation",
    "Vox.Occ.C40_logodds_sign",
    "Vox.Occ.C40_logodds_roundtrip",
    "Vox.Occ.C40_logodds_mono"
   ],
   "note": "Any rounding without NaN for the limits; monotone idempotent rounding for the direction; log-odds function over the reals."
  },
  {
   "property": "C41",
   "status": "partial",
   "theorems": [
    "Vox.Occ.C41_once_hits_win",
    "Vox.Occ.C41_end_point_hit_partial",
    "Vox.Occ.C41_only_traversed",
    "Vox.Occ.C41_short_ray_violated",
    "Vox.Occ.C41_repeated_end_violated"
   ],
   "note": "At most one update and hits win for every iteration order. Violated for rays of at most two voxels and for rays ending in an already occupied voxel."
  },
  {
   "property": "C42",
   "status": "proved",
   "theorems": [
    "Vox.EsdfOcc.C42_batch"
   ],
   "note": "Shortest-path lengths in rounded arithmetic; the cut-off is that voxels at or beyond the maximum distance are not extended."
  },
  {
   "property": "C43",
   "status": "proved",
   "theorems": [
    "Vox.Esdf.C43_open",
    "Vox.Esdf.C43_raise",
    "Vox.Esdf.C43_update",
    "Vox.EsdfOcc.C43_occ_open",
    "Vox.EsdfOcc.C43_occ_update"
   ],
   "note": "Both integrators: open set, raise set, whole updates."
  },
  {
   "property": "C44",
   "status": "proved",
   "theorems": [
    "Vox.Esdf.C44_batch",
    "Vox.Esdf.C44_incremental_partial",
    "Vox.Esdf.C44_incremental_counterexample"
   ],
   "note": "Batch update: fixed band, sign and observed flags for every voxel of every TSDF layer within the stated float limits. For incremental updates the same holds for freshly listed blocks (partial theorem); a counterexample shows the fixed band can be stale after an incremental update."
  },
  {
   "property": "C45",
   "status": "partial",
   "theorems": [
    "Vox.Esdf.C45_counterexample",
    "Vox.Esdf.C45_sequences_partial"
   ],
   "note": "The defect is proved (robot position, then batch update aborts); every sequence in which a batch update does not meet pending robot positions is proved to complete."
  },
  {
   "property": "C46",
   "status": "partial",
   "theorems": [
    "Vox.Esdf.C46_listed_partial",
    "Vox.Esdf.C46_lost",
    "Vox.Esdf.C46_unlisted",
    "Vox.Esdf.C46_propagation_counterexample"
   ],
   "note": "Violated: mesh and ESDF flags are lost on processed blocks, and blocks changed only by propagation are not flagged. Proved: the map flag is set on every listed block present in the TSDF."
  },
  {
   "property": "C47",
   "status": "proved",
   "theorems": [
    "Vox.Interp.C47_trilinear",
    "Vox.Interp.C47_bounded",
    "Vox.Interp.C47_exact_at_center",
    "Vox.Interp.C47_exact_on_affine",
    "Vox.Interp.C47_colour_defined"
   ],
   "note": "Interpolated distance/weight are the trilinear combination of the eight surrounding voxels (exact rational arithmetic): bounded by them, exact at centres and on affine fields; colour defined. The rounding in single precision is the subject of C112."
  },
  {
   "property": "C48",
   "status": "proved",
   "theorems": [
    "Vox.Interp.C48_cell_exists_unique",
    "Vox.Interp.C48_returns_surrounding",
    "Vox.Interp.C48_refuses",
    "Vox.Interp.C48_fresh_refused"
   ],
   "note": "Existence and uniqueness of the surrounding cell, the code returns its eight corners through block borders, refuses exactly when a corner is missing/unobserved."
  },
  {
   "property": "C49",
   "status": "partial",
   "theorems": [
    "Vox.Interp.C49_interpolated_exact",
    "Vox.Interp.C49_nearest_exact_partial",
    "Vox.Interp.C49_nearest_border_violated",
    "Vox.Interp.C49_refuses",
    "Vox.Interp.C49_adaptive_exact_partial"
   ],
   "note": "Interpolated gradient exact on affine fields. Nearest-voxel gradient and adaptive mode proved exact outside the 1e-6 slivers below block borders; violation inside a sliver proved (C49_nearest_border_violated)."
  },
  {
   "property": "C50",
   "status": "proved",
   "theorems": [
    "Vox.MC.C50_rows",
    "Vox.MC.C50_edges",
    "Vox.MC.C50_used_iff",
    "Vox.MC.C50_distinct",
    "Vox.MC.C50_segment_unique",
    "Vox.MC.C50_closed",
    "Vox.MC.C50_orientation_upper",
    "Vox.MC.C50_orientation_lower"
   ],
   "note": "All 256 rows checked by kernel evaluation and lifted to arbitrary sign fields on the integer grid: rows complete, edges used iff the sign changes, every directed triangle edge has exactly one reverse in exactly one cube (closed, oriented surface), orientation towards the non-negative side at cube faces."
  },
  {
   "property": "C51",
   "status": "proved",
   "theorems": [
    "Vox.MC.C51_on_edge",
    "Vox.MC.C51_symmetric",
    "Vox.MC.C51_defined",
    "Vox.MC.C51_nan_undefined",
    "Vox.MC.C51_grid"
   ],
   "note": "interpolateVertex and meshCube in exact arithmetic on grid fields (vertices are the crossings, the same for both directions and all cubes); definedness for any rounding if no distance is NaN. C51_nan_undefined shows that a NaN distance makes the code read uninitialised vertices."
  },
  {
   "property": "C52",
   "status": "proved",
   "theorems": [
    "Vox.MeshInt.C52_each_cube_once",
    "Vox.MeshInt.C52_border_corner",
    "Vox.MeshInt.C52_inside_corner",
    "Vox.MeshInt.C52_unobserved_cube",
    "Vox.MeshInt.C52_block_mesh",
    "Vox.MeshInt.C52_vertex_edges",
    "Vox.MeshInt.C52_colors",
    "Vox.MeshInt.C52_tsdf",
    "Vox.MeshInt.C52_esdf",
    "Vox.MeshInt.C52_voxel_colors"
   ],
   "note": "Every block side: the four loops visit each cube once; corner reads equal the layer content at the global index of the corner; the whole block mesh in closed form; unobserved cubes give nothing; colours come from an end of the edge. Exact coordinates."
  },
  {
   "property": "C53",
   "status": "partial",
   "theorems": [
    "Vox.MeshInt.C53_incremental_partial",
    "Vox.MeshInt.C53_call",
    "Vox.MeshInt.C53_violated"
   ],
   "note": "Violated by the code (C53_violated: stale mesh of the lower neighbour). Proved for histories whose updates also flag the lower neighbours; C53_call gives the exact effect of one call. Threads modelled sequentially."
  },
  {
   "property": "C54",
   "status": "proved",
   "theorems": [
    "Vox.MeshOps.C54_block",
    "Vox.MeshOps.C54_generate",
    "Vox.MeshOps.C54_concatenate",
    "Vox.MeshOps.C54_concatenate_abort",
    "Vox.MeshOps.C54_getMesh",
    "Vox.MeshOps.C54_getMesh_reused_wrong"
   ],
   "note": "Block meshes, all meshes of the layer after generateMesh, concatenation, layer-wide mesh into an empty mesh, connected mesh (indices in C55_connected_partial). Finding: getMesh into a mesh that is not empty silently doubles old triangles (C54_getMesh_reused_wrong); concatenation onto an empty mesh aborts when the other has colours."
  },
  {
   "property": "C55",
   "status": "partial",
   "theorems": [
    "Vox.MeshOps.C55_connected_partial",
    "Vox.MeshOps.C55_data_partial",
    "Vox.MeshOps.C55_unit",
    "Vox.MeshOps.C55_one_per_cell",
    "Vox.MeshOps.C55_close",
    "Vox.MeshOps.C55_grouping",
    "Vox.MeshOps.C55_no_normals"
   ],
   "note": "Violated without normals (C55_no_normals: undefined behaviour). Proved for meshes with normals, any rounding: indices, one vertex per cell, and the position, colour and combined normal of every vertex (C55_data_partial, C55_unit); the normal depends on the grouping of triangles (C55_grouping); the distance bound C55_close is for exact arithmetic."
  },
  {
   "property": "C56",
   "status": "partial",
   "theorems": [
    "Vox.Sphere.C56_sphere_partial",
    "Vox.Sphere.C56_exact",
    "Vox.Sphere.C56_asymmetric",
    "Vox.Sphere.C56_within",
    "Vox.Sphere.C56_fill",
    "Vox.Sphere.C56_clear"
   ],
   "note": "Violated for radii that are not a multiple of the voxel size (C56_asymmetric); exact characterisation for all radii, exactness for multiples (C56_exact), filling and clearing for every layer content and hash map order. Norms compared by squares, exact coordinates."
  },
  {
   "property": "C57",
   "status": "partial",
   "theorems": [
    "Vox.Sphere.C57_bounds_partial",
    "Vox.Sphere.C57_empty"
   ],
   "note": "Violated for an empty layer (C57_empty: uninitialised reads); proved for every layer with a block."
  },
  {
   "property": "C58",
   "status": "partial",
   "theorems": [
    "Vox.Eval.C58_counts",
    "Vox.Eval.C58_max",
    "Vox.Eval.C58_min_zero",
    "Vox.Eval.C58_min_partial",
    "Vox.Eval.C58_min_violated",
    "Vox.Eval.C58_rmse_exact",
    "Vox.Eval.C58_rmse_zero",
    "Vox.Eval.C58_rmse_underflow",
    "Vox.Eval.C58_error_layer",
    "Vox.Eval.C58_error_tsdf",
    "Vox.Eval.C58_error_esdf",
    "Vox.Eval.C58_symmetric",
    "Vox.Eval.C58_unobserved_counted",
    "Vox.Eval.C58_size_unchecked",
    "Vox.Eval.C58_side_unchecked"
   ],
   "note": "counts, maximum, RMSE, error layer and symmetry proved for all layers, modes and roundings; the claim on min_error is false (C58_min_violated), RMSE zero with nonzero error needs underflow (C58_rmse_underflow)"
  },
  {
   "property": "C59",
   "status": "partial",
   "theorems": [
    "Vox.Slice.C59_outcome",
    "Vox.Slice.C59_esdf_partial",
    "Vox.Slice.C59_tsdf_partial",
    "Vox.Slice.C59_only_below_face",
    "Vox.Slice.C59_skip_violated",
    "Vox.Slice.C59_no_data_violated",
    "Vox.Slice.C59_max_zero",
    "Vox.Slice.C59_weights_overrun",
    "Vox.Slice.C59_bad_axis"
   ],
   "note": "The full claim is violated twice (C59_skip_violated, C59_no_data_violated). Proved for every map, axis and plane: exactly which voxels are returned, each once, with centre, distance and weight, and how the query ends at the maximum or with arrays that are too short."
  },
  {
   "property": "C60",
   "status": "partial",
   "theorems": [
    "Vox.C60.C60_sphere_distance",
    "Vox.C60.C60_cube_distance",
    "Vox.C60.C60_plane_distance",
    "Vox.C60.C60_cylinder_distance_partial",
    "Vox.C60.C60_cylinder_cap",
    "Vox.C60.C60_cylinder_edge",
    "Vox.C60.C60_cylinder_inside",
    "Vox.C60.C60_sphere_ray",
    "Vox.C60.C60_sphere_inside",
    "Vox.C60.C60_cube_ray_partial",
    "Vox.C60.C60_cube_nan",
    "Vox.C60.C60_cube_false_hit",
    "Vox.C60.C60_plane_ray",
    "Vox.C60.C60_plane_parallel",
    "Vox.C60.C60_cylinder_ray_partial",
    "Vox.C60.C60_cylinder_vertical",
    "Vox.C60.C60_cylinder_steep",
    "Vox.C60.C60_world_distance",
    "Vox.C60.C60_room"
   ],
   "note": "Sphere and plane: signed Euclidean distance and first hits proved. Cube: sign always, distance except in a shell of kEpsilon outside the surface (bounded there), first hits unless the ray runs in the plane of a face, where a NaN hit and a hit off the cube are shown. Cylinder: sign, the regions with exact distance, never too small outside; wrong at caps, rims and near caps inside (witnesses). Vertical rays miss it, steep rays can hit at their origin (witness). World distance is the least one. Exact arithmetic."
  },
  {
   "property": "C61",
   "status": "partial",
   "theorems": [
    "Vox.C61.C61_view_partial",
    "Vox.C61.C61_focal_length_partial",
    "Vox.C61.C61_near_zero",
    "Vox.C61.C61_violated",
    "Vox.C61.C61_aabb",
    "Vox.C61.C61_no_pose",
    "Vox.C61.C61_body_pose",
    "Vox.C61.C61_body_view_partial",
    "Vox.C61.C61_lines",
    "Vox.C61.C61_far_points"
   ],
   "note": "holds exactly for a positive near distance (C61_view_partial, focal-length and body-pose variants); near distance zero is the counterexample C61_violated with the exact behaviour in C61_near_zero; the box is tight (C61_aabb); exact arithmetic"
  },
  {
   "property": "C62",
   "status": "partial",
   "theorems": [
    "Vox.LayerMsg.C62_transmits_tsdf",
    "Vox.LayerMsg.C62_transmits_occ",
    "Vox.LayerMsg.C62_transmits_esdf_partial",
    "Vox.LayerMsg.C62_update",
    "Vox.LayerMsg.C62_reset",
    "Vox.LayerMsg.C62_reset_full",
    "Vox.LayerMsg.C62_merge_partial",
    "Vox.LayerMsg.C62_merge_dropped",
    "Vox.LayerMsg.C62_rejects",
    "Vox.LayerMsg.C62_decodes",
    "Vox.LayerMsg.C62_corrupt",
    "Vox.LayerMsg.C62_duplicates",
    "Vox.LayerMsg.C62_nan_accepted"
   ],
   "note": "Update, reset and refusal are proved for TSDF, occupancy and (with surviving parents) ESDF layers; arbitrary messages end normally or abort. The merge part is false in the code (C62_merge_dropped): existing blocks stay unchanged. NaN voxel sizes are accepted (C62_nan_accepted)."
  },
  {
   "property": "C63",
   "status": "partial",
   "theorems": [
    "Vox.LayerUtils.C63_near",
    "Vox.LayerUtils.C63_iff",
    "Vox.LayerUtils.C63_tsdf_partial",
    "Vox.LayerUtils.C63_occ_partial",
    "Vox.LayerUtils.C63_esdf_partial",
    "Vox.LayerUtils.C63_detects",
    "Vox.LayerUtils.C63_symmetric",
    "Vox.LayerUtils.C63_voxel_symmetric",
    "Vox.LayerUtils.C63_reflexive_tsdf_partial",
    "Vox.LayerUtils.C63_reflexive_esdf_partial",
    "Vox.LayerUtils.C63_reflexive_occ_partial",
    "Vox.LayerUtils.C63_hallucinated",
    "Vox.LayerUtils.C63_not_reflexive",
    "Vox.LayerUtils.C63_not_transitive",
    "Vox.LayerUtils.C63_other_side",
    "Vox.LayerUtils.C63_other_type",
    "Vox.LayerUtils.C63_memory"
   ],
   "note": "Exact characterisation of isSameLayer for layers of one side (C63_iff, C63_tsdf/esdf/occ_partial), symmetry, reflexivity iff all floats finite. The full claim fails: hallucinated flag not compared (C63_hallucinated), NaN (C63_not_reflexive), tolerance not transitive (C63_not_transitive), different sides read out of bounds (C63_other_side)."
  },
  {
   "property": "C64",
   "status": "partial",
   "theorems": [
    "Vox.LayerUtils.C64_moves",
    "Vox.LayerUtils.C64_centers_partial",
    "Vox.LayerUtils.C64_not_centered",
    "Vox.LayerUtils.C64_empty"
   ],
   "note": "C64_moves: one common shift with all voxels and states, mean within 1.5 blocks; C64_centers_partial: within half a block if the mean index is at least -1/2. Violated for negative means (C64_not_centered) and the empty layer (C64_empty). Exact arithmetic."
  },
  {
   "property": "C65",
   "status": "partial",
   "theorems": [
    "Vox.Merge.C65_transform_partial",
    "Vox.Merge.C65_missed",
    "Vox.Merge.C65_identity_partial",
    "Vox.Merge.C65_naive_wrong_frame"
   ],
   "note": "Every resampled voxel and the set of visited blocks characterised; blocks one output block or more below the upper end of the image cube are covered; identity onto the same grid is lossless. The full claim is violated (witness), also for the fast variant, which reads the wrong position."
  },
  {
   "property": "C66",
   "status": "proved",
   "theorems": [
    "Vox.Props.C66_varint_roundtrip",
    "Vox.Props.C66_varint_truncated",
    "Vox.Props.C66_varint_injective",
    "Vox.Props.C66_block_message"
   ],
   "note": "All 32-bit values, all continuations."
  },
  {
   "property": "C67",
   "status": "partial",
   "theorems": [
    "Vox.Intensity.C67_center",
    "Vox.Intensity.C67_neighbour_partial",
    "Vox.Intensity.C67_hit_partial",
    "Vox.Intensity.C67_other_block",
    "Vox.Intensity.C67_violated",
    "Vox.Intensity.C67_sizes",
    "Vox.Intensity.C67_miss",
    "Vox.Intensity.C67_bounds"
   ],
   "note": "Violated across block borders (C67_violated, C67_other_block for every such neighbour). Proved: the voxel at the hit for every position, all neighbours in the same block, the complete effect if all lie in one block, and bounds of weights and intensities over any run."
  },
  {
   "property": "C68",
   "status": "proved",
   "theorems": [
    "Vox.RaySearch.C68_result",
    "Vox.RaySearch.C68_terminates",
    "Vox.RaySearch.C68_terminates_exact",
    "Vox.RaySearch.C68_terminates_rounded",
    "Vox.RaySearch.C68_on_ray",
    "Vox.RaySearch.C68_covered",
    "Vox.RaySearch.C68_accurate",
    "Vox.RaySearch.C68_beyond_max",
    "Vox.RaySearch.C68_starts_inside",
    "Vox.RaySearch.C68_outside_map",
    "Vox.RaySearch.C68_stuck"
   ],
   "note": "Result and coverage for any rounding; termination for any rounding that moves forward, in particular relative error u with max distance below about 1/(2u) voxels; accuracy in exact arithmetic. The limits are proved as witnesses."
  },
  {
   "property": "C69",
   "status": "partial",
   "theorems": [
    "Vox.ColorMap.C69_rainbow_defined",
    "Vox.ColorMap.C69_rainbow_hue",
    "Vox.ColorMap.C69_rainbow_continuous",
    "Vox.ColorMap.C69_gray_partial",
    "Vox.ColorMap.C69_gray_undefined",
    "Vox.ColorMap.C69_clamped_defined",
    "Vox.ColorMap.C69_grayscale_monotone",
    "Vox.ColorMap.C69_clamped_hues",
    "Vox.ColorMap.C69_ends_violated",
    "Vox.ColorMap.C69_equal_limits",
    "Vox.ColorMap.C69_ironbow",
    "Vox.ColorMap.C69_ironbow_brighter",
    "Vox.ColorMap.C69_ids_defined",
    "Vox.ColorMap.C69_irrational_hue",
    "Vox.ColorMap.C69_ids_unique",
    "Vox.ColorMap.C69_zero_items",
    "Vox.Props.C69_rainbow_double"
   ],
   "note": "Rainbow: defined, opaque and saturated for every input and every monotone rounding; hue formula, wrap and continuity in exact arithmetic; within about one count of the hue in double (C69_rainbow_double). Grey: nearest value on [0,1], undefined outside (counterexample). Clamped maps at the hue of the place between the limits, whose ends share one colour (C69_ends_violated); ironbow palette, identifier hues as well."
  },
  {
   "property": "C70",
   "status": "proved",
   "theorems": [
    "Vox.Esdf.C70_robot"
   ],
   "note": "Every ESDF state, robot position and map iteration order; spheres within the voxel index range."
  },
  {
   "property": "C71",
   "status": "partial",
   "theorems": [
    "Vox.C71.C71_tsdf_partial",
    "Vox.C71.C71_esdf_partial",
    "Vox.C71.C71_reached",
    "Vox.C71.C71_missed",
    "Vox.C71.C71_negative_truncation"
   ],
   "note": "Exact effect on TSDF and ESDF layers for every world, bounds and layer, for voxels in sampled blocks; blocks are sampled if half a block below the upper bound or the bounds are whole blocks apart. A voxel within bounds that is missed is shown. Exact arithmetic (accumulated rounding of the loop variable not modelled)."
  },
  {
   "property": "C72",
   "status": "partial",
   "theorems": [
    "Vox.C72.C72_cloud_partial",
    "Vox.C72.C72_field_of_view",
    "Vox.C72.C72_odd",
    "Vox.C72.C72_first",
    "Vox.C72.C72_nan_hides",
    "Vox.C72.C72_noisy_partial",
    "Vox.C72.C72_zero_noise",
    "Vox.C72.C72_roll_ignored",
    "Vox.C72.C72_noisy_direction"
   ],
   "note": "Cloud and noisy cloud characterised for every world (no NaN answers), even resolutions and rotations; rays within the field of view; first surface point of any object by C60; zero noise gives the plain view from a viewpoint. Counterexamples for odd sizes, NaN hits, the view direction of the noisy variant and roll. The rotation between two vectors is a parameter; noise is an arbitrary sequence."
  },
  {
   "property": "C73",
   "status": "partial",
   "theorems": [
    "Vox.Props.IndexFloat.C73_nearest",
    "Vox.Props.IndexFloat.C73_representable",
    "Vox.Props.IndexFloat.C73_sqrt",
    "Vox.Props.IndexFloat.C73_faithful",
    "Vox.Props.IndexFloat.C73_odd",
    "Vox.Props.IndexFloat.C73_esdf",
    "Vox.Props.IndexFloat.C73_point",
    "Vox.Props.IndexFloat.C73_center",
    "Vox.Props.IndexFloat.C73_center_violated",
    "Vox.Props.IndexFloat.C73_origin",
    "Vox.Props.IndexFloat.C73_floor_violated",
    "Vox.Props.IndexFloat.C73_lookup",
    "Vox.Props.IndexFloat.C73_stored_index"
   ],
   "note": "Every operation rounded as IEEE float/double (overflow beyond 2^128 and fused multiply-add not modelled). Violated far from the origin (C73_center_violated) and by the flooring lookup at cell borders (C73_floor_violated); also shows that float meets the rounding assumptions of C24, C27, C40, C42-C46, C62, C63."
  },
  {
   "property": "C74",
   "status": "partial",
   "theorems": [
    "Vox.Props.C74_accepted",
    "Vox.Props.C74_accepted_violated",
    "Vox.Props.C74_defined",
    "Vox.Props.C74_colors_violated",
    "Vox.Props.C74_content",
    "Vox.Props.C74_colors",
    "Vox.Props.C74_color_roundtrip",
    "Vox.Props.C74_normals",
    "Vox.Props.C74_normal_colors",
    "Vox.Props.C74_tiny_violated",
    "Vox.Props.C74_precision_violated",
    "Vox.Props.C74_sync",
    "Vox.Props.C74_send_keeps",
    "Vox.Props.C74_removed_violated",
    "Vox.Props.C74_late_violated",
    "Vox.Props.C74_malformed_violated",
    "Vox.ServerMesh.C74_marching_cubes"
   ],
   "note": "Acceptance (C74_accepted, and C74_marching_cubes for what the mesh integrator makes), definedness, content, exact colours, normals, normal colouring (C74_normal_colors, for block edges from 1/8 m to 2^20 m and indices up to 50) and synchrony are proved in IEEE arithmetic. Counterexamples: C74_accepted_violated, C74_colors_violated, C74_removed_violated, C74_late_violated, C74_malformed_violated, C74_precision_violated, C74_tiny_violated."
  },
  {
   "property": "C75",
   "status": "partial",
   "theorems": [
    "Vox.PtCloud.C75_color",
    "Vox.PtCloud.C75_near_surface",
    "Vox.PtCloud.C75_distance",
    "Vox.PtCloud.C75_distance_near",
    "Vox.PtCloud.C75_occupied_tsdf",
    "Vox.PtCloud.C75_esdf",
    "Vox.PtCloud.C75_free_esdf",
    "Vox.PtCloud.C75_intensity",
    "Vox.PtCloud.C75_occupied",
    "Vox.PtCloud.C75_distance_within_color",
    "Vox.PtCloud.C75_same_voxels_violated",
    "Vox.PtCloud.C75_unobserved_occupied",
    "Vox.PtCloud.C75_slice_tsdf_partial",
    "Vox.PtCloud.C75_slice_esdf_partial",
    "Vox.PtCloud.C75_slice_upper_tsdf",
    "Vox.PtCloud.C75_slice_upper_esdf",
    "Vox.PtCloud.C75_slice_centre_tsdf",
    "Vox.PtCloud.C75_slice_violated"
   ],
   "note": "Every cloud and marker is characterised exactly for all layers (C75_color, C75_near_surface, C75_distance, ...). The slice claim holds for planes in the lower half of a voxel (_partial) and is refuted otherwise (C75_slice_violated); what is shown instead is proved for the upper half and the centre."
  },
  {
   "property": "C76",
   "status": "partial",
   "theorems": [
    "Vox.PtCloud.C76_tsdf_shown",
    "Vox.PtCloud.C76_esdf_shown",
    "Vox.PtCloud.C76_tsdf_cloud",
    "Vox.PtCloud.C76_esdf_cloud",
    "Vox.PtCloud.C76_monotone",
    "Vox.PtCloud.C76_above_range",
    "Vox.PtCloud.C76_below_range",
    "Vox.PtCloud.C76_nan_aborts",
    "Vox.PtCloud.C76_zero_maximum_violated",
    "Vox.PtCloud.C76_flag_violated"
   ],
   "note": "Exact set, order of points before, definedness, monotone colours and end colours proved for all layers and ranges; NaN abort, zero maximum and the flag are proved violations."
  },
  {
   "property": "C77",
   "status": "partial",
   "theorems": [
    "Vox.Ply.C77_roundtrip",
    "Vox.Ply.C77_layer",
    "Vox.Ply.C77_connected",
    "Vox.Ply.C77_incomplete",
    "Vox.Ply.C77_short_normals",
    "Vox.Ply.C77_short_colors",
    "Vox.Ply.C77_exact_violated",
    "Vox.Ply.C77_full_disk_violated",
    "Vox.Ply.C77_large_index_violated"
   ],
   "note": "Round trip proved for every mesh with matching lists; exactness of positions, full disks, incomplete triangles, short lists and large indices are refuted."
  },
  {
   "property": "C78",
   "status": "partial",
   "theorems": [
    "Vox.Ply.C78_roundtrip",
    "Vox.Ply.C78_count_partial",
    "Vox.Ply.C78_count_violated",
    "Vox.Ply.C78_refused",
    "Vox.Ply.C78_kind",
    "Vox.Ply.C78_header_once",
    "Vox.Ply.C78_closed_violated",
    "Vox.Ply.C78_empty_violated"
   ],
   "note": "Round trip proved; the limit on the number of vertices, calls after closing and the empty file are refuted."
  },
  {
   "property": "C79",
   "status": "partial",
   "theorems": [
    "Vox.Timing.C79_statistics",
    "Vox.Timing.C79_max_violated",
    "Vox.Timing.C79_handles",
    "Vox.Timing.C79_fresh",
    "Vox.Timing.C79_recorded",
    "Vox.Timing.C79_query_creates",
    "Vox.Timing.C79_hz_unused_violated",
    "Vox.Timing.C79_hz",
    "Vox.Timing.C79_scope",
    "Vox.Timing.C79_stopped",
    "Vox.Timing.C79_stop_violated",
    "Vox.Timing.C79_hz_violated",
    "Vox.Timing.C79_unknown_handle",
    "Vox.Timing.C79_total_double",
    "Vox.Timing.C79_rolling_double",
    "Vox.Timing.C79_hz_double",
    "Vox.Timing.C79_seconds_double"
   ],
   "note": "Statistics proved without rounding and, with explicit error bounds, in double precision; registry and timers for all histories. The maximum (all samples zero), unbalanced stops and the frequency after a very long sample are refuted."
  },
  {
   "property": "C80",
   "status": "partial",
   "theorems": [
    "Vox.Props.C80_found",
    "Vox.Props.C80_fails_iff",
    "Vox.Props.C80_neighbours",
    "Vox.Props.C80_ratio",
    "Vox.Props.C80_forgetting",
    "Vox.Props.C80_failed",
    "Vox.Props.C80_closest_violated",
    "Vox.Props.C80_backwards_violated",
    "Vox.Props.C80_order_violated",
    "Vox.Props.C80_zero_tolerance_violated"
   ],
   "note": "Proved as stated for the queue lookup, with exact integer stamps; the exponential map of the interpolation is a parameter, the TF branch is external code. The closest-transform, any-order and any-time readings are violated by the code and their negations proved (C80_*_violated)."
  },
  {
   "property": "C81",
   "status": "partial",
   "theorems": [
    "Vox.Props.C81_order",
    "Vox.Props.C81_spacing",
    "Vox.Props.C81_insert",
    "Vox.Props.C81_kept",
    "Vox.Props.C81_prompt",
    "Vox.Props.C81_poses",
    "Vox.Props.C81_blocked_violated",
    "Vox.Props.C81_unstamped_violated",
    "Vox.Props.C81_restart_violated",
    "Vox.Props.C81_freespace_violated"
   ],
   "note": "Proved for every event sequence of one kind of clouds with the queue lookup; that every cloud with a pose is integrated is violated by the code (C81_*_violated)."
  },
  {
   "property": "C82",
   "status": "partial",
   "theorems": [
    "Vox.MapServer.C82_mirror",
    "Vox.MapServer.C82_removed_violated",
    "Vox.MapServer.C82_replaced_violated",
    "Vox.MapServer.C82_relay_violated",
    "Vox.MapServer.C82_resend_violated",
    "Vox.MapServer.C82_esdf_silent_violated",
    "Vox.MapServer.C82_esdf_clear_violated",
    "Vox.MapServer.C82_clear"
   ],
   "note": "Synchrony proved for every orderly history with flagged changes; removal of blocks, replaced subscribers, relays, redundant sending and the ESDF server's TSDF map are refuted."
  },
  {
   "property": "C83",
   "status": "partial",
   "theorems": [
    "Vox.CloudMsg.C83_received",
    "Vox.CloudMsg.C83_sizes",
    "Vox.CloudMsg.C83_defined_partial",
    "Vox.CloudMsg.C83_zero_max_violated",
    "Vox.CloudMsg.C83_intensity_range",
    "Vox.CloudMsg.C83_rgba_violated",
    "Vox.CloudMsg.C83_resent",
    "Vox.CloudMsg.C83_short_violated",
    "Vox.CloudMsg.C83_resent_intensity"
   ],
   "note": "Violated: C83_zero_max_violated, C83_rgba_violated, C83_short_violated. Proved for all clouds with a maximal intensity other than zero."
  },
  {
   "property": "C84",
   "status": "partial",
   "theorems": [
    "Vox.IntensityVis.C84_recolored",
    "Vox.IntensityVis.C84_defined",
    "Vox.IntensityVis.C84_violated",
    "Vox.IntensityVis.C84_far_violated",
    "Vox.IntensityVis.C84_index_violated",
    "Vox.IntensityVis.C84_negative_violated"
   ],
   "note": "Violated: C84_violated, C84_far_violated, C84_index_violated, C84_negative_violated; C84_recolored states what the code does, C84_defined that it ends normally."
  },
  {
   "property": "C85",
   "status": "partial",
   "theorems": [
    "Vox.IntensityVis.C85_samples",
    "Vox.IntensityVis.C85_zero_violated",
    "Vox.IntensityVis.C85_negative_violated",
    "Vox.IntensityVis.C85_encoding_violated",
    "Vox.IntensityVis.C85_centre_violated"
   ],
   "note": "Violated: C85_zero_violated, C85_negative_violated, C85_encoding_violated, C85_centre_violated. Proved for positive factors and float images (C85_samples)."
  },
  {
   "property": "C86",
   "status": "partial",
   "theorems": [
    "Vox.MapQuery.C86_nearest",
    "Vox.MapQuery.C86_interpolated",
    "Vox.MapQuery.C86_consistent",
    "Vox.MapQuery.C86_gradient",
    "Vox.MapQuery.C86_failure_violated",
    "Vox.MapQuery.C86_rounded",
    "Vox.MapQuery.C86_rounded_violated",
    "Vox.MapQuery.C86_weight",
    "Vox.MapQuery.C86_batch_distance",
    "Vox.MapQuery.C86_batch_gradient",
    "Vox.MapQuery.C86_batch_observed"
   ],
   "note": "Violated: C86_failure_violated (outputs overwritten on failure of the query with gradient), C86_rounded_violated (positions rounded to float). The rest is proved for all maps and positions."
  },
  {
   "property": "C87",
   "status": "proved",
   "theorems": [
    "Vox.Icp.C87_batches",
    "Vox.Icp.C87_terminates",
    "Vox.Icp.C87_empty_batches_hang",
    "Vox.Icp.C87_enough_matches",
    "Vox.Icp.C87_pose_unchanged",
    "Vox.Icp.C87_updates_le",
    "Vox.Icp.C87_pose_kept",
    "Vox.Icp.C87_single_thread"
   ],
   "note": "model of the threads with atomic batches; shuffling and floating point are outside"
  },
  {
   "property": "C88",
   "status": "partial",
   "theorems": [
    "Vox.Icp.C88_nearest_on_plane_partial",
    "Vox.Icp.C88_matched_iff",
    "Vox.Icp.C88_unknown",
    "Vox.Icp.C88_flat",
    "Vox.Icp.C88_border_violated",
    "Vox.Icp.C88_sources",
    "Vox.Icp.C88_information",
    "Vox.Icp.C88_rotation_information_partial",
    "Vox.Icp.C88_rotation_information_violated"
   ],
   "note": "planes clear of the block-border slivers; sliver and rotational information violations proved"
  },
  {
   "property": "C89",
   "status": "proved",
   "theorems": [
    "Vox.Icp.C89_least_squares",
    "Vox.Icp.C89_least_squares_yaw",
    "Vox.Icp.C89_recovers_motion",
    "Vox.Icp.C89_sizes_checked"
   ],
   "note": "exact arithmetic, decomposition as a parameter"
  },
  {
   "property": "C90",
   "status": "partial",
   "theorems": [
    "Vox.Icp.C90_weights",
    "Vox.Icp.C90_rigid",
    "Vox.Icp.C90_aligned",
    "Vox.Icp.C90_full",
    "Vox.Icp.C90_never_overshoots",
    "Vox.Icp.C90_yaw_only_partial",
    "Vox.Icp.C90_yaw_only_violated",
    "Vox.Icp.C90_axes_partial",
    "Vox.Icp.C90_axes_violated",
    "Vox.Icp.C90_correction",
    "Vox.Icp.C90_correction_level",
    "Vox.Icp.C90_correction_violated"
   ],
   "note": "yaw-only and axes statements proved in part, violations proved"
  },
  {
   "property": "C91",
   "status": "proved",
   "theorems": [
    "Vox.Esdf.C91_batch",
    "Vox.Esdf.C91_exact",
    "Vox.Esdf.C91_parents",
    "Vox.Esdf.C91_smooth",
    "Vox.Esdf.C91_jump_violated"
   ],
   "note": "the condition on the TSDF is needed: C91_jump_violated"
  },
  {
   "property": "C92",
   "status": "partial",
   "theorems": [
    "Vox.Esdf.C92_unchanged_partial",
    "Vox.Esdf.C92_raise_violated",
    "Vox.Esdf.C92_step_violated",
    "Vox.Esdf.C92_first_neighbor_violated",
    "Vox.Esdf.C92_parent_direction",
    "Vox.Esdf.C92_parent_modes"
   ],
   "note": "proved for an unchanged TSDF, with the rounded direction of a parent; violated when a voxel leaves the fixed band (raise), and when the TSDF only grows: the step from a neighbour is not scaled by the voxel size, and the first neighbour is taken instead of the nearest"
  },
  {
   "property": "C93",
   "status": "partial",
   "theorems": [
    "Vox.TsdfScan.C93_scan_adds",
    "Vox.TsdfScan.C93_mismatch_refused",
    "Vox.TsdfScan.C93_bounds",
    "Vox.TsdfScan.C93_never_fails",
    "Vox.TsdfScan.C93_terminates",
    "Vox.TsdfScan.C93_measured_voxel_observed_partial"
   ],
   "note": "all parts proved under every schedule; that measured voxels become observed is proved for rays parallel to no coordinate plane (with such rays the ray caster does not reach their end, C33)"
  },
  {
   "property": "C94",
   "status": "partial",
   "theorems": [
    "Vox.TsdfScan.C94_schedule_independent_partial",
    "Vox.TsdfScan.C94_schedule_violated"
   ],
   "note": "violated: C94_schedule_violated; holds for voxels observed within the truncation distance, in exact arithmetic"
  },
  {
   "property": "C95",
   "status": "proved",
   "theorems": [
    "Vox.TsdfScan.C95_bundles_added",
    "Vox.TsdfScan.C95_anti_grazing",
    "Vox.TsdfScan.C95_bounds",
    "Vox.TsdfScan.C95_never_fails",
    "Vox.TsdfScan.C95_weightless_point_violated"
   ],
   "note": "except for bundles without weight: C95_weightless_point_violated"
  },
  {
   "property": "C96",
   "status": "proved",
   "theorems": [
    "Vox.TsdfScan.C96_fast_adds",
    "Vox.TsdfScan.C96_cast_ray_prefix",
    "Vox.TsdfScan.C96_reset_forgets",
    "Vox.TsdfScan.C96_starts_covered",
    "Vox.TsdfScan.C96_origin_point_lost_violated",
    "Vox.TsdfScan.C96_bounds",
    "Vox.TsdfScan.C96_never_fails",
    "Vox.TsdfScan.C96_terminates",
    "Vox.TsdfScan.C96_resets_every_n",
    "Vox.TsdfScan.C96_shared_counter_violated"
   ],
   "note": "the stated exceptions are violations of the code: C96_origin_point_lost_violated, C96_shared_counter_violated"
  },
  {
   "property": "C97",
   "status": "proved",
   "theorems": [
    "Vox.TsdfScan.C97_factory",
    "Vox.TsdfScan.C97_corrected"
   ],
   "note": ""
  },
  {
   "property": "C98",
   "status": "partial",
   "theorems": [
    "Vox.TsdfScan.C98_simple_visits_partial",
    "Vox.TsdfScan.C98_rejected",
    "Vox.TsdfScan.C98_fast_visits_partial",
    "Vox.TsdfScan.C98_bundle_visits_partial",
    "Vox.TsdfScan.C98_clearing_bundle_visits_partial"
   ],
   "note": "in exact arithmetic, for rays without zero component whose ends do not lie on voxel boundaries; false otherwise (C33_axis_parallel_violated)"
  },
  {
   "property": "C99",
   "status": "partial",
   "theorems": [
    "Vox.EvalCloud.C99_statistics",
    "Vox.EvalCloud.C99_none_known",
    "Vox.EvalCloud.C99_order",
    "Vox.EvalCloud.C99_bounded",
    "Vox.EvalCloud.C99_band_violated",
    "Vox.EvalCloud.C99_recolor_partial",
    "Vox.EvalCloud.C99_recolor_undefined"
   ],
   "note": "statistics, order and bound proved in exact arithmetic; violated: C99_recolor_undefined (so C99_recolor_partial has a bound on the distances), C99_band_violated"
  },
  {
   "property": "C100",
   "status": "partial",
   "theorems": [
    "Vox.Export.C100_mesh",
    "Vox.Export.C100_isosurface",
    "Vox.Export.C100_no_surface",
    "Vox.Export.C100_connected_mesh",
    "Vox.Export.C100_connected",
    "Vox.Export.C100_cloud",
    "Vox.Export.C100_abort",
    "Vox.Export.C100_polygons",
    "Vox.Export.C100_connected_polygons",
    "Vox.Export.C100_reused_violated"
   ],
   "note": "Files, connected files, clouds and polygon meshes are proved for fresh meshes and any traversal order; violated for a mesh that is not empty before (C100_reused_violated)."
  },
  {
   "property": "C101",
   "status": "partial",
   "theorems": [
    "Vox.ServerIO.C101_no_file",
    "Vox.ServerIO.C101_tsdf_server",
    "Vox.ServerIO.C101_esdf_server_partial",
    "Vox.ServerIO.C101_default_side_partial",
    "Vox.ServerIO.C101_tsdf_reads_esdf_file",
    "Vox.ServerIO.C101_esdf_reads_tsdf_file",
    "Vox.ServerIO.C101_small_file_violated",
    "Vox.ServerIO.C101_last_block_violated",
    "Vox.ServerIO.C101_other_configuration",
    "Vox.ServerIO.C101_truncated",
    "Vox.ServerIO.C101_partly_loaded_violated",
    "Vox.ServerIO.C101_new_server_violated"
   ],
   "note": "Round trips, mixed servers, other configurations, cuts and missing files proved in full; the ESDF round trip needs at least 8191 bytes of ESDF data (one default block), and fails otherwise with the TSDF map already replaced (proved)."
  },
  {
   "property": "C102",
   "status": "partial",
   "theorems": [
    "Vox.Setup.C102_same_base",
    "Vox.Setup.C102_starts",
    "Vox.Setup.C102_refused",
    "Vox.Setup.C102_zero_violated",
    "Vox.Setup.C102_geometry",
    "Vox.Setup.C102_documented",
    "Vox.Setup.C102_declared",
    "Vox.Setup.C102_only_these",
    "Vox.Setup.C102_ignored_violated",
    "Vox.Setup.C102_defaults_violated",
    "Vox.Setup.C102_method",
    "Vox.Setup.C102_colors",
    "Vox.Setup.C102_timers",
    "Vox.Setup.C102_derived",
    "Vox.Setup.C102_truncation",
    "Vox.Setup.C102_esdf_default",
    "Vox.Setup.C102_esdf_range_violated",
    "Vox.Setup.C102_topics"
   ],
   "note": "Start, geometry, the documented defaults, choices, timers, derived values and topics are proved for every parameter server. Violated for a side of zero, for ignored documented parameters and a missing service, for two documented defaults and for large voxels (C102_zero_violated, C102_ignored_violated, C102_defaults_violated, C102_esdf_range_violated)."
  },
  {
   "property": "C103",
   "status": "partial",
   "theorems": [
    "Vox.ServerMesh.C103_determined",
    "Vox.ServerMesh.C103_generate",
    "Vox.ServerMesh.C103_file",
    "Vox.ServerMesh.C103_no_ghosts",
    "Vox.ServerMesh.C103_prune",
    "Vox.ServerMesh.C103_update_partial",
    "Vox.ServerMesh.C103_received_not_meshed",
    "Vox.ServerMesh.C103_reset_keeps_meshes",
    "Vox.ServerMesh.C103_words",
    "Vox.ServerMesh.C103_stale_violated",
    "Vox.ServerMesh.C103_received_violated",
    "Vox.ServerMesh.C103_reset_violated",
    "Vox.ServerMesh.C103_simple_marked",
    "Vox.ServerMesh.C103_merged_marked",
    "Vox.ServerMesh.C103_fast_marked",
    "Vox.ServerMesh.C103_never_fails_partial",
    "Vox.ServerMesh.C103_file_never_fails_partial",
    "Vox.ServerMesh.C103_small_blocks_violated"
   ],
   "note": "The mesh service is proved in full (C103_generate, C103_file, C103_no_ghosts) for runs without reset messages; these violate it (C103_reset_violated, general form C103_reset_keeps_meshes). That it and the timer succeed after every run is proved for blocks of at least four voxels per side near the origin (C103_never_fails_partial, C103_file_never_fails_partial) and violated for smaller blocks (C103_small_blocks_violated). For the mesh timer the full statement is violated (C103_stale_violated, C103_received_violated, C53); C103_update_partial says what holds: each mesh was made from the present voxels of its block in some earlier map. What integrations and loads do to the map is a parameter (MarkedChange); the scans of the three integrators are such changes (C103_simple_marked, C103_merged_marked, C103_fast_marked), loads are by C101 (they set all flags). Coordinates are exact."
  },
  {
   "property": "C104",
   "status": "partial",
   "theorems": [
    "Vox.Props.C104_marker",
    "Vox.Props.C104_balanced",
    "Vox.Props.C104_triangles",
    "Vox.Props.C104_cloud",
    "Vox.Props.C104_refused",
    "Vox.Props.C104_colors_violated",
    "Vox.Props.C104_reused_violated",
    "Vox.Props.C104_shared_violated",
    "Vox.Props.C104_height_partial",
    "Vox.Props.C104_height_distinct",
    "Vox.Props.C104_height_violated"
   ],
   "note": "proved for meshes that have the attributes the colour mode reads (C104_marker, C104_balanced, C104_triangles, C104_cloud), including the height colours (C104_height_partial, C104_height_distinct); violated for incomplete attributes, reused markers, shared vertices and for heights outside the range, which share one colour."
  },
  {
   "property": "C105",
   "status": "partial",
   "theorems": [
    "Vox.EsdfServer.C105_handled_partial",
    "Vox.EsdfServer.C105_safe_partial",
    "Vox.EsdfServer.C105_pruned",
    "Vox.EsdfServer.C105_no_ghosts",
    "Vox.EsdfServer.C105_generate",
    "Vox.EsdfServer.C105_update",
    "Vox.EsdfServer.C105_clear",
    "Vox.EsdfServer.C105_batch",
    "Vox.EsdfServer.C105_sequence",
    "Vox.EsdfServer.C105_prune_violated",
    "Vox.EsdfServer.C105_message_violated",
    "Vox.EsdfServer.C105_generate_violated",
    "Vox.EsdfServer.C105_stale_violated",
    "Vox.EsdfServer.C105_max_distance"
   ],
   "note": "Safety holds for histories in which no block around a waiting robot position is removed (always the case without free-space clearing); the violations are proved with concrete event sequences. Messages are given by the layers they result in; threads are not modelled."
  },
  {
   "property": "C106",
   "status": "partial",
   "theorems": [
    "Vox.SimServer.C106_attempts",
    "Vox.SimServer.C106_viewpoint_partial",
    "Vox.SimServer.C106_direction",
    "Vox.SimServer.C106_box",
    "Vox.SimServer.C106_in_bounds_partial",
    "Vox.SimServer.C106_outside_violated",
    "Vox.SimServer.C106_coverage_violated",
    "Vox.SimServer.C106_cylinder_violated",
    "Vox.SimServer.C106_views",
    "Vox.SimServer.C106_count",
    "Vox.SimServer.C106_occupancy_ignored",
    "Vox.SimServer.C106_safe_partial",
    "Vox.SimServer.C106_batch_violated"
   ],
   "note": "viewpoints, views and ESDF operations of a simulation; violated for the viewpoint box, cylinders, batch mode with robot positions and the occupancy ESDF"
  },
  {
   "property": "C107",
   "status": "partial",
   "theorems": [
    "Vox.ServerIcp.C107_rigid",
    "Vox.ServerIcp.C107_frames_partial",
    "Vox.ServerIcp.C107_odometry_partial",
    "Vox.ServerIcp.C107_history",
    "Vox.ServerIcp.C107_off",
    "Vox.ServerIcp.C107_unmatched",
    "Vox.ServerIcp.C107_prune_partial",
    "Vox.ServerIcp.C107_prune_violated"
   ],
   "note": "Partial where the code deviates: the frames of a tilted sensor whose yaw alone is refined do not compose (C90_correction_violated), and distant blocks are removed around the looked-up pose instead of the refined one (C107_prune_violated)."
  },
  {
   "property": "C108",
   "status": "partial",
   "theorems": [
    "Vox.EvalPoses.C108_each",
    "Vox.EvalPoses.C108_incompatible",
    "Vox.EvalPoses.C108_optional",
    "Vox.EvalPoses.C108_self",
    "Vox.EvalPoses.C108_none",
    "Vox.EvalPoses.C108_reused_violated"
   ],
   "note": "All parts hold for every input except the correspondence of details and layers, which fails for vectors that have been used before (C108_reused_violated)."
  },
  {
   "property": "C109",
   "status": "partial",
   "theorems": [
    "Vox.RayIndex.C109_sorted_partial",
    "Vox.RayIndex.C109_ray_partial",
    "Vox.RayIndex.C109_other_sides",
    "Vox.RayIndex.C109_parallel_violated",
    "Vox.RayIndex.C109_far_violated",
    "Vox.RayIndex.C109_point"
   ],
   "note": "Sorting without loss for indices up to 2^24 under any rounding; the voxels of the ray in exact arithmetic for rays not parallel to a coordinate plane. False otherwise (C109_far_violated, C109_parallel_violated)."
  },
  {
   "property": "C110",
   "status": "proved",
   "theorems": [
    "Vox.RoundErr.C110_distance",
    "Vox.RoundErr.C110_fusion",
    "Vox.RoundErr.C110_order",
    "Vox.RoundErr.C110_order_matters",
    "Vox.RoundErr.C110_end_to_end",
    "Vox.RoundErr.C110_absorbed"
   ],
   "note": "Error bounds for computeDistance and updateTsdfVoxel in IEEE single precision against the exact distance, end to end; preconditions on ranges stated in the theorems."
  },
  {
   "property": "C111",
   "status": "partial",
   "theorems": [
    "Vox.MeshLayer.C111_invariant",
    "Vox.MeshLayer.C111_get",
    "Vox.MeshLayer.C111_allocate",
    "Vox.MeshLayer.C111_size",
    "Vox.MeshLayer.C111_new_partial",
    "Vox.MeshLayer.C111_new_violated",
    "Vox.MeshLayer.C111_write",
    "Vox.MeshLayer.C111_remove",
    "Vox.MeshLayer.C111_distant",
    "Vox.MeshLayer.C111_lists",
    "Vox.MeshLayer.C111_stays",
    "Vox.MeshLayer.C111_detached",
    "Vox.MeshLayer.C111_coordinates",
    "Vox.MeshLayer.C111_values",
    "Vox.MeshLayer.C111_memory_partial",
    "Vox.MeshLayer.C111_memory_violated"
   ],
   "note": "Proved for every history of operations except: allocateNewBlock on an index that has a mesh (C111_new_violated), memory size of meshes without colours (C111_memory_violated)."
  },
  {
   "property": "C112",
   "status": "partial",
   "theorems": [
    "Vox.InterpF.C112_value",
    "Vox.InterpF.C112_defined_partial",
    "Vox.InterpF.C112_bounded_partial",
    "Vox.InterpF.C112_constant",
    "Vox.InterpF.C112_between_violated",
    "Vox.InterpF.C112_check_violated"
   ],
   "note": "Proved within 2^18 voxels of the origin, for block sides that are powers of two up to 1024 and voxel sizes from Size up to 2^80, every order of summation. Violated: results outside the values of the cell by rounding of the offset (C112_between_violated; C112_bounded_partial bounds the excess), CHECK failure far away (C112_check_violated). Fused multiply-add not modelled."
  },
  {
   "property": "C113",
   "status": "proved",
   "theorems": [
    "Vox.Ray.C113_traversal",
    "Vox.Ray.C113_interior_visited",
    "Vox.Ray.C113_end_voxel_violated",
    "Vox.Ray.C113_coverage"
   ],
   "note": "IEEE single precision; end points given in voxels, as the setup receives them after scaling. C113_end_voxel_violated shows that the tolerance is needed."
  },
  {
   "property": "C114",
   "status": "partial",
   "theorems": [
    "Vox.RayEnds.C114_measured_voxel_visited",
    "Vox.RayEnds.C114_measured_voxel_observed",
    "Vox.RayEnds.C114_plane_violated"
   ],
   "note": "Proved for rays with no direction component smaller than a few tolerances and points farther than the tolerance from voxel faces; for rays in a plane x = const the claim fails (C114_plane_violated)."
  },
  {
   "property": "C115",
   "status": "partial",
   "theorems": [
    "Vox.ServerClouds.C115_faithful",
    "Vox.ServerClouds.C115_each_once_partial",
    "Vox.ServerClouds.C115_slices_twice",
    "Vox.ServerClouds.C115_occupancy_marker",
    "Vox.ServerClouds.C115_crossing_shown",
    "Vox.ServerClouds.C115_crossing_violated",
    "Vox.ServerClouds.C115_surface_occupied",
    "Vox.ServerClouds.C115_surface_occupied_violated",
    "Vox.ServerClouds.C115_current_partial",
    "Vox.ServerClouds.C115_timer_current",
    "Vox.ServerClouds.C115_clear_violated",
    "Vox.ServerClouds.C115_esdf_timer_violated",
    "Vox.ServerClouds.C115_height_violated"
   ],
   "note": "Proved except: slices of an ESDF server are published twice; clearing and the ESDF timer leave outdated clouds; the surface cloud needs distances that differ by at most a voxel, the markers a weight above 0.001. Coordinates exact."
  },
  {
   "property": "C116",
   "status": "partial",
   "theorems": [
    "Vox.InterpF.C116_nearest",
    "Vox.InterpF.C116_agree",
    "Vox.InterpF.C116_output_partial",
    "Vox.InterpF.C116_output_violated",
    "Vox.InterpF.C116_unobserved_violated",
    "Vox.InterpF.C116_weight_tells",
    "Vox.InterpF.C116_esdf_weight"
   ],
   "note": "Agreement and the voxel read are proved in float arithmetic. The part about outputs and about getNearestDistanceAndWeight is false and refuted; C116_output_partial keeps the interpolating queries, C116_weight_tells what a caller can rely on."
  },
  {
   "property": "C117",
   "status": "partial",
   "theorems": [
    "Vox.InterpF.C117_voxel_partial",
    "Vox.InterpF.C117_colour_violated",
    "Vox.InterpF.C117_weight_violated",
    "Vox.InterpF.C117_undefined_violated"
   ],
   "note": "Proved up to 4000 voxels from the origin (together with the side of a block), for every order of addition, with one unit of slack below the darkest voxel. The full claim is false: three witnesses."
  },
  {
   "property": "C118",
   "status": "partial",
   "theorems": [
    "Vox.InterpF.C118_plane",
    "Vox.InterpF.C118_nearest_partial",
    "Vox.InterpF.C118_border_violated",
    "Vox.InterpF.C118_output_violated"
   ],
   "note": "The plane bound is proved in full. Nearest mode is proved away from voxel borders, at which the claim fails (C118_border_violated); a failing query overwrites its output (C118_output_violated)."
  },
  {
   "property": "C119",
   "status": "partial",
   "theorems": [
    "Vox.InterpF.C119_absent_partial",
    "Vox.InterpF.C119_plane_partial",
    "Vox.InterpF.C119_border_violated"
   ],
   "note": "proved at positions that are not within rounding distance of a voxel border; at borders the code violates the claim (C119_border_violated)"
  },
  {
   "property": "C120",
   "status": "partial",
   "theorems": [
    "Vox.RoundErr.C120_merge",
    "Vox.RoundErr.C120_sequence",
    "Vox.RoundErr.C120_order",
    "Vox.RoundErr.C120_esdf",
    "Vox.RoundErr.C120_limits_partial",
    "Vox.RoundErr.C120_limits_violated",
    "Vox.RoundErr.C120_exact_violated",
    "Vox.RoundErr.C120_underflow_violated"
   ],
   "note": "Error bounds for merging two voxels and sequences of voxels, order, and exact ranges for ESDF distances are proved. The limits of the integrators are broken by merging (C120_limits_violated); proved instead is that they are exceeded at most twofold."
  },
  {
   "property": "C121",
   "status": "partial",
   "theorems": [
    "Vox.Visualizer.C121_products_partial",
    "Vox.Visualizer.C121_default_threshold",
    "Vox.Visualizer.C121_type_violated",
    "Vox.Visualizer.C121_color_modes",
    "Vox.Visualizer.C121_mesh_file",
    "Vox.Visualizer.C121_saved",
    "Vox.Visualizer.C121_refused"
   ],
   "note": "Proved for the clouds, the mesh message, the coloured points, both files, saved maps and refusals, with positions in exact arithmetic. The polygon mesh is never sent: its topic gets a message of another type (C121_type_violated)."
  },
  {
   "property": "C122",
   "status": "partial",
   "theorems": [
    "Vox.Setup.C122_starts",
    "Vox.Setup.C122_refused",
    "Vox.Setup.C122_consistent",
    "Vox.Setup.C122_occupancy",
    "Vox.Setup.C122_parameters",
    "Vox.Setup.C122_side_partial",
    "Vox.Setup.C122_side_violated"
   ],
   "note": "Proved: when the server starts, the geometry and cut-offs of its maps, its parameters, the occupancy map; the side of a block for powers of two. Violated for other sides: they are used as given and the first voxel access aborts (C122_side_violated)."
  },
  {
   "property": "C123",
   "status": "partial",
   "theorems": [
    "Vox.IntensityServer.C123_starts",
    "Vox.IntensityServer.C123_parameters",
    "Vox.IntensityServer.C123_scale",
    "Vox.IntensityServer.C123_scale_violated",
    "Vox.IntensityServer.C123_equal_limits_violated",
    "Vox.IntensityServer.C123_update",
    "Vox.IntensityServer.C123_same_blocks",
    "Vox.IntensityServer.C123_images_not_shown",
    "Vox.IntensityServer.C123_images_violated",
    "Vox.IntensityServer.C123_generate_not_shown",
    "Vox.IntensityServer.C123_generate_violated",
    "Vox.IntensityServer.C123_intensities_kept"
   ],
   "note": "Construction, parameters, colour scale, agreement of the two mesh topics without the mesh service and what an update sends are proved for all runs. Refuted with instances: images after an update are not shown by the next one, meshes of the service never reach intensity_mesh, a maximum not above the minimum spoils the scale. Not modelled: limits that are not finite."
  },
  {
   "property": "C124",
   "status": "partial",
   "theorems": [
    "Vox.C124.C124_sphere",
    "Vox.C124.C124_cube",
    "Vox.C124.C124_plane",
    "Vox.C124.C124_normal_violated",
    "Vox.C124.C124_cylinder_partial",
    "Vox.C124.C124_cylinder_cap_partial",
    "Vox.C124.C124_world"
   ],
   "note": "Sphere, box, plane and world: bounds for all inputs up to 2^30 (planes: in terms of the deviation of the normal's length from 1). Cylinder: the region beside it and inside where the side is nearer, away from the planes of the caps, and above or below it within the radius; elsewhere the formula is wrong in exact arithmetic already (C60). The claim on accepted normals is refuted by C124_normal_violated."
  },
  {
   "property": "C125",
   "status": "partial",
   "theorems": [
    "Vox.C125.C125_value",
    "Vox.C125.C125_nearest",
    "Vox.C125.C125_layer",
    "Vox.C125.C125_block",
    "Vox.C125.C125_self_compatible_partial",
    "Vox.C125.C125_self_violated",
    "Vox.C125.C125_infinite_violated"
   ],
   "note": "Rounding, acceptance and the values of blocks are proved for all patterns; self-compatibility for voxel sizes below 2 m. Refuted with witnesses: compatibility for larger voxels and finiteness of the accepted voxel size."
  },
  {
   "property": "C126",
   "status": "partial",
   "theorems": [
    "Vox.EvalProgram.C126_frame",
    "Vox.EvalProgram.C126_report",
    "Vox.EvalProgram.C126_silent",
    "Vox.EvalProgram.C126_display",
    "Vox.EvalProgram.C126_completes_partial",
    "Vox.EvalProgram.C126_paint_violated",
    "Vox.EvalProgram.C126_color_modes",
    "Vox.EvalProgram.C126_saved",
    "Vox.EvalProgram.C126_refused"
   ],
   "note": "proved in exact arithmetic: frame, numbers, display, saved maps, refusals, colour modes; completion for the modes without normals and with bounded errors (C126_completes_partial), since painting can be undefined (C126_paint_violated)"
  },
  {
   "property": "C127",
   "status": "proved",
   "theorems": [
    "Vox.Placement.C127_topic",
    "Vox.Placement.C127_rigid",
    "Vox.Placement.C127_unique",
    "Vox.Placement.C127_tf"
   ],
   "note": "proved in exact arithmetic, for an arbitrary interpolation of poses and an arbitrary TF tree"
  },
  {
   "property": "C128",
   "status": "partial",
   "theorems": [
    "Vox.Timing.C128_table",
    "Vox.Timing.C128_aligned",
    "Vox.Timing.C128_width",
    "Vox.Timing.C128_deviation_violated",
    "Vox.Timing.C128_deviation_partial"
   ],
   "note": "table, order, alignment and numbers proved for all histories; the deviation is refuted (it covers the last 50 samples only) and proved up to 50 samples"
  },
  {
   "property": "C129",
   "status": "proved",
   "theorems": [
    "Vox.Slider.C129_axis",
    "Vox.Slider.C129_plane",
    "Vox.Slider.C129_reported",
    "Vox.Slider.C129_refused"
   ],
   "note": "the meaning of control orientations follows the ROS conventions, stated in Spec/Slider.lean"
  },
  {
   "property": "C130",
   "status": "partial",
   "theorems": [
    "Vox.TsdfToEsdf.C130_converts_partial",
    "Vox.TsdfToEsdf.C130_refused",
    "Vox.TsdfToEsdf.C130_missing_violated",
    "Vox.TsdfToEsdf.C130_truncated",
    "Vox.TsdfToEsdf.C130_truncated_violated"
   ],
   "note": "conversion and refusals proved; that a good end means the whole map was converted is refuted for damaged and missing files"
  },
  {
   "property": "C131",
   "status": "partial",
   "theorems": [
    "Vox.SimProgram.C131_viewpoints",
    "Vox.SimProgram.C131_truth",
    "Vox.SimProgram.C131_numbers_partial",
    "Vox.SimProgram.C131_numbers_violated",
    "Vox.SimProgram.C131_display",
    "Vox.SimProgram.C131_run"
   ],
   "note": "Viewpoints, ground truth, display and the run are proved; the numbers leave out voxels behind the surface of the tested map (C131_numbers_violated), and are proved without rounding of the sum."
  },
  {
   "property": "C132",
   "status": "partial",
   "theorems": [
    "Vox.TsdfScan.C132_after_change_partial",
    "Vox.TsdfScan.C132_second_call_violated"
   ],
   "note": "Proved for clear_checks_every_n_frames up to one (C132_after_change_partial); refuted in general for larger values by C132_second_call_violated, for every scan whose start voxels do not share slots."
  },
  {
   "property": "C133",
   "status": "partial",
   "theorems": [
    "Vox.Props.C133_objectName",
    "Vox.Props.C133_names_partial",
    "Vox.Props.C133_shown",
    "Vox.Props.C133_follows",
    "Vox.Props.C133_reset_violated",
    "Vox.Props.C133_dropped_violated",
    "Vox.Props.C133_nodes_violated",
    "Vox.Props.C133_names_violated"
   ],
   "note": "Names only up to 2^32 events; dropped messages, leaked nodes and wrapped numbers are proved as violations"
  },
  {
   "property": "C134",
   "status": "partial",
   "theorems": [
    "Vox.Props.C134_tsdf_partial",
    "Vox.Props.C134_order_violated",
    "Vox.Props.C134_digits_violated",
    "Vox.Props.C134_same_text",
    "Vox.Props.C134_map",
    "Vox.Props.C134_mesh"
   ],
   "note": "All settings but integration_order_mode, which is not printed (proved as a violation)"
  }
 ]
}