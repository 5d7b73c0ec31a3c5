# Design: a Lean model of voxblox and what is proved about it

The code under `/repo` is read as text and modelled function by function in
Lean 4. Every Lean definition that stands for code carries a comment with the
file and the lines it models. Nothing in `/repo` is executed or changed.

## Layout

* `lean/Verif/Model/*.lean` - the model: total, computable functions.
* `lean/Verif/Spec/*.lean` - small independent specifications (what a user
  expects), written without the helpers of the model.
* `lean/Verif/Lemmas/*.lean` - helper lemmas.
* `lean/Verif/Props/*.lean` - the property theorems, each with an `example`
  showing that its hypotheses are met by a concrete non-trivial case.
* `seeded/LOG.jsonl` - wrong programs the theorems were tested against.

## Conventions

* `Outcome a` = `ok a | fatal | ub`. `fatal` is a glog `CHECK`/`LOG(FATAL)`
  abort, `ub` is C++ undefined behaviour (out-of-range `operator[]`, reading an
  uninitialised member, casting NaN or a too large number to an integer, signed
  overflow). `DCHECK`s are not executed in release builds, so a violated
  `DCHECK` falls through to whatever the code then does.
* Arithmetic. `FloatingPoint` is C++ `float`. Four treatments are used, and every
  theorem says which one it is about:
  - exact rationals `ℚ` (geometry, interpolation, meshing);
  - an arbitrary rounding (`Arith`, `Fl`: finite values, NaN and infinities, each
    operation rounded by an unknown function with named laws) for the TSDF and
    occupancy updates;
  - an arbitrary rounding to a finite grid (`Esdf.Flt` with the laws `Rounding`:
    monotone, odd, idempotent, values multiples of a unit) for the ESDF;
  - concrete binary32 conversion of integers (round to nearest even) for index
    arithmetic.
* Raw float words in serialization are 32-bit patterns (`BitVec 32`), because
  the code only `memcpy`s them.
* Hash maps are association lists; where the iteration order of a map matters it
  is a parameter, and theorems quantify over every permutation.
* Layers occur in two forms: with block pointers and a heap (`Model/Layer.lean`,
  where aliasing matters: C12 - C16) and as values (`Model/Grid.lean`, everything
  that reads or writes voxels). The specification view of the second is
  `Spec.content layer globalIndex`.
* Threads: a transition system whose steps are the atomic operations (an atomic
  `fetch_add`, a mutex-protected section); theorems quantify over every
  interleaving.
* Loops without an obvious bound carry fuel and return `none` when it runs out;
  termination is the theorem that some fuel suffices and more changes nothing.
* Where the code violates a property, the negation is proved on a concrete
  witness (`..._violated`, `..._counterexample`) and the part that does hold is
  kept as a `..._partial` theorem.

## Trusted base

* The Lean kernel, and the axioms `propext`, `Classical.choice`, `Quot.sound`
  (listed per theorem at the end of this file).
* The reading of the C++ code: the theorems are about the model.
* Assumed and not modelled: the C++ compiler, the standard library containers
  and `std::sort`/`std::shuffle` (only their standard contract), Eigen, protobuf's generated
  code (only its documented wire format for the two messages is modelled), glog,
  the file system, wall-clock time (timers and the time limit of the fast
  integrator are inputs), memory exhaustion, ROS transport.

### Simplifications, by part of the code

* *Index arithmetic* (`common.h`): 64-bit and 32-bit wrap-around is modelled for
  the mask trick and the hash; `splitGlobal` follows the code for power-of-two sides.
* *Serialization*: generic word codecs per voxel type; protobuf messages as
  field lists in ascending field order with unknown fields skipped; protobuf's
  `IstreamInputStream` reads chunks of 8192 bytes, which matters for C19.
* *Merged integrator*: assumes that two traversals of an unmodified
  `unordered_map` see the same order (`C31_needs_same_order`).
* *Approximate hash sets*: the hash function is a parameter.
* *TSDF update*: relative error at most 1/4096 per operation where an error bound is
  needed, or IEEE single precision with subnormals and overflow (`_float32` theorems of
  C26, C110, and the float case of `Sane` in C93, C95, C96); the sign of zero is not represented.
* *Ray caster*: `minCoeff` with Eigen's semantics for NaN; a cast whose
  outcome is `fatal` in `castAll` stands for non-termination.
* *Value layers*: `float` voxel and block sizes are exact, block size = side × voxel size.
  The constant `1e-6` is the rational.
* *Meshing*: the marching-cubes tables are copied by script; worker threads are run
  one after the other (they write disjoint mesh blocks).
* *Sphere queries*: norms are compared by squares.
* *ESDF*: distances are finite floats without overflow and NaN; parents and index
  sums in ℤ (no int overflow; |voxel index| < 2^24 where the float conversion of an index
  matters); the bucket index is computed exactly.
* *Not modelled at all*: ROS servers and visualisation, the PLY/`.tango` front
  ends, ICP, the simulation's image noise, mesh output to files, protobuf of mesh blocks,
  the rviz plugin, build scripts.


## Properties: what is modelled and how it is proved

The full English statement of each property is in `properties.jsonl`; theorem names here are those of
`MANIFEST.json`, without their namespace.

### C01 Linear and 3-D voxel addressing of a block are inverse (proved)

*Modelled:* linear/3-D index arithmetic of a block

*Proof:* div/mod arithmetic for all sides

*Status:* Blocks of at most 2^31 voxels; C01_huge_block_violated shows the bound is needed.

*Theorems:* `C01_valid_voxel_iff`, `C01_voxel_to_linear_to_voxel`, `C01_linear_to_voxel_to_linear`, `C01_no_aliasing`, `C01_huge_block_violated`

### C02 Global voxel index splits into block and voxel index and recombines (partial)

*Modelled:* binary32 conversion of the index, multiplication by 1/side, floor

*Proof:* round-trip while conversions are exact; negation with witness 16777231

*Status:* Proved while the global index is exactly representable in float32 arithmetic; beyond that C02_split_violated shows the block index is wrong.

*Theorems:* `C02_split_recombine_partial`, `C02_pair_roundtrip_partial`, `C02_split_violated`

### C03 The local voxel index of a global index is its Euclidean remainder and always addresses a real voxel (proved)

*Modelled:* offset and mask on 64-bit integers

*Proof:* equality with the Euclidean remainder

*Status:* Euclidean remainder for every power of two; other sides refused; side zero passes the check.

*Theorems:* `C03_local_index`, `C03_other_sides_refused`, `C03_zero_side_accepted`

### C04 Voxel centres map back to their own voxel and every point is inside its reported voxel (proved)

*Modelled:* grid-index functions over ℚ

*Proof:* floor lemmas

*Status:* Exact rational arithmetic; the same in float arithmetic with error bounds is C73.

*Theorems:* `C04_center_roundtrip`, `C04_origin_roundtrip`, `C04_origin_robust`, `C04_point_in_reported_cell`, `C04_index_of_cell`

### C05 Coordinate lookup inside a block never leaves the block (proved)

*Modelled:* `computeTruncatedVoxelIndexFromCoordinates`, float to int cast as partial

*Proof:* floor and clamp

*Status:* Truncated index always inside the block; converting a point too far away is undefined.

*Theorems:* `C05_truncated_in_block`, `C05_center_roundtrip`, `C05_far_point_undefined`

### C06 Neighbour lookup across block borders agrees with global index arithmetic (proved)

*Modelled:* neighbour tools

*Proof:* arithmetic on one direction, lifted to 26

*Status:* All directions with components in -1..1; agreement of the three neighbour lookups.

*Theorems:* `C06_neighbor_position`, `C06_zero_side_refused`, `C06_occ_neighbor_agrees`, `C06_hierarchical_agrees_with_global`, `C06_offset_between`

### C07 Neighbourhood tables are complete, duplicate free, symmetric and correctly ordered (proved)

*Modelled:* the constant tables, literally

*Proof:* whole-table evaluation in the kernel

*Status:* Tables transcribed literally from the source.

*Theorems:* `C07_table_complete`, `C07_connectivity_prefixes`, `C07_distances`, `C07_symmetric`, `C07_occ_enumeration`

### C08 TSDF blocks survive serialization unchanged (proved)

*Modelled:* TSDF block codec on words

*Proof:* list induction

*Status:* All bit patterns, all block sizes.

*Theorems:* `C08_tsdf_roundtrip`

### C09 ESDF blocks survive serialization unchanged (partial)

*Modelled:* ESDF block codec on words

*Proof:* exact extent of the loss of parent directions

*Status:* Lossless exactly for the parent directions characterised by ParentSurvives (C09_what_survives gives the exact extent); C09_parent_violated is the counterexample to the full claim.

*Theorems:* `C09_esdf_roundtrip_partial`, `C09_what_survives`, `C09_parent_violated`

### C10 Occupancy and intensity blocks survive serialization unchanged (proved)

*Modelled:* occupancy and intensity codecs

*Proof:* list induction

*Status:* All bit patterns, all block sizes.

*Theorems:* `C10_occupancy_roundtrip`, `C10_intensity_roundtrip`

### C11 Voxel payloads of the wrong length are refused before any voxel is written (proved)

*Modelled:* deserialisation with its length `CHECK`

*Proof:* case analysis on the length

*Status:* All four voxel types; wrong length aborts, right length decodes without out-of-range reads.

*Theorems:* `C11_wrong_length_refused`, `C11_right_length_accepted`, `C11_empty_payload`

### C12 A layer behaves like a finite map from block index to block (proved)

*Modelled:* layer with heap and pointers, all operations

*Proof:* refinement to `Idx → Option Block` over every operation sequence

*Status:* Refinement of the pointer-based layer to a finite map over every operation sequence; inserting over an existing index is a debug-only check, stated both ways.

*Theorems:* `C12_layer_is_finite_map`, `C12_insert_over_existing_debug`

### C13 Update-flag queries return exactly the flagged blocks (proved)

*Modelled:* same

*Proof:* invariant over operation sequences

*Status:* All reachable layers.

*Theorems:* `C13_updated_query`, `C13_all_blocks_query`, `C13_clear_one_flag`

### C14 Removing distant blocks keeps exactly the near blocks (proved)

*Modelled:* `removeDistantBlocks` of layer and mesh layer

*Proof:* filter characterisation

*Status:* Layers drop distant blocks; the mesh layer empties and flags distant mesh blocks.

*Theorems:* `C14_remove_distant`, `C14_clear_distant_mesh`

### C15 Copying a layer yields an equivalent, independent layer (partial)

*Modelled:* copy constructor

*Proof:* heap reasoning; counterexample for marks and flags

*Status:* Voxel values are copied into fresh blocks; the has-data mark and update flags are not copied, with a counterexample.

*Theorems:* `C15_copy_partial`, `C15_metadata_violated`, `C15_merge_from_copy_transfers_nothing`

### C16 Block merge strategies on load do what they promise (partial)

*Modelled:* `addBlockFromProto` with all four strategies

*Proof:* case analysis per strategy

*Status:* prohibit, replace, discard and insertion proved in full; merge proved for stored blocks with the has-data mark and equal voxel size, with theorems showing the two other cases are ignored or abort.

*Theorems:* `C16_incompatible`, `C16_missing`, `C16_prohibit_existing`, `C16_replace_existing`, `C16_discard_existing`, `C16_merge_existing_partial`, `C16_merge_unmarked_ignored`, `C16_merge_close_size_aborts`

### C17 Saving a layer to a file and loading it gives the layer back (proved)

*Modelled:* varints, wire format, file framing, loader

*Proof:* byte-level round-trip

*Status:* Byte level, generic in the voxel codec; the block origin must map back to the block's own index, which C73_stored_index proves for the float computation of the code within a million blocks.

*Theorems:* `C17_save_load`, `C17_save_load_into`

### C18 Saving a subset of blocks stores exactly the requested existing blocks (proved)

*Modelled:* same, message contents

*Proof:* byte-level round-trip

*Status:* Byte level.

*Theorems:* `C18_save_subset`

### C19 Files containing several layers load the requested one (partial)

*Modelled:* several layers in one file, seeking

*Proof:* byte-level; counterexample for short files

*Status:* Proved when at least 8191 bytes follow the skipped layers; counterexample for shorter files (stream end-of-file flag).

*Theorems:* `C19_first_compatible_partial`, `C19_first_compatible_into_partial`, `C19_single_only_first`, `C19_small_file_violated`

### C20 A map file truncated by a crash never loads as a complete map (proved)

*Modelled:* both loaders

*Proof:* prefix rejection

*Status:* Every strict prefix, both loaders.

*Theorems:* `C20_truncated_load`, `C20_truncated_load_into`

### C21 Merging two voxels is the weighted combination, commutative and weight conserving (proved)

*Modelled:* `mergeVoxelAIntoVoxelB` for three voxel types

*Proof:* algebra over ℚ and for any rounding

*Status:* Exact arithmetic for the means; commutativity for every rounding.

*Theorems:* `C21_weighted_mean`, `C21_commutative`, `C21_associative`, `C21_zero_neutral`, `C21_both_zero`, `C21_esdf`, `C21_occupancy`

### C22 Merging a map into another map transfers every observed voxel (partial)

*Modelled:* `mergeLayerAintoLayerB` for equal configuration, `mergeBlock`

*Proof:* exact effect on every voxel and block state; proved for marked blocks, counterexample for integrator-built maps

*Status:* Exact effect of a merge for any marks; complete merge for maps whose blocks are marked as having data. Violated for maps filled by the integrators: proved that nothing is transferred, with a witness.

*Theorems:* `C22_merge_partial`, `C22_tsdf_partial`, `C22_unmarked`, `C22_integrated`, `C22_not_transferred`

### C23 Merging maps of different resolution covers all resampled blocks (partial)

*Modelled:* `mergeLayerAintoLayerB` for different configurations, `resampleLayer`

*Proof:* exact effect through the resampled layer; counterexample

*Status:* Exact effect proved: the resampled map is merged at the block indices of the unresampled map. The full claim is violated; witness where all data is lost.

*Theorems:* `C23_effect_partial`, `C23_lost`

### C24 TSDF voxels stay within truncation and weight limits (partial)

*Modelled:* `updateTsdfVoxel`, the merged integrator bundles

*Proof:* invariants for arbitrary rounding

*Status:* Limits for every rounding; weight monotone for every monotone idempotent rounding. Violated for zero-weight bundles of the merged integrator (C24_zero_weight_violated): a NaN distance with weight 0 overwrites an observed voxel.

*Theorems:* `C24_bounds`, `C24_bounds_fresh`, `C24_weight_monotone`, `C24_negligible_total`, `C24_zero_weight_exact_partial`, `C24_zero_weight_violated`

### C25 The fused TSDF distance is the weighted mean of the observations (proved)

*Modelled:* same over ℚ

*Proof:* weighted means

*Status:* Exact arithmetic; colour is excluded from order independence.

*Theorems:* `C25_weighted_mean`, `C25_order_independent`, `C25_distance_is_projection`, `C25_bundle_mean`, `C25_clearing_bundle_first`

### C26 Colour blending is well defined and stays between its inputs (proved)

*Modelled:* same with a bounded relative error, and in IEEE single precision

*Proof:* error analysis; the `_float32` theorems work on the rounding function of single precision itself, with underflow and overflow (Lemmas/RoundError.lean)

*Status:* Any arithmetic with relative error at most 1/4096, and IEEE single precision with underflow and overflow; zero total weight is undefined behaviour and shown unreachable from update, bundle merge and voxel merge. A weight sum that overflows gives black (C26_blend_float32).

*Theorems:* `C26_blend_between`, `C26_zero_total_undefined`, `C26_update_defined`, `C26_sequence_defined`, `C26_bundle_defined`, `C26_merge_defined`, `C26_blend_float32`, `C26_sequence_float32`, `C26_bundle_float32`, `C26_merge_float32`

### C27 Point filtering of the integrator classifies every point exactly once (proved)

*Modelled:* `isPointValid`

*Proof:* case analysis including NaN

*Status:* Includes the NaN case: NaN points are accepted.

*Theorems:* `C27_classification`, `C27_freespace_clears`, `C27_nan_accepted`, `C27_weight_nonneg`, `C27_weight_value`

### C28 Concurrent point dispatch hands out every point exactly once (proved)

*Modelled:* thread-safe index dispensers

*Proof:* transition system

*Status:* Transition system over atomic fetch_add steps; any number of threads, any schedule; n + threads + 1 < 2^64.

*Theorems:* `C28_no_duplicates`, `C28_complete`, `C28_no_deadlock`, `C28_terminates`

### C29 The mixed integration order is a permutation of the cloud (proved)

*Modelled:* mixed index permutation

*Proof:* bijection on residues

*Status:* All cloud sizes.

*Theorems:* `C29_mixed_order`

### C30 The sorted integration order visits nearer points first and loses none (proved)

*Modelled:* sorted indices

*Proof:* contract of `std::sort`

*Status:* Any std::sort meeting the standard; NaN norms make the sort undefined (C30_nan_undefined).

*Theorems:* `C30_sorted_order`, `C30_nan_undefined`, `C30_unknown_mode_refused`, `C30_any_mode_dispatch`

### C31 Bundled integration partitions the voxel work among threads (proved)

*Modelled:* bundling and thread partition of the merged integrator

*Proof:* set partition

*Status:* Thread partition and bundling; assumes map copies keep iteration order (C31_needs_same_order).

*Theorems:* `C31_one_thread_per_position`, `C31_each_bundle_once`, `C31_needs_same_order`, `C31_bundles_partition`

### C32 Concurrent block allocation loses no block and creates no duplicate (proved)

*Modelled:* two-level block allocation

*Proof:* transition system with mutex

*Status:* Transition system with mutex; data race on the update flags is not modelled.

*Theorems:* `C32_same_index_same_block`, `C32_different_index_different_block`, `C32_map_blocks_kept`, `C32_merge_result`, `C32_no_deadlock`

### C33 Ray traversal is gap free (partial)

*Modelled:* ray caster with rounding

*Proof:* invariant of the DDA loop

*Status:* Every rounding, rays with three non-zero components. Violated for all rays parallel to a coordinate plane: C33_plane_ray_stuck_violated and C33_parallel_end_missed_violated characterise them in single precision, C33_axis_parallel_violated is an instance; also violated at the 32-bit step limit.

*Theorems:* `C33_unit_steps_partial`, `C33_axis_parallel_violated`, `C33_no_jumps`, `C33_max_length_never_ends`, `C33_plane_ray_stuck_violated`, `C33_parallel_end_missed_violated`

### C34 Ray traversal ends in the end point's voxel and visits only voxels the ray passes through (partial)

*Modelled:* ray caster over ℚ

*Proof:* invariant of the DDA loop

*Status:* Exact arithmetic, rays with three non-zero components, end point off the cell boundary; the same in single precision, up to a tolerance, is C113. Violated for axis-parallel rays and for end points on cell edges (C34_edge_missed).

*Theorems:* `C34_ends_in_end_voxel_partial`, `C34_cells_partial`, `C34_edge_missed`, `C34_interior_visited_partial`, `C34_measured_point_on_ray`, `C34_clearing_ray_short`

### C35 Casting a ray with undefined coordinates is safe (partial)

*Modelled:* ray caster with NaN and uninitialised members

*Proof:* outcome analysis

*Status:* Violated: the NaN branch leaves the step counter uninitialised, which is undefined behaviour (C35_nan_is_undefined). Rays between finite points are safe.

*Theorems:* `C35_nan_is_undefined`, `C35_finite_safe_partial`

### C36 The bucket queue returns elements of the lowest non-empty bucket, first in first out, and loses none (proved)

*Modelled:* bucket queue

*Proof:* refinement to a stable priority queue

*Status:* Refinement to a stable priority queue for all operation sequences.

*Theorems:* `C36_refines_stable_priority_queue`, `C36_entries_sorted`, `C36_push_conserves`, `C36_bucket_monotone`

### C37 The bucket queue never indexes outside its buckets (proved)

*Modelled:* bucket queue

*Proof:* safety over operation sequences

*Status:* Safe for configured queues under every operation sequence; the out-of-contract cases (default-constructed, zero maximum) are shown undefined.

*Theorems:* `C37_no_abort_no_ub`, `C37_default_then_configured`, `C37_front_of_empty_aborts`, `C37_zero_buckets_abort`, `C37_default_constructed_undefined`, `C37_zero_maximum_undefined`

### C38 The approximate hash set never reports an element that was never inserted since the last reset (partial)

*Modelled:* approximate hash set

*Proof:* transition system

*Status:* Violated for hash 0 after a partial reset (C38_zero_hash_violated); proved for all other hashes and for full resets, under all interleavings.

*Theorems:* `C38_no_false_positive_partial`, `C38_full_resets_only`, `C38_zero_hash_violated`, `C38_single_bin_violated`

### C39 The approximate hash set and array never index outside their tables and remember the last writer (proved)

*Modelled:* approximate hash array and the two index hashes

*Proof:* transition system; linear integer arithmetic for the hashes

*Status:* All interleavings; separation of the index hashes in a neighbourhood, and where they collide.

*Theorems:* `C39_never_out_of_range`, `C39_present_after_insert`, `C39_replace_then_present`, `C39_array_slot`, `C39_index_hash_range`, `C39_hash_separates`, `C39_hash_collides`

### C40 Occupancy log-odds stay within limits and move in the direction of the evidence (proved)

*Modelled:* `updateOccupancyVoxel`, log odds

*Proof:* invariants for any rounding; log odds over ℝ

*Status:* Any rounding without NaN for the limits; monotone idempotent rounding for the direction; log-odds function over the reals.

*Theorems:* `C40_limits`, `C40_observed`, `C40_direction`, `C40_saturation`, `C40_logodds_sign`, `C40_logodds_roundtrip`, `C40_logodds_mono`

### C41 One scan updates each occupancy voxel at most once and hits win over misses (partial)

*Modelled:* `integratePointCloud` of the occupancy integrator

*Proof:* set reasoning for every iteration order

*Status:* At most one update and hits win for every iteration order. Violated for rays of at most two voxels and for rays ending in an already occupied voxel.

*Theorems:* `C41_once_hits_win`, `C41_end_point_hit_partial`, `C41_only_traversed`, `C41_short_ray_violated`, `C41_repeated_end_violated`

### C42 The occupancy ESDF is the exact quasi-Euclidean distance to the nearest occupied voxel (proved)

*Modelled:* the whole occupancy ESDF integrator

*Proof:* loop invariant: every distance is a path length, relaxed edges, queue order; termination measure

*Status:* Shortest-path lengths in rounded arithmetic; the cut-off is that voxels at or beyond the maximum distance are not extended.

*Theorems:* `C42_batch`

### C43 ESDF propagation terminates (proved)

*Modelled:* both ESDF integrators

*Proof:* lexicographic measure on distances (multiples of a unit) and queue lengths

*Status:* Both integrators: open set, raise set, whole updates.

*Theorems:* `C43_open`, `C43_raise`, `C43_update`, `C43_occ_open`, `C43_occ_update`

### C44 Fixed-band ESDF voxels carry the TSDF distance (proved)

*Modelled:* ESDF integrator: copy from TSDF, raise, open

*Proof:* voxel-wise invariant through the three phases

*Status:* Batch update: fixed band, sign and observed flags for every voxel of every TSDF layer within the stated float limits. For incremental updates the same holds for freshly listed blocks (partial theorem); a counterexample shows the fixed band can be stale after an incremental update.

*Theorems:* `C44_batch`, `C44_incremental_partial`, `C44_incremental_counterexample`

### C45 Adding a robot position and then rebuilding the ESDF is safe (partial)

*Modelled:* ESDF integrator histories

*Proof:* invariant over operation sequences; counterexample

*Status:* The defect is proved (robot position, then batch update aborts); every sequence in which a batch update does not meet pending robot positions is proved to complete.

*Theorems:* `C45_counterexample`, `C45_sequences_partial`

### C46 ESDF updates notify every consumer of changed blocks (partial)

*Modelled:* block flags

*Proof:* frame conditions; counterexamples

*Status:* Violated: mesh and ESDF flags are lost on processed blocks, and blocks changed only by propagation are not flagged. Proved: the map flag is set on every listed block present in the TSDF.

*Theorems:* `C46_listed_partial`, `C46_lost`, `C46_unlisted`, `C46_propagation_counterexample`

### C47 Trilinear interpolation is bounded, exact at voxel centres and exact on affine fields (proved)

*Modelled:* interpolator

*Proof:* polynomial identities

*Status:* Interpolated distance/weight are the trilinear combination of the eight surrounding voxels (exact rational arithmetic): bounded by them, exact at centres and on affine fields; colour defined. The rounding in single precision is the subject of C112.

*Theorems:* `C47_trilinear`, `C47_bounded`, `C47_exact_at_center`, `C47_exact_on_affine`, `C47_colour_defined`

### C48 Interpolation queries use the eight voxels that surround the query point (proved)

*Modelled:* interpolator: selecting the eight voxels

*Proof:* uniqueness of the surrounding cell

*Status:* Existence and uniqueness of the surrounding cell, the code returns its eight corners through block borders, refuses exactly when a corner is missing/unobserved.

*Theorems:* `C48_cell_exists_unique`, `C48_returns_surrounding`, `C48_refuses`, `C48_fresh_refused`

### C49 Distance gradients are exact on affine fields (partial)

*Modelled:* gradients, nearest and adaptive modes

*Proof:* affine fields; counterexample in the sliver

*Status:* Interpolated gradient exact on affine fields. Nearest-voxel gradient and adaptive mode proved exact outside the 1e-6 slivers below block borders; violation inside a sliver proved (C49_nearest_border_violated).

*Theorems:* `C49_interpolated_exact`, `C49_nearest_exact_partial`, `C49_nearest_border_violated`, `C49_refuses`, `C49_adaptive_exact_partial`

### C50 Marching cubes tables produce triangles exactly on sign changes (proved)

*Modelled:* marching-cubes tables

*Proof:* 256 rows in the kernel, lifted to arbitrary grids

*Status:* All 256 rows checked by kernel evaluation and lifted to arbitrary sign fields on the integer grid: rows complete, edges used iff the sign changes, every directed triangle edge has exactly one reverse in exactly one cube (closed, oriented surface), orientation towards the non-negative side at cube faces.

*Theorems:* `C50_rows`, `C50_edges`, `C50_used_iff`, `C50_distinct`, `C50_segment_unique`, `C50_closed`, `C50_orientation_upper`, `C50_orientation_lower`

### C51 Mesh vertices lie on the voxel edge at the zero crossing (proved)

*Modelled:* `interpolateVertex`, `meshCube`

*Proof:* algebra; outcome analysis with NaN

*Status:* interpolateVertex and meshCube in exact arithmetic on grid fields (vertices are the crossings, the same for both directions and all cubes); definedness for any rounding if no distance is NaN. C51_nan_undefined shows that a NaN distance makes the code read uninitialised vertices.

*Theorems:* `C51_on_edge`, `C51_symmetric`, `C51_defined`, `C51_nan_undefined`, `C51_grid`

### C52 Meshing a block visits every cube exactly once and reads the right voxels (proved)

*Modelled:* the loops of the mesh integrator

*Proof:* closed form of the block mesh

*Status:* Every block side: the four loops visit each cube once; corner reads equal the layer content at the global index of the corner; the whole block mesh in closed form; unobserved cubes give nothing; colours come from an end of the edge. Exact coordinates.

*Theorems:* `C52_each_cube_once`, `C52_border_corner`, `C52_inside_corner`, `C52_unobserved_cube`, `C52_block_mesh`, `C52_vertex_edges`, `C52_colors`, `C52_tsdf`, `C52_esdf`, `C52_voxel_colors`

### C53 Incremental meshing equals full meshing (partial)

*Modelled:* incremental meshing with flags

*Proof:* invariant over histories; counterexample

*Status:* Violated by the code (C53_violated: stale mesh of the lower neighbour). Proved for histories whose updates also flag the lower neighbours; C53_call gives the exact effect of one call. Threads modelled sequentially.

*Theorems:* `C53_incremental_partial`, `C53_call`, `C53_violated`

### C54 Generated and combined meshes have valid indices (proved)

*Modelled:* mesh concatenation, layer mesh

*Proof:* index arithmetic

*Status:* Block meshes, all meshes of the layer after generateMesh, concatenation, layer-wide mesh into an empty mesh, connected mesh (indices in C55_connected_partial). Finding: getMesh into a mesh that is not empty silently doubles old triangles (C54_getMesh_reused_wrong); concatenation onto an empty mesh aborts when the other has colours.

*Theorems:* `C54_block`, `C54_generate`, `C54_concatenate`, `C54_concatenate_abort`, `C54_getMesh`, `C54_getMesh_reused_wrong`

### C55 Connecting a mesh merges near-duplicate vertices without degenerate triangles (partial)

*Modelled:* connected mesh, `createConnectedMesh`

*Proof:* loop invariant of the grid map; data of each vertex (first vertex of its cell, combined normal) by a ghost record of the vertices met per cell

*Status:* Violated without normals (C55_no_normals: undefined behaviour). Proved for meshes with normals, any rounding: indices, one vertex per cell, and the position, colour and combined normal of every vertex (C55_data_partial, C55_unit); the normal depends on the grouping of triangles (C55_grouping); the distance bound C55_close is for exact arithmetic.

*Theorems:* `C55_connected_partial`, `C55_data_partial`, `C55_unit`, `C55_one_per_cell`, `C55_close`, `C55_grouping`, `C55_no_normals`

### C56 Sphere queries return exactly the voxels within the radius (partial)

*Modelled:* `getSphereAroundPoint`, `fillSphereAroundPoint`, `clearSphereAroundPoint`, `getAndAllocateSphereAroundPoint`

*Proof:* set reasoning; counterexample

*Status:* Violated for radii that are not a multiple of the voxel size (C56_asymmetric); exact characterisation for all radii, exactness for multiples (C56_exact), filling and clearing for every layer content and hash map order. Norms compared by squares, exact coordinates.

*Theorems:* `C56_sphere_partial`, `C56_exact`, `C56_asymmetric`, `C56_within`, `C56_fill`, `C56_clear`

### C57 Map bounds enclose all allocated blocks (partial)

*Modelled:* `computeMapBoundsFromLayer`

*Proof:* fold invariants

*Status:* Violated for an empty layer (C57_empty: uninitialised reads); proved for every layer with a block.

*Theorems:* `C57_bounds_partial`, `C57_empty`

### C58 Map comparison statistics are a faithful account (partial)

*Modelled:* `computeVoxelError` (TSDF, ESDF), `isObservedVoxel`, `evaluateLayersRmse` with all modes and the error layer; `evaluateLayerRmseAtPoses` not modelled

*Proof:* counters as counts over any listing of stored voxels; maximum, RMSE (exact and under any monotone rounding), error layer, symmetry; counterexamples for the minimum, underflow, and missing checks

*Status:* counts, maximum, RMSE, error layer and symmetry proved for all layers, modes and roundings; the claim on min_error is false (C58_min_violated), RMSE zero with nonzero error needs underflow (C58_rmse_underflow)

*Theorems:* `C58_counts`, `C58_max`, `C58_min_zero`, `C58_min_partial`, `C58_min_violated`, `C58_rmse_exact`, `C58_rmse_zero`, `C58_rmse_underflow`, `C58_error_layer`, `C58_error_tsdf`, `C58_error_esdf`, `C58_symmetric`, `C58_unobserved_counted`, `C58_size_unchecked`, `C58_side_unchecked`

### C59 Slice queries return every voxel on the slice (partial)

*Modelled:* `coordPlaneSliceGetDistanceWeight` and `coordPlaneSliceGetDistance` with the bounded caller arrays

*Proof:* the returned list equals the selected voxels (list membership both ways, no duplicates); witnesses for skipped blocks, missing has-data mark, overrun of the weights

*Status:* The full claim is violated twice (C59_skip_violated, C59_no_data_violated). Proved for every map, axis and plane: exactly which voxels are returned, each once, with centre, distance and weight, and how the query ends at the maximum or with arrays that are too short.

*Theorems:* `C59_outcome`, `C59_esdf_partial`, `C59_tsdf_partial`, `C59_only_below_face`, `C59_skip_violated`, `C59_no_data_violated`, `C59_max_zero`, `C59_weights_overrun`, `C59_bad_axis`

### C60 Simulated objects report consistent distances and ray hits (partial)

*Modelled:* distance and ray functions of sphere, cube, plane and cylinder, ground and walls, the distance of a world; ℝ or any ordered field with a square root; infinities and NaN of the slab method are explicit

*Proof:* distances compared with the least distance to the surface as a set of points; ray hits compared with all points of the ray on the surface

*Status:* Sphere and plane: signed Euclidean distance and first hits proved. Cube: sign always, distance except in a shell of kEpsilon outside the surface (bounded there), first hits unless the ray runs in the plane of a face, where a NaN hit and a hit off the cube are shown. Cylinder: sign, the regions with exact distance, never too small outside; wrong at caps, rims and near caps inside (witnesses). Vertical rays miss it, steep rays can hit at their origin (witness). World distance is the least one. Exact arithmetic.

*Theorems:* `C60_sphere_distance`, `C60_cube_distance`, `C60_plane_distance`, `C60_cylinder_distance_partial`, `C60_cylinder_cap`, `C60_cylinder_edge`, `C60_cylinder_inside`, `C60_sphere_ray`, `C60_sphere_inside`, `C60_cube_ray_partial`, `C60_cube_nan`, `C60_cube_false_hit`, `C60_plane_ray`, `C60_plane_parallel`, `C60_cylinder_ray_partial`, `C60_cylinder_vertical`, `C60_cylinder_steep`, `C60_world_distance`, `C60_room`

### C61 Camera view test equals the frustum (partial)

*Modelled:* camera intrinsics, poses, the six bounding planes and the box, over any ordered field; `normalized()` as a positive scaling, tangents as inputs

*Proof:* each plane test is a triple product, which a rotation preserves, and reduces to one inequality in camera coordinates; a linear form over the frustum is largest at a corner, which gives the box; near distance 0: the exact remaining tests and a point 100 to the side reported in view

*Status:* holds exactly for a positive near distance (C61_view_partial, focal-length and body-pose variants); near distance zero is the counterexample C61_violated with the exact behaviour in C61_near_zero; the box is tight (C61_aabb); exact arithmetic

*Theorems:* `C61_view_partial`, `C61_focal_length_partial`, `C61_near_zero`, `C61_violated`, `C61_aabb`, `C61_no_pose`, `C61_body_pose`, `C61_body_view_partial`, `C61_lines`, `C61_far_points`

### C62 Layer messages reproduce the layer at the receiver (partial)

*Modelled:* `serializeLayerAsMsg`, `deserializeMsgToLayer` with all three actions (voxblox_ros/conversions_inl.h); ROS transport not modelled

*Proof:* content of the receiver after update and reset for every sender and receiver; refusal; arbitrary (corrupt) messages end normally or abort; counterexample for merge

*Status:* Update, reset and refusal are proved for TSDF, occupancy and (with surviving parents) ESDF layers; arbitrary messages end normally or abort. The merge part is false in the code (C62_merge_dropped): existing blocks stay unchanged. NaN voxel sizes are accepted (C62_nan_accepted).

*Theorems:* `C62_transmits_tsdf`, `C62_transmits_occ`, `C62_transmits_esdf_partial`, `C62_update`, `C62_reset`, `C62_reset_full`, `C62_merge_partial`, `C62_merge_dropped`, `C62_rejects`, `C62_decodes`, `C62_corrupt`, `C62_duplicates`, `C62_nan_accepted`

### C63 Layer comparison is an equivalence that detects any difference (partial)

*Modelled:* `isSameLayer`, `isSameBlock`, `isSameVoxel` (all types), `getMemorySize`

*Proof:* exact characterisation of the answer; floats with NaN, infinities and any rounding; symmetry, reflexivity on finite maps; the memory size reported counts every block and voxel stored (`C63_memory`); counterexamples

*Status:* Exact characterisation of isSameLayer for layers of one side (C63_iff, C63_tsdf/esdf/occ_partial), symmetry, reflexivity iff all floats finite. The full claim fails: hallucinated flag not compared (C63_hallucinated), NaN (C63_not_reflexive), tolerance not transitive (C63_not_transitive), different sides read out of bounds (C63_other_side).

*Theorems:* `C63_near`, `C63_iff`, `C63_tsdf_partial`, `C63_occ_partial`, `C63_esdf_partial`, `C63_detects`, `C63_symmetric`, `C63_voxel_symmetric`, `C63_reflexive_tsdf_partial`, `C63_reflexive_esdf_partial`, `C63_reflexive_occ_partial`, `C63_hallucinated`, `C63_not_reflexive`, `C63_not_transitive`, `C63_other_side`, `C63_other_type`, `C63_memory`

### C64 Centering a layer moves all blocks by one common shift (partial)

*Modelled:* `centerBlocksOfLayer`

*Proof:* the layer is moved by one vector of whole blocks, bounds on the mean index; counterexamples

*Status:* C64_moves: one common shift with all voxels and states, mean within 1.5 blocks; C64_centers_partial: within half a block if the mean index is at least -1/2. Violated for negative means (C64_not_centered) and the empty layer (C64_empty). Exact arithmetic.

*Theorems:* `C64_moves`, `C64_centers_partial`, `C64_not_centered`, `C64_empty`

### C65 Transforming a layer covers the whole image of every block (partial)

*Modelled:* `transformLayer`, `naiveTransformLayer`

*Proof:* closed form of the visited blocks and of every resampled voxel; counterexamples

*Status:* Every resampled voxel and the set of visited blocks characterised; blocks one output block or more below the upper end of the image cube are covered; identity onto the same grid is lossless. The full claim is violated (witness), also for the fast variant, which reads the wrong position.

*Theorems:* `C65_transform_partial`, `C65_missed`, `C65_identity_partial`, `C65_naive_wrong_frame`

### C66 Variable-length integers and message framing decode to what was encoded (proved)

*Modelled:* varint codec of 32-bit values

*Proof:* induction on digits

*Status:* All 32-bit values, all continuations.

*Theorems:* `C66_varint_roundtrip`, `C66_varint_truncated`, `C66_varint_injective`, `C66_block_message`

### C67 Intensity integration writes the voxel it looked up (partial)

*Modelled:* `addIntensityBearingVectors` completely (intensities and neighbour positions in exact arithmetic)

*Proof:* content of the layer after a hit for every position; universal and concrete counterexample across block borders; invariant over any sequence of rays

*Status:* Violated across block borders (C67_violated, C67_other_block for every such neighbour). Proved: the voxel at the hit for every position, all neighbours in the same block, the complete effect if all lie in one block, and bounds of weights and intensities over any run.

*Theorems:* `C67_center`, `C67_neighbour_partial`, `C67_hit_partial`, `C67_other_block`, `C67_violated`, `C67_sizes`, `C67_miss`, `C67_bounds`

### C68 Surface search along a ray terminates, passes over nothing and finds the surface the map knows of (proved)

*Modelled:* `getSurfaceDistanceAlongRay` completely, with any rounding; normalisation of the bearing vector as a parameter

*Proof:* fuel-bounded loop against an inductive set of justified steps; termination bound from a lower bound on rounded steps; the reported point is compared with the point of the ray up to rounding (`C68_on_ray`); accuracy in exact arithmetic

*Status:* Result and coverage for any rounding; termination for any rounding that moves forward, in particular relative error u with max distance below about 1/(2u) voxels; accuracy in exact arithmetic. The limits are proved as witnesses.

*Theorems:* `C68_result`, `C68_terminates`, `C68_terminates_exact`, `C68_terminates_rounded`, `C68_on_ray`, `C68_covered`, `C68_accurate`, `C68_beyond_max`, `C68_starts_inside`, `C68_outside_map`, `C68_stuck`

### C69 Colour maps stay in range (partial)

*Modelled:* `rainbowColorMap`, `grayColorMap`, the clamped maps, ironbow palette, identifier maps (hue)

*Proof:* any monotone rounding for definedness; Lipschitz hue functions for continuity; `double` bound for the rainbow; dyadic offsets for unique identifiers; undefined grey outside [0,1]

*Status:* Rainbow: defined, opaque and saturated for every input and every monotone rounding; hue formula, wrap and continuity in exact arithmetic; within about one count of the hue in double (C69_rainbow_double). Grey: nearest value on [0,1], undefined outside (counterexample). Clamped maps at the hue of the place between the limits, whose ends share one colour (C69_ends_violated); ironbow palette, identifier hues as well.

*Theorems:* `C69_rainbow_defined`, `C69_rainbow_hue`, `C69_rainbow_continuous`, `C69_gray_partial`, `C69_gray_undefined`, `C69_clamped_defined`, `C69_grayscale_monotone`, `C69_clamped_hues`, `C69_ends_violated`, `C69_equal_limits`, `C69_ironbow`, `C69_ironbow_brighter`, `C69_ids_defined`, `C69_irrational_hue`, `C69_ids_unique`, `C69_zero_items`, `C69_rainbow_double`

### C70 Robot clearing never erases measured obstacles (proved)

*Modelled:* `addNewRobotPosition`

*Proof:* composition of the sphere and ESDF lemmas

*Status:* Every ESDF state, robot position and map iteration order; spheres within the voxel index range.

*Theorems:* `C70_robot`

### C71 Ground-truth maps hold the truncated distance to the nearest object (partial)

*Modelled:* ground-truth maps: enumeration of blocks, bounds test, nearest object, truncation, both voxel types; objects are arbitrary distance functions

*Proof:* effect of the loops on the content of the layer by induction; samples of an axis by floor arithmetic

*Status:* Exact effect on TSDF and ESDF layers for every world, bounds and layer, for voxels in sampled blocks; blocks are sampled if half a block below the upper bound or the bounds are whole blocks apart. A voxel within bounds that is missed is shown. Exact arithmetic (accumulated rounding of the loop variable not modelled).

*Theorems:* `C71_tsdf_partial`, `C71_esdf_partial`, `C71_reached`, `C71_missed`, `C71_negative_truncation`

### C72 Simulated views report the nearest object for every pixel (partial)

*Modelled:* views: pixel loops, rays, nearest hit with NaN, noise; objects are arbitrary ray functions; `FromTwoVectors` is a parameter that returns a rotation

*Proof:* loop invariant over the objects (nearest of the prefix), folds over pixels as `filterMap`; combined with the first hits of C60

*Status:* Cloud and noisy cloud characterised for every world (no NaN answers), even resolutions and rotations; rays within the field of view; first surface point of any object by C60; zero noise gives the plain view from a viewpoint. Counterexamples for odd sizes, NaN hits, the view direction of the noisy variant and roll. The rotation between two vectors is a parameter; noise is an arbitrary sequence.

*Theorems:* `C72_cloud_partial`, `C72_field_of_view`, `C72_odd`, `C72_first`, `C72_nan_hides`, `C72_noisy_partial`, `C72_zero_noise`, `C72_roll_ignored`, `C72_noisy_direction`

### C73 Voxel coordinates lead back to the voxel in single precision (partial)

*Modelled:* executable IEEE rounding (nearest even, any precision), square root, index functions with every float and double operation rounded

*Proof:* error analysis: monotone, nearest, relative error of the rounding; linear bounds on the composed error

*Status:* Every operation rounded as IEEE float/double (overflow beyond 2^128 and fused multiply-add not modelled). Violated far from the origin (C73_center_violated) and by the flooring lookup at cell borders (C73_floor_violated); also shows that float meets the rounding assumptions of C24, C27, C40, C42-C46, C62, C63.

*Theorems:* `C73_nearest`, `C73_representable`, `C73_sqrt`, `C73_faithful`, `C73_odd`, `C73_esdf`, `C73_point`, `C73_center`, `C73_center_violated`, `C73_origin`, `C73_floor_violated`, `C73_lookup`, `C73_stored_index`

### C74 Mesh messages show the mesh of the layer (partial)

*Modelled:* sender and display of mesh messages in IEEE float and double: range checks, fixed-point positions, colour modes, decoding, object table

*Proof:* linear error bookkeeping over the roundings; the 256 byte values by kernel evaluation; invariant over histories of events; connecting vertices for drawing is C55; that the meshes of marching cubes are accepted follows from the place of the crossings (between cell centres) and from bounds of the normals; for messages without colours, the differences of decoded positions are zero or not small, which bounds the components of the normals the display computes from them, so that their colours are defined

*Status:* Acceptance (C74_accepted, and C74_marching_cubes for what the mesh integrator makes), definedness, content, exact colours, normals, normal colouring (C74_normal_colors, for block edges from 1/8 m to 2^20 m and indices up to 50) and synchrony are proved in IEEE arithmetic. Counterexamples: C74_accepted_violated, C74_colors_violated, C74_removed_violated, C74_late_violated, C74_malformed_violated, C74_precision_violated, C74_tiny_violated.

*Theorems:* `C74_accepted`, `C74_accepted_violated`, `C74_defined`, `C74_colors_violated`, `C74_content`, `C74_colors`, `C74_color_roundtrip`, `C74_normals`, `C74_normal_colors`, `C74_tiny_violated`, `C74_precision_violated`, `C74_sync`, `C74_send_keeps`, `C74_removed_violated`, `C74_late_violated`, `C74_malformed_violated`, `C74_marching_cubes`

### C75 Point clouds of a layer show exactly the voxels their criterion selects (partial)

*Modelled:* the point cloud and marker loops and selection functions of ptcloud_vis.h over voxels with IEEE special values; positions exact; std::remainder

*Proof:* closed form of the loops over the positions of the layer; arithmetic of the remainder for the slice planes

*Status:* Every cloud and marker is characterised exactly for all layers (C75_color, C75_near_surface, C75_distance, ...). The slice claim holds for planes in the lower half of a voxel (_partial) and is refuted otherwise (C75_slice_violated); what is shown instead is proved for the upper half and the centre.

*Theorems:* `C75_color`, `C75_near_surface`, `C75_distance`, `C75_distance_near`, `C75_occupied_tsdf`, `C75_esdf`, `C75_free_esdf`, `C75_intensity`, `C75_occupied`, `C75_distance_within_color`, `C75_same_voxels_violated`, `C75_unobserved_occupied`, `C75_slice_tsdf_partial`, `C75_slice_esdf_partial`, `C75_slice_upper_tsdf`, `C75_slice_upper_esdf`, `C75_slice_centre_tsdf`, `C75_slice_violated`

### C76 The distance-coloured cloud shows each selected voxel once, in a colour monotone in distance (partial)

*Modelled:* getColorFromVoxel in IEEE float and double (hue, rainbow, byte conversion) and convertVoxelGridToPointCloud

*Proof:* interval bounds through each rounding from monotone rounding; case analysis over the sectors of the colour wheel; closed form of the loop

*Status:* Exact set, order of points before, definedness, monotone colours and end colours proved for all layers and ranges; NaN abort, zero maximum and the flag are proved violations.

*Theorems:* `C76_tsdf_shown`, `C76_esdf_shown`, `C76_tsdf_cloud`, `C76_esdf_cloud`, `C76_monotone`, `C76_above_range`, `C76_below_range`, `C76_nan_aborts`, `C76_zero_maximum_violated`, `C76_flag_violated`

### C77 A mesh written as PLY reads back as the same mesh (partial)

*Modelled:* outputMeshAsPly and outputMeshLayerAsPly down to the characters: decimal printing of floats (precision 6, %g), header, vertex and face lines, the disk

*Proof:* an independent PLY reader (lines, words, header, typed rows) is proved to invert the printed text; six-digit rounding bounded, exact on short decimals and monotone; induction over lines

*Status:* Round trip proved for every mesh with matching lists; exactness of positions, full disks, incomplete triangles, short lists and large indices are refuted.

*Theorems:* `C77_roundtrip`, `C77_layer`, `C77_connected`, `C77_incomplete`, `C77_short_normals`, `C77_short_colors`, `C77_exact_violated`, `C77_full_disk_violated`, `C77_large_index_violated`

### C78 The incremental PLY writer (partial)

*Modelled:* PlyWriter as a state machine over the stream and the file

*Proof:* the same reader; induction over the calls; closed form of the file

*Status:* Round trip proved; the limit on the number of vertices, calls after closing and the empty file are refuted.

*Theorems:* `C78_roundtrip`, `C78_count_partial`, `C78_count_violated`, `C78_refused`, `C78_kind`, `C78_header_once`, `C78_closed_violated`, `C78_empty_violated`

### C79 Timers report the statistics of the recorded intervals (partial)

*Modelled:* Accumulator, Timing and Timer with the clock readings as inputs; arithmetic with a rounding parameter

*Proof:* invariant over added samples (cells of the ring buffer, sums, extrema) and over histories of registry calls; error of sums, means, variance and frequency in double precision by running the exact accumulator beside; counterexamples in executable double arithmetic

*Status:* Statistics proved without rounding and, with explicit error bounds, in double precision; registry and timers for all histories. The maximum (all samples zero), unbalanced stops and the frequency after a very long sample are refuted.

*Theorems:* `C79_statistics`, `C79_max_violated`, `C79_handles`, `C79_fresh`, `C79_recorded`, `C79_query_creates`, `C79_hz_unused_violated`, `C79_hz`, `C79_scope`, `C79_stopped`, `C79_stop_violated`, `C79_hz_violated`, `C79_unknown_handle`, `C79_total_double`, `C79_rolling_double`, `C79_hz_double`, `C79_seconds_double`

### C80 Poses looked up in a queue of transforms (partial)

*Modelled:* lookupTransformQueue with integer stamps and abstract pose operations; the weight in executable float arithmetic

*Proof:* case analysis of the loop (old prefix, first other entry); two queues answering alike from a time on is an invariant of discarding and receiving

*Status:* Proved as stated for the queue lookup, with exact integer stamps; the exponential map of the interpolation is a parameter, the TF branch is external code. The closest-transform, any-order and any-time readings are violated by the code and their negations proved (C80_*_violated).

*Theorems:* `C80_found`, `C80_fails_iff`, `C80_neighbours`, `C80_ratio`, `C80_forgetting`, `C80_failed`, `C80_closest_violated`, `C80_backwards_violated`, `C80_order_violated`, `C80_zero_tolerance_violated`

### C81 Incoming point clouds are integrated in order, at most once, and with the right poses (partial)

*Modelled:* getNextPointcloudFromQueue and insertPointcloud with clouds known by stamp and content, lookups as a parameter or the C80 transformer

*Proof:* induction over the queue and over arbitrary event sequences; counterexamples computed

*Status:* Proved for every event sequence of one kind of clouds with the queue lookup; that every cloud with a pose is integrated is violated by the code (C81_*_violated).

*Theorems:* `C81_order`, `C81_spacing`, `C81_insert`, `C81_kept`, `C81_prompt`, `C81_poses`, `C81_blocked_violated`, `C81_unstamped_violated`, `C81_restart_violated`, `C81_freespace_violated`

### C82 Subscribers of a published map have the server's map (partial)

*Modelled:* publishMap and clear of both servers with the number of subscribers as input, the receiving callback, and a world of subscribers; messages are delivered at once and none is lost

*Proof:* invariant: blocks that are not flagged agree, and the count of subscribers exceeds the known one if a new one is among them; uses the single-message theorems of C62

*Status:* Synchrony proved for every orderly history with flagged changes; removal of blocks, replaced subscribers, relays, redundant sending and the ESDF server's TSDF map are refuted.

*Theorems:* `C82_mirror`, `C82_removed_violated`, `C82_replaced_violated`, `C82_relay_violated`, `C82_resend_violated`, `C82_esdf_silent_violated`, `C82_esdf_clear_violated`, `C82_clear`

### C83 Point cloud messages keep their points and colours (partial)

*Modelled:* the choice of the conversion by field names, the three conversions to points and colours, the names of colour maps, and the two conversions to PCL clouds; field decoding by PCL itself is taken as given (missing fields are the defaults)

*Proof:* induction over the cloud; the colour maps are total by C69

*Status:* Violated: C83_zero_max_violated, C83_rgba_violated, C83_short_violated. Proved for all clouds with a maximal intensity other than zero.

*Theorems:* `C83_received`, `C83_sizes`, `C83_defined_partial`, `C83_zero_max_violated`, `C83_intensity_range`, `C83_rgba_violated`, `C83_resent`, `C83_short_violated`, `C83_resent_intensity`

### C84 The mesh of the intensity server shows the measured intensities (partial)

*Modelled:* recolorVoxbloxMeshMsgByIntensity on the message of C71 with the layer lookup of the grid model

*Proof:* the fold over the vertices repaints one entry at a time; the voxel found is the one at the raw numbers; the violations are concrete messages, and two are general (block index, negative maps)

*Status:* Violated: C84_violated, C84_far_violated, C84_index_violated, C84_negative_violated; C84_recolored states what the code does, C84_defined that it ends normally.

*Theorems:* `C84_recolored`, `C84_defined`, `C84_violated`, `C84_far_violated`, `C84_index_violated`, `C84_negative_violated`

### C85 Intensity images are sampled regularly and with the right rays (partial)

*Modelled:* the sampling loop of intensityImageCallback with IEEE arithmetic for the ray, and the size given to reserve; the transform lookup is a parameter

*Proof:* the two loops are one loop over pixel numbers; half-integers below 2^24 are exact in float

*Status:* Violated: C85_zero_violated, C85_negative_violated, C85_encoding_violated, C85_centre_violated. Proved for positive factors and float images (C85_samples).

*Theorems:* `C85_samples`, `C85_zero_violated`, `C85_negative_violated`, `C85_encoding_violated`, `C85_centre_violated`

### C86 Answers to queries of a map (partial)

*Modelled:* the queries of EsdfMap and TsdfMap with their output arguments as state (also on failure), positions rounded to float by the executable IEEE rounding, the interpolation exact as in C47-C49; batches as loops over arrays

*Proof:* agreement of the stateful functions with the interpolator model, then C47-C49; the voxel a position is attributed to is one of the eight around it; induction over the batch

*Status:* Violated: C86_failure_violated (outputs overwritten on failure of the query with gradient), C86_rounded_violated (positions rounded to float). The rest is proved for all maps and positions.

*Theorems:* `C86_nearest`, `C86_interpolated`, `C86_consistent`, `C86_gradient`, `C86_failure_violated`, `C86_rounded`, `C86_rounded_violated`, `C86_weight`, `C86_batch_distance`, `C86_batch_gradient`, `C86_batch_observed`

### C87 The alignment uses the requested part of the points, once each, and ends (proved)

*Modelled:* the threads of runICP as a state machine: each thread reads the pose, takes a batch with one atomic addition, aligns it against its copy of the pose, and fuses the result in one critical section; a schedule is any list of thread numbers

*Proof:* invariants over all schedules: the batches taken are the first multiples of the batch size, a thread that ended implies the ratio was passed; a measure (two actions per remaining batch plus those of the phases) that every action of a thread that has not ended lowers by one; simulation of one thread by repetition

*Status:* model of the threads with atomic batches; shuffling and floating point are outside

*Theorems:* `C87_batches`, `C87_terminates`, `C87_empty_batches_hang`, `C87_enough_matches`, `C87_pose_unchanged`, `C87_updates_le`, `C87_pose_kept`, `C87_single_thread`

### C88 Points are matched with the nearest points of the mapped surface (partial)

*Modelled:* matchPoints and addNormalizedPointInfo on the value-level layer with the interpolator model of C47-C49; the square root is a parameter (only its value at 1 is needed for planes)

*Proof:* the distance and gradient queries are computed from the seven voxels around the point; Cauchy-Schwarz for the nearest point of the plane; induction over the batch

*Status:* planes clear of the block-border slivers; sliver and rotational information violations proved

*Theorems:* `C88_nearest_on_plane_partial`, `C88_matched_iff`, `C88_unknown`, `C88_flat`, `C88_border_violated`, `C88_sources`, `C88_information`, `C88_rotation_information_partial`, `C88_rotation_information_violated`

### C89 The alignment of matched points is the least-squares optimum (proved)

*Modelled:* getRotationFromMatchedPoints for both dimensions and getTransformFromMatchedPoints over any ordered field; the singular value decomposition is a parameter assumed to be one (orthogonal factors, singular values decreasing and not negative)

*Proof:* the orthogonal Procrustes argument: the trace of a rotation times the correlation is bounded by the weighted sum of the diagonal of an orthogonal matrix, with the smallest weight negative in the reflected case; centroids decouple

*Status:* exact arithmetic, decomposition as a parameter

*Theorems:* `C89_least_squares`, `C89_least_squares_yaw`, `C89_recovers_motion`, `C89_sizes_checked`

### C90 Fusing an alignment into the pose respects information, rigidity and yaw (partial)

*Modelled:* the critical section of runThread and the correction of the server; logarithm and exponential of rotations are parameters with the properties stated in Spec.IsRotationLog (satisfied by Rodrigues parameters over the rationals, used in the examples and counterexamples)

*Proof:* conjugation by the current pose; a rotation fixes its logarithm, a yaw fixes only vertical vectors; weights as quotients

*Status:* yaw-only and axes statements proved in part, violations proved

*Theorems:* `C90_weights`, `C90_rigid`, `C90_aligned`, `C90_full`, `C90_never_overshoots`, `C90_yaw_only_partial`, `C90_yaw_only_violated`, `C90_axes_partial`, `C90_axes_violated`, `C90_correction`, `C90_correction_level`, `C90_correction_violated`

### C91 Distances of a batch ESDF are lengths of shortest paths to the surface band (proved)

*Modelled:* the batch update of the ESDF integrator (Model/Esdf.lean) in quasi-Euclidean mode

*Proof:* the copy makes every voxel a seed of its TSDF voxel; an invariant of the open-set loop that follows the visit of each neighbour (sides, path lengths, parents, relaxed pairs except for queued and pending ones); at the end every pair is relaxed and induction over the path gives the bound; the witness of the jump is a line of three voxels

*Status:* the condition on the TSDF is needed: C91_jump_violated

*Theorems:* `C91_batch`, `C91_exact`, `C91_parents`, `C91_smooth`, `C91_jump_violated`

### C92 Incremental updates of the ESDF agree with batch updates (partial)

*Modelled:* the incremental update after a batch update, and the neighbour a parent points to

*Proof:* with an unchanged TSDF no voxel is queued or raised: by C91 and C44 every voxel has the side and state its TSDF voxel asks for; the violations are runs on rows of up to five voxels. The rounded direction of a parent is compared with the real unit vector

*Status:* proved for an unchanged TSDF, with the rounded direction of a parent; violated when a voxel leaves the fixed band (raise), and when the TSDF only grows: the step from a neighbour is not scaled by the voxel size, and the first neighbour is taken instead of the nearest

*Theorems:* `C92_unchanged_partial`, `C92_raise_violated`, `C92_step_violated`, `C92_first_neighbor_violated`, `C92_parent_direction`, `C92_parent_modes`

### C93 A scan adds each ray's observations once, under every schedule (partial)

*Modelled:* the workers of the simple integrator as a transition system whose steps are: take a point, visit a voxel (allocation in the layer or the temporary map, then `updateTsdfVoxel`), with explicit failing steps; index getter of C29/C30, ray caster of C33, voxel update of C26

*Proof:* an invariant relates every reachable state to a list of visits made; permutations give the multiset of visits at the end. Allocation plus update is one step (C32 covers the allocation race). The last part (measured voxel observed) uses C33 in exact arithmetic and needs rays that are parallel to no coordinate plane

*Status:* all parts proved under every schedule; that measured voxels become observed is proved for rays parallel to no coordinate plane (with such rays the ray caster does not reach their end, C33)

*Theorems:* `C93_scan_adds`, `C93_mismatch_refused`, `C93_bounds`, `C93_never_fails`, `C93_terminates`, `C93_measured_voxel_observed_partial`

### C94 The map after a scan does not depend on the scheduling of the threads (partial)

*Modelled:* as C93

*Proof:* by C25 the result for distances within the band is the weighted mean, which does not depend on the order; two runs of two workers witness the violation

*Status:* violated: C94_schedule_violated; holds for voxels observed within the truncation distance, in exact arithmetic

*Theorems:* `C94_schedule_independent_partial`, `C94_schedule_violated`

### C95 The merged integrator integrates each bundle once, and spares measured voxels from grazing rays (proved)

*Modelled:* `bundleRays` and the two phases of the merged integrator: per thread the share of C31, the same transition system

*Proof:* C31 for the partition, the invariant of C93 for each phase; the iteration order of the maps is any permutation

*Status:* except for bundles without weight: C95_weightless_point_violated

*Theorems:* `C95_bundles_added`, `C95_anti_grazing`, `C95_bounds`, `C95_never_fails`, `C95_weightless_point_violated`

### C96 The fast integrator leaves out only what has been seen (proved)

*Modelled:* the fast integrator with the loads and stores of its two sets, the collision counter and the time limit as separate steps, on top of C38/C39

*Proof:* an invariant with ghost accounts per point; termination by a measure on states

*Status:* the stated exceptions are violations of the code: C96_origin_point_lost_violated, C96_shared_counter_violated

*Theorems:* `C96_fast_adds`, `C96_cast_ray_prefix`, `C96_reset_forgets`, `C96_starts_covered`, `C96_origin_point_lost_violated`, `C96_bounds`, `C96_never_fails`, `C96_terminates`, `C96_resets_every_n`, `C96_shared_counter_violated`

### C97 TSDF integrators are made by name and have a usable configuration (proved)

*Modelled:* factory and constructor

*Proof:* case analysis over names and flags

*Theorems:* `C97_factory`, `C97_corrected`

### C98 The rays of a scan observe the voxels they pass (partial)

*Modelled:* `pointVisits`, `bundleVisits`, `fastPoint` (the rays of the scan model) in exact arithmetic against a geometric specification (`Traverses`, `Observes`, `span`)

*Proof:* the ray caster theorems C33/C34 in global coordinates, strict monotonicity of the steps for the absence of repetitions; partial: rays with a zero component or ends on voxel boundaries are excluded (C33 is violated there)

*Status:* in exact arithmetic, for rays without zero component whose ends do not lie on voxel boundaries; false otherwise (C33_axis_parallel_violated)

*Theorems:* `C98_simple_visits_partial`, `C98_rejected`, `C98_fast_visits_partial`, `C98_bundle_visits_partial`, `C98_clearing_bundle_visits_partial`

### C99 Evaluating a map against a ground truth cloud reports its error (partial)

*Modelled:* `evaluate` of voxblox_eval.cc in exact arithmetic (`judge`, `count`, `paint`), the transformation of the cloud as an arbitrary function, the printed root mean square by its square; ROS parameters, file loading and publishing are left out

*Proof:* the relation `ErrorAt` says what the map shows at a point; induction over the cloud with maps that differ in colours only; C47/C48 for interpolation; partial: recolouring only where it is defined

*Status:* statistics, order and bound proved in exact arithmetic; violated: C99_recolor_undefined (so C99_recolor_partial has a bound on the distances), C99_band_violated

*Theorems:* `C99_statistics`, `C99_none_known`, `C99_order`, `C99_bounded`, `C99_band_violated`, `C99_recolor_partial`, `C99_recolor_undefined`

### C100 An exported layer is the surface or the distances it holds (partial)

*Modelled:* `outputLayerAsPly`, `convertLayerToMesh`, `convertMeshLayerToMesh` and `toPCLPolygonMesh` on top of the models of C52, C54, C55, C76 and C77; the traversal of the hash map of meshes is an arbitrary permutation; the binary form of the PCL cloud is left out

*Proof:* all meshes of a fresh mesh layer together are the surface in all cubes, each once (induction over the blocks), composed with the theorems on combining, connecting and reading back; a cube has at most five triangles (whole table), which bounds the indices; partial: a mesh that held something before is not emptied (violated)

*Status:* Files, connected files, clouds and polygon meshes are proved for fresh meshes and any traversal order; violated for a mesh that is not empty before (C100_reused_violated).

*Theorems:* `C100_mesh`, `C100_isosurface`, `C100_no_surface`, `C100_connected_mesh`, `C100_connected`, `C100_cloud`, `C100_abort`, `C100_polygons`, `C100_connected_polygons`, `C100_reused_violated`

### C101 Maps saved by a server can be loaded by a server (partial)

*Modelled:* `saveMap` and `loadMap` of both servers on a disk (finite map from paths to contents, with the set of writable paths as a parameter), on top of the byte-level model of C16 to C20

*Proof:* replacing load by induction over the stored blocks, for any content of the running layer; the ESDF section is found because it has at least four bytes per voxel; a stored layer of another kind is either skipped or ends the loading, which settles other configurations and cuts; partial: the end-of-file flag of the stream is set too early if little follows the TSDF map (violated, with the exact condition)

*Status:* Round trips, mixed servers, other configurations, cuts and missing files proved in full; the ESDF round trip needs at least 8191 bytes of ESDF data (one default block), and fails otherwise with the TSDF map already replaced (proved).

*Theorems:* `C101_no_file`, `C101_tsdf_server`, `C101_esdf_server_partial`, `C101_default_side_partial`, `C101_tsdf_reads_esdf_file`, `C101_esdf_reads_tsdf_file`, `C101_small_file_violated`, `C101_last_block_violated`, `C101_other_configuration`, `C101_truncated`, `C101_partly_loaded_violated`, `C101_new_server_violated`

### C102 A server is configured by its parameters (partial)

*Modelled:* `ros_params.h` and the constructors of both servers from a parameter server (four partial maps from names to values of the four types), with single and double precision rounding, the layers, the transformer and the ESDF checks

*Proof:* inversion of the constructors; the documentation is a table of names and defaults in `Spec/Setup.lean`, checked entry by entry against the server for every parameter server; the set of names with an effect is closed by rewriting every read; exactness of the derived distances from the IEEE lemmas

*Status:* Start, geometry, the documented defaults, choices, timers, derived values and topics are proved for every parameter server. Violated for a side of zero, for ignored documented parameters and a missing service, for two documented defaults and for large voxels (C102_zero_violated, C102_ignored_violated, C102_defaults_violated, C102_esdf_range_violated).

*Theorems:* `C102_same_base`, `C102_starts`, `C102_refused`, `C102_zero_violated`, `C102_geometry`, `C102_documented`, `C102_declared`, `C102_only_these`, `C102_ignored_violated`, `C102_defaults_violated`, `C102_method`, `C102_colors`, `C102_timers`, `C102_derived`, `C102_truncation`, `C102_esdf_default`, `C102_esdf_range_violated`, `C102_topics`

### C103 The mesh of a server shows its map (partial)

*Modelled:* the state of a TSDF server (map and mesh layer) under point clouds with removal of distant blocks, the mesh timer, the mesh service with its file, clearing, map messages and arbitrary changes that mark what they change

*Proof:* invariants over all runs: well-formed map, one mesh per index, triangle soups, nothing shown without a block; one call of the integrator (C53), sending (C74) and connecting (C55, C77) composed; the specification compares with the triangles of the cubes of a block in the map; violations by runs of the model on real words; the scans of the three integrators (C93, C95, C96) are shown to be changes of the kind assumed; meshing and sending always succeed in runs near the origin, by an invariant on all meshes of the layer

*Status:* The mesh service is proved in full (C103_generate, C103_file, C103_no_ghosts) for runs without reset messages; these violate it (C103_reset_violated, general form C103_reset_keeps_meshes). That it and the timer succeed after every run is proved for blocks of at least four voxels per side near the origin (C103_never_fails_partial, C103_file_never_fails_partial) and violated for smaller blocks (C103_small_blocks_violated). For the mesh timer the full statement is violated (C103_stale_violated, C103_received_violated, C53); C103_update_partial says what holds: each mesh was made from the present voxels of its block in some earlier map. What integrations and loads do to the map is a parameter (MarkedChange); the scans of the three integrators are such changes (C103_simple_marked, C103_merged_marked, C103_fast_marked), loads are by C101 (they set all flags). Coordinates are exact.

*Theorems:* `C103_determined`, `C103_generate`, `C103_file`, `C103_no_ghosts`, `C103_prune`, `C103_update_partial`, `C103_received_not_meshed`, `C103_reset_keeps_meshes`, `C103_words`, `C103_stale_violated`, `C103_received_violated`, `C103_reset_violated`, `C103_simple_marked`, `C103_merged_marked`, `C103_fast_marked`, `C103_never_fails_partial`, `C103_file_never_fails_partial`, `C103_small_blocks_violated`

### C104 Markers and point clouds show the meshes of a layer (partial)

*Modelled:* markers (points, colours with alpha) and coloured point clouds of a mesh layer as lists; channels in IEEE arithmetic

*Proof:* fold lemmas over the vertices; the 256 byte values by a checked table, normals, heights and shading by error bounds; triangles by grouping the points in threes; violations by evaluation

*Status:* proved for meshes that have the attributes the colour mode reads (C104_marker, C104_balanced, C104_triangles, C104_cloud), including the height colours (C104_height_partial, C104_height_distinct); violated for incomplete attributes, reused markers, shared vertices and for heights outside the range, which share one colour.

*Theorems:* `C104_marker`, `C104_balanced`, `C104_triangles`, `C104_cloud`, `C104_refused`, `C104_colors_violated`, `C104_reused_violated`, `C104_shared_violated`, `C104_height_partial`, `C104_height_distinct`, `C104_height_violated`

### C105 The ESDF of a server follows its map (partial)

*Modelled:* the TSDF, the ESDF and the queues of the integrator as a state; scans, timer, services, messages, setters and clear as events; a map message is the layer it results in (C82)

*Proof:* invariant over the events: the state of C44 holds and only voxels around robot positions added since the last update are queued; the ESDF results come from C44; pruning by filter lemmas; violations by evaluation up to the first fatal step

*Status:* Safety holds for histories in which no block around a waiting robot position is removed (always the case without free-space clearing); the violations are proved with concrete event sequences. Messages are given by the layers they result in; threads are not modelled.

*Theorems:* `C105_handled_partial`, `C105_safe_partial`, `C105_pruned`, `C105_no_ghosts`, `C105_generate`, `C105_update`, `C105_clear`, `C105_batch`, `C105_sequence`, `C105_prune_violated`, `C105_message_violated`, `C105_generate_violated`, `C105_stale_violated`, `C105_max_distance`

### C106 The simulation server maps what it sees from valid viewpoints (partial)

*Modelled:* the choice of a viewpoint from a stream of random vectors, and the calls a simulation makes to the integrators; the rotation between two directions (Eigen) is a parameter

*Proof:* the search by induction over the attempts; points, seen surfaces and distances from C60 and C72; the ESDF calls are a sequence of operations of C45; violations by evaluation

*Status:* viewpoints, views and ESDF operations of a simulation; violated for the viewpoint box, cylinders, batch mode with robot positions and the occupancy ESDF

*Theorems:* `C106_attempts`, `C106_viewpoint_partial`, `C106_direction`, `C106_box`, `C106_in_bounds_partial`, `C106_outside_violated`, `C106_coverage_violated`, `C106_cylinder_violated`, `C106_views`, `C106_count`, `C106_occupancy_ignored`, `C106_safe_partial`, `C106_batch_violated`

### C107 The pose correction of a server keeps poses rigid, composes, and follows the odometry (partial)

*Modelled:* Model/ServerIcp.lean on top of Model/Icp.lean (C87, C90) and the removal of distant blocks of Model/ServerMesh.lean: guess, alignment, correction, published frames, integration (any function), removal of distant blocks, sequences of clouds. Poses are exact; the library functions (rotation vectors, decompositions), the shuffling and the thread schedule are parameters.

*Proof:* Invariants over sequences of clouds (`C107_rigid`, `C107_off`); the published frames compose and the next guess follows the odometry (`C107_frames_partial`, `C107_odometry_partial`: roll and pitch refined, or level sensor and no half turn; otherwise `C90_correction_violated`); `C107_history`, `C107_unmatched`; blocks are kept up to the size of the correction (`C107_prune_partial`, Cauchy-Schwarz) and not exactly (`C107_prune_violated`).

*Status:* Partial where the code deviates: the frames of a tilted sensor whose yaw alone is refined do not compose (C90_correction_violated), and distant blocks are removed around the looked-up pose instead of the refined one (C107_prune_violated).

*Theorems:* `C107_rigid`, `C107_frames_partial`, `C107_odometry_partial`, `C107_history`, `C107_off`, `C107_unmatched`, `C107_prune_partial`, `C107_prune_violated`

### C108 Evaluating one map against another at several poses treats every pose on its own (partial)

*Modelled:* Model/EvalPoses.lean on top of transformLayer (C65) and evaluateLayersRmse (C58): the checks, the loop over poses, the vectors of details and of shared pointers to layers. The overload taking 4x4 matrices is not modelled.

*Proof:* `C108_each` refines the loop to one independent evaluation per pose; `C108_optional`, `C108_incompatible`, `C108_none`; `C108_self` composes the identity transformation (C65_identity_partial, strengthened for it) with the evaluation (C58). The correspondence of the two vectors fails for vectors used before: `C108_reused_violated`.

*Status:* All parts hold for every input except the correspondence of details and layers, which fails for vectors that have been used before (C108_reused_violated).

*Theorems:* `C108_each`, `C108_incompatible`, `C108_optional`, `C108_self`, `C108_none`, `C108_reused_violated`

### C109 The voxels along a ray are sorted by block without loss (partial)

*Modelled:* Model/RayIndex.lean: end points, ray caster, splitting of every voxel, the dead correction of negative local indices, the hash map as a list in order of insertion. The function has no caller in the repository.

*Proof:* `C109_sorted_partial` for any rounding (indices up to 2^24), `C109_ray_partial` from world points to the map in exact arithmetic through the ray theorems of C98, `C109_point` for rays of length zero, `C109_other_sides` for the refusal.

*Status:* Sorting without loss for indices up to 2^24 under any rounding; the voxels of the ray in exact arithmetic for rays not parallel to a coordinate plane. False otherwise (C109_far_violated, C109_parallel_violated).

*Theorems:* `C109_sorted_partial`, `C109_ray_partial`, `C109_other_sides`, `C109_parallel_violated`, `C109_far_violated`, `C109_point`

### C110 The rounding error of the fused distance is bounded (proved)

*Modelled:* `computeDistance`, `updateTsdfVoxel` in IEEE single precision; the reference is the exact signed distance over the reals (Spec/TsdfRounding.lean)

*Proof:* forward error analysis: every operation of the projection (Lemmas/DistanceError.lean, Cauchy-Schwarz for the cancellation in the dot product), an invariant over the list of observations for the fusion (Lemmas/RoundError.lean); `C110_end_to_end` composes both; `C110_order_matters` shows that the bound for the order cannot be zero

*Status:* Error bounds for computeDistance and updateTsdfVoxel in IEEE single precision against the exact distance, end to end; preconditions on ranges stated in the theorems.

*Theorems:* `C110_distance`, `C110_fusion`, `C110_order`, `C110_order_matters`, `C110_end_to_end`, `C110_absorbed`

### C111 The mesh layer is a finite map from block indices to meshes (partial)

*Modelled:* Model/MeshLayer.lean: the map from indices to pointers, the mesh objects as a list that only grows (shared pointers), debug and release builds; points and distances in exact arithmetic

*Proof:* an invariant over all operations; `C111_values` shows that the models which keep meshes by value (C53, C103, C104) are what layers with pointers do

*Status:* Proved for every history of operations except: allocateNewBlock on an index that has a mesh (C111_new_violated), memory size of meshes without colours (C111_memory_violated).

*Theorems:* `C111_invariant`, `C111_get`, `C111_allocate`, `C111_size`, `C111_new_partial`, `C111_new_violated`, `C111_write`, `C111_remove`, `C111_distant`, `C111_lists`, `C111_stays`, `C111_detached`, `C111_coordinates`, `C111_values`, `C111_memory_partial`, `C111_memory_violated`

### C112 Interpolation in single precision is accurate and does not abort (partial)

*Modelled:* Model/InterpFloat.lean: the query with every operation rounded to float, blocks with rounded origins, the order of summation as a parameter

*Proof:* the cell found by the rounded index computation (`axis_cell`), the rounded offset within it, an error bound of the two matrix products that holds for every order of addition, and the dependence of trilinear interpolation on the position; witnesses evaluated by the kernel

*Status:* Proved within 2^18 voxels of the origin, for block sides that are powers of two up to 1024 and voxel sizes from Size up to 2^80, every order of summation. Violated: results outside the values of the cell by rounding of the offset (C112_between_violated; C112_bounded_partial bounds the excess), CHECK failure far away (C112_check_violated). Fused multiply-add not modelled.

*Theorems:* `C112_value`, `C112_defined_partial`, `C112_bounded_partial`, `C112_constant`, `C112_between_violated`, `C112_check_violated`

### C113 The ray caster in single precision follows the segment up to a stated tolerance (proved)

*Modelled:* Model/RayCaster.lean with IEEE single precision (`float32`), Spec/RayFloat.lean for the enlarged cells

*Proof:* per axis a bound of the error of the first boundary parameter and of the step (`first_axis`), growing quadratically with the number of steps (`invF_advance`); the position on the segment as the largest parameter passed so far (`PosF`); induction over the steps shows that no axis overshoots (`emit_float`)

*Status:* IEEE single precision; end points given in voxels, as the setup receives them after scaling. C113_end_voxel_violated shows that the tolerance is needed.

*Theorems:* `C113_traversal`, `C113_interior_visited`, `C113_end_voxel_violated`, `C113_coverage`

### C114 In single precision a measured point reaches its voxel (partial)

*Modelled:* Model/TsdfScan.lean (`rayEnds`, `rayVoxels`, `pointVisits`) with IEEE single precision; Spec/RayFloat.lean `fusedTol`, `rayReach`

*Proof:* the rounded unit vector is a common multiple of the exact direction up to a few rounding units per component, whatever the computed norm (`unit_float`, `step_axis`); hence the measured point lies within eight rounding units of the coordinates on the computed segment (`ends_float`); the traversal covers all but the last two tolerances of its segment even if the end point is not clearly inside a voxel (`emit_cover`); together `measured_visited`, and with C93 and C110 the weight after the scan

*Status:* Proved for rays with no direction component smaller than a few tolerances and points farther than the tolerance from voxel faces; for rays in a plane x = const the claim fails (C114_plane_violated).

*Theorems:* `C114_measured_voxel_visited`, `C114_measured_voxel_observed`, `C114_plane_violated`

### C115 The clouds and markers a server publishes show its map (partial)

*Modelled:* `Model/ServerClouds.lean`: `publishPointclouds` and `publishSlices` of the three servers with their virtual calls, the marker of occupied voxels with its colours (IEEE double), the float threshold of the surface cloud, and the events that publish. Messages are values; ROS is left out, coordinates are exact.

*Proof:* Through the lemmas of C75 each message is compared with the voxels by global index; events by induction.

*Status:* Proved except: slices of an ESDF server are published twice; clearing and the ESDF timer leave outdated clouds; the surface cloud needs distances that differ by at most a voxel, the markers a weight above 0.001. Coordinates exact.

*Theorems:* `C115_faithful`, `C115_each_once_partial`, `C115_slices_twice`, `C115_occupancy_marker`, `C115_crossing_shown`, `C115_crossing_violated`, `C115_surface_occupied`, `C115_surface_occupied_violated`, `C115_current_partial`, `C115_timer_current`, `C115_clear_violated`, `C115_esdf_timer_violated`, `C115_height_violated`

### C116 The queries of the interpolator agree with one another (partial)

*Modelled:* Model/InterpVoxel.lean: the ten queries with their output arguments (content before and after the call), in float arithmetic

*Proof:* the block and voxel found by the rounded index computation, with a tolerance in terms of the distance from the origin (`axis_locate_fine`), case analysis of the queries; witnesses evaluated by the kernel

*Status:* Agreement and the voxel read are proved in float arithmetic. The part about outputs and about getNearestDistanceAndWeight is false and refuted; C116_output_partial keeps the interpolating queries, C116_weight_tells what a caller can rely on.

*Theorems:* `C116_nearest`, `C116_agree`, `C116_output_partial`, `C116_output_violated`, `C116_unobserved_violated`, `C116_weight_tells`, `C116_esdf_weight`

### C117 The interpolated voxel is defined and close to the eight voxels around it (partial)

*Modelled:* Model/InterpVoxel.lean: interpVoxel and getInterpVoxel in float arithmetic, with undefined conversion to a byte as a distinct outcome

*Proof:* the error bound of C112 applied to each member (`member_between`), truncation to a byte (`byte_near`); witnesses evaluated by the kernel

*Status:* Proved up to 4000 voxels from the origin (together with the side of a block), for every order of addition, with one unit of slack below the darkest voxel. The full claim is false: three witnesses.

*Theorems:* `C117_voxel_partial`, `C117_colour_violated`, `C117_weight_violated`, `C117_undefined_violated`

### C118 Gradients in single precision (partial)

*Modelled:* `getGradient` in `float` arithmetic with its output argument: the block lookup, the six samples with their rounded positions, the accumulation of signed distances, the division by twice the voxel size

*Proof:* Interpolated mode: the value of a plane at each sample from the bounds of C112 and C117 (rounded cell and offsets, matrix products in any order), the displacement of the samples by rounding, and the errors of difference and division. Nearest mode: the lookup bounds of C116, applied at a distance from the borders; witnesses at a border and for the output of a failing query.

*Status:* The plane bound is proved in full. Nearest mode is proved away from voxel borders, at which the claim fails (C118_border_violated); a failing query overwrites its output (C118_output_violated).

*Theorems:* `C118_plane`, `C118_nearest_partial`, `C118_border_violated`, `C118_output_violated`

### C119 The adaptive query gives the distance and gradient of a plane in single precision, also at the border of the observed space (partial)

*Modelled:* `getAdaptiveDistanceAndGradient` in `float` arithmetic with its output arguments: the three distance queries, the full gradient, the fall-back with left and right samples, the extrapolation from the voxel centre by a rounded scalar product

*Proof:* The bounds of C118 restated for data that need not be complete; the errors of difference quotients and of the scalar product; the rounding of the voxel centre and of the offset from it; where interpolation succeeds, each axis has an observed neighbour. Positions at a distance from the voxel borders; a witness at a border.

*Status:* proved at positions that are not within rounding distance of a voxel border; at borders the code violates the claim (C119_border_violated)

*Theorems:* `C119_absent_partial`, `C119_plane_partial`, `C119_border_violated`

### C120 Merging voxels in single precision (partial)

*Modelled:* `mergeVoxelAIntoVoxelB` for the three voxel types in `float` arithmetic (the definitions of C21, generic in the arithmetic, at IEEE single precision)

*Proof:* Bounds on the rounded products, sum, quotient and weight as for one fusion step (C110), without the clamping; an invariant over sequences of merges that bounds the distance by 9/8 of the largest input; monotonicity of rounding and exactness of doubling for ESDF distances and for the limits. Witnesses for the broken limits and for lost exactness.

*Status:* Error bounds for merging two voxels and sequences of voxels, order, and exact ranges for ESDF distances are proved. The limits of the integrators are broken by merging (C120_limits_violated); proved instead is that they are exceeded at most twofold.

*Theorems:* `C120_merge`, `C120_sequence`, `C120_order`, `C120_esdf`, `C120_limits_partial`, `C120_limits_violated`, `C120_exact_violated`, `C120_underflow_violated`

### C121 Visualizing a saved TSDF map (partial)

*Modelled:* `visualize_tsdf.cc`: the advertised topics, the parameters with their defaults, `run` on a layer with the clouds, mesh message, coloured points, polygon mesh and files, and `main` from the path of a file. The layer of a file is read with its words as floats; positions are exact. Time stamps, logging and the bytes of the voxel PLY file (written by PCL) are not modelled

*Proof:* The statements on clouds (C75), meshing (C52, C53), messages (C74), connected meshes and PLY files (C77, C103) are put together for the layer as loaded; saving and loading (C17) keeps the content of the layer. The threshold, a product in `double` rounded to `float`, is bounded, and exact for the default factor. The wrong type on the polygon mesh topic is proved for every run.

*Status:* Proved for the clouds, the mesh message, the coloured points, both files, saved maps and refusals, with positions in exact arithmetic. The polygon mesh is never sent: its topic gets a message of another type (C121_type_violated).

*Theorems:* `C121_products_partial`, `C121_default_threshold`, `C121_type_violated`, `C121_color_modes`, `C121_mesh_file`, `C121_saved`, `C121_refused`

### C122 Construction of the simulation server (partial)

*Modelled:* the constructors of the simulation server and `getServerConfigFromRosParam`, on the model of the parameters of C102; publishers, the random seed and the empty world are left out

*Proof:* the constructor is inverted and evaluated; every step but the test of the side is a check, so that only the smallest integer is undefined. The side read a second time is compared with the other servers and with `getLocalFromGlobalVoxelIndex`

*Status:* Proved: when the server starts, the geometry and cut-offs of its maps, its parameters, the occupancy map; the side of a block for powers of two. Violated for other sides: they are used as given and the first voxel access aborts (C122_side_violated).

*Theorems:* `C122_starts`, `C122_refused`, `C122_consistent`, `C122_occupancy`, `C122_parameters`, `C122_side_partial`, `C122_side_violated`

### C123 The intensity server shows its map coloured by intensity (partial)

*Modelled:* Model/IntensityServer.lean: the constructor, updateMesh, the inherited generateMesh, and a step function over the events of the TSDF server (C103) and images; colours by the ironbow map of C69 in float; the point clouds are C115, what an image does to the layer C67/C85

*Proof:* Construction by inversion of the TSDF server (C102). The scale: distinct floats have a nonzero rounded difference, so the scaled limits are exactly 0 and 1. Runs: recolouring keeps the shape of every block, so both topics agree while the service is not called. After an update or a service call nothing is marked (mesh marks and block flags), so the next update sends empty messages: this gives the refutations for all runs, with concrete instances

*Status:* Construction, parameters, colour scale, agreement of the two mesh topics without the mesh service and what an update sends are proved for all runs. Refuted with instances: images after an update are not shown by the next one, meshes of the service never reach intensity_mesh, a maximum not above the minimum spoils the scale. Not modelled: limits that are not finite.

*Theorems:* `C123_starts`, `C123_parameters`, `C123_scale`, `C123_scale_violated`, `C123_equal_limits_violated`, `C123_update`, `C123_same_blocks`, `C123_images_not_shown`, `C123_images_violated`, `C123_generate_not_shown`, `C123_generate_violated`, `C123_intensities_kept`

### C124 Distances to simulated objects in single precision (partial)

*Modelled:* `getDistanceToPoint` of sphere, box, plane and cylinder, the check on normals and the distance of the world, in IEEE `float`, with the `double` subexpressions that the literal `2.0` brings about (`Model/ObjectsFloat`); measured against the signed Euclidean distance as a real number (`SignedDistance`: sign by position, absolute value the distance to the surface set).

*Proof:* `C124_sphere`, `C124_cube`, `C124_plane`, `C124_world`; `C124_cylinder_partial`, `C124_cylinder_cap_partial` (above and below the caps the computed excess over the radius is negative, so the norm of the height remains) for the region where the formula of the cylinder is right at all; `C124_normal_violated`: the tolerance of `CHECK_NEAR` lets a plane 1 km away be off by 90 cm. Error analysis operation by operation in `Lemmas/ObjectsFloat`, `Lemmas/ObjectsFloatCube`, on top of the exact results of C60.

*Status:* Sphere, box, plane and world: bounds for all inputs up to 2^30 (planes: in terms of the deviation of the normal's length from 1). Cylinder: the region beside it and inside where the side is nearer, away from the planes of the caps, and above or below it within the radius; elsewhere the formula is wrong in exact arithmetic already (C60). The claim on accepted normals is refuted by C124_normal_violated.

*Theorems:* `C124_sphere`, `C124_cube`, `C124_plane`, `C124_normal_violated`, `C124_cylinder_partial`, `C124_cylinder_cap_partial`, `C124_world`

### C125 Voxel sizes and origins read from files and messages (partial)

*Modelled:* Conversion of a `double` pattern to a `float` pattern (`narrow`: fields, shift with ties to even, subnormals, overflow), the layer constructor from a header, the block constructor from a message and the compatibility check; measured against the set of numbers that are floats (`Nearest`) and against IEEE rounding of the number.

*Proof:* `fl32_narrow`: over all patterns the bit manipulation equals rounding of the value (normal, subnormal, carry into the exponent, overflow). `C125_nearest` from optimality of rounding among the integers up to 2^24 times powers of two. `C125_layer` both directions with the threshold 2^-150. `C125_block`, `C125_self_compatible_partial` (error at most half a unit, below 2^-23 for sizes below 2). Witnesses: `C125_self_violated`, `C125_infinite_violated`.

*Status:* Rounding, acceptance and the values of blocks are proved for all patterns; self-compatibility for voxel sizes below 2 m. Refuted with witnesses: compatibility for larger voxels and finiteness of the accepted voxel size.

*Theorems:* `C125_value`, `C125_nearest`, `C125_layer`, `C125_block`, `C125_self_compatible_partial`, `C125_self_violated`, `C125_infinite_violated`

### C126 The evaluation program (partial)

*Modelled:* The program voxblox_eval: parameters with defaults, transformation and its inversion, map file and cloud file, the evaluation of C99, display (mesh of all blocks, marker, moved cloud), exit. Exact arithmetic; reading of the cloud by PCL is a function from paths to points, map files with infinite or NaN values are left out.

*Proof:* `C126_frame` from orthonormal rows; the numbers and the map after painting from the theorems of C99 (a run that ends had no undefined colour); the marker from the theorem on mesh layers (`shown_surface`) and invariance of the surface under painting (`same_surface`); files through C17.

*Status:* proved in exact arithmetic: frame, numbers, display, saved maps, refusals, colour modes; completion for the modes without normals and with bounded errors (C126_completes_partial), since painting can be undefined (C126_paint_violated)

*Theorems:* `C126_frame`, `C126_report`, `C126_silent`, `C126_display`, `C126_completes_partial`, `C126_paint_violated`, `C126_color_modes`, `C126_saved`, `C126_refused`

### C127 Where the points of a cloud are placed (proved)

*Modelled:* The transformer with rigid transformations (rows of the rotation and translation, exact): product, inverse, static transforms with inversion, lookup in TF (an arbitrary function of frames and time with three outcomes) and in the queue (model of C80). The interpolation of two poses is an arbitrary function; conversion of quaternions and rounding are left out.

*Proof:* `Places` states the placement by existence of the intermediate points, without products or inverses; `chained_places` from the group laws (`apply_mul`, `apply_inv`, `unapply_inv`); histories by the invariant `after_keeps`; distances via orthonormal columns (`columns`, from commutation of one-sided inverses of matrices).

*Status:* proved in exact arithmetic, for an arbitrary interpolation of poses and an arbitrary TF tree

*Theorems:* `C127_topic`, `C127_rigid`, `C127_unique`, `C127_tf`

### C128 The printed table of timers (partial)

*Modelled:* Timing::Print and SecondsToTimeString down to the characters: map order, padding of tags and counts, %09.6f with correct decimal rounding and the 256 byte buffer; signs of zeros and NaN left out

*Proof:* a separate reader of the table returns the rows; splitting lemmas for cells, decimal values of digit strings, order by insertion sort, invariant on the longest tag over histories; the deviation refuted by a history run in double arithmetic, and proved up to 50 samples

*Status:* table, order, alignment and numbers proved for all histories; the deviation is refuted (it covers the last 50 samples only) and proved up to 50 samples

*Theorems:* `C128_table`, `C128_aligned`, `C128_width`, `C128_deviation_violated`, `C128_deviation_partial`

### C129 The slider for slices moves along its axis and reports its level (proved)

*Modelled:* InteractiveSlider: the controls and orientations it sends, the size of the plate, the values handed to the callback; frame, time and colours left out

*Proof:* the meaning of orientations (normalised quaternion, motion along the first axis or in the plane of the others) is a separate specification after the ROS conventions and thus trusted; cases over the three axes, induction over feedback

*Status:* the meaning of control orientations follows the ROS conventions, stated in Spec/Slider.lean

*Theorems:* `C129_axis`, `C129_plane`, `C129_reported`, `C129_refused`

### C130 Converting a TSDF file to an ESDF file (partial)

*Modelled:* main of tsdf_to_esdf.cc over a disk: arguments, LoadLayer, the batch update as a parameter, SaveLayer

*Proof:* composition of the save and load theorems C17 and C19; the ignored answer of LoadLayer gives the counterexamples

*Status:* conversion and refusals proved; that a good end means the whole map was converted is refuted for damaged and missing files

*Theorems:* `C130_converts_partial`, `C130_refused`, `C130_missing_violated`, `C130_truncated`, `C130_truncated_violated`

### C131 The simulation program (partial)

*Modelled:* prepareWorld of simulation_eval, generateGroundTruth, evaluate, visualize and run of SimulationServer; the integration of the viewpoints (C106) is a parameter of run

*Proof:* composition of C106, C71, C58, C91 and C100 over the concrete room, with the distances of the room stated by geometry; exact sums only

*Status:* Viewpoints, ground truth, display and the run are proved; the numbers leave out voxels behind the surface of the tested map (C131_numbers_violated), and are proved without rounding of the sum.

*Theorems:* `C131_viewpoints`, `C131_truth`, `C131_numbers_partial`, `C131_numbers_violated`, `C131_display`, `C131_run`

### C132 The first scan after the map was cleared or replaced fills it (partial)

*Modelled:* calls of FastTsdfIntegrator::integratePointCloud with what the integrator keeps between them, setLayer, TsdfServer::clear; all schedules (the transition system of C96)

*Proof:* invariants over all schedules: start voxels taken are in the set; nobody casts if all start voxels are in the set; the positive part from C96 and C38

*Status:* Proved for clear_checks_every_n_frames up to one (C132_after_change_partial); refuted in general for larger values by C132_second_call_violated, for every scan whose start voxels do not share slots.

*Theorems:* `C132_after_change_partial`, `C132_second_call_violated`

### C133 Mesh displays share a scene without colliding (partial)

*Modelled:* Names of scene objects, the scene manager as a list of names, visuals with instance number, objects and pose, `processMessage`, `reset` and the destructor (Model/MeshDisplay.lean). Simplified: position and orientation are one pose; `getTransform` is an input of each event; an exception of Ogre is `fatal`; the message filter of rviz, which may delay or drop messages before, is not modelled.

*Proof:* Names are injective because texts of integers have no spaces and can be read back; an invariant over the history gives that names in the scene are those of the objects of existing visuals; what is shown is compared with the list of messages placed since the last reset. Violations by concrete histories, the wrap by induction over 2^32 - 1 resets. `C133_follows` composes the sender of C74 with one display of the scene: events of the sender simulate the two-party system of C74, events of other displays change neither the sender nor this display.

*Status:* Names only up to 2^32 events; dropped messages, leaked nodes and wrapped numbers are proved as violations

*Theorems:* `C133_objectName`, `C133_names_partial`, `C133_shown`, `C133_follows`, `C133_reset_violated`, `C133_dropped_violated`, `C133_nodes_violated`, `C133_names_violated`

### C134 Printed settings can be read back (partial)

*Modelled:* The three `print` functions line by line, with the text of a stream for bools, integers and floats (Model/ConfigPrint.lean; floats as in Model/Ply.lean). Simplified: `-0` and the sign of NaN.

*Proof:* Each line is split by an independent reader of lines, words and numbers (Spec/ConfigPrint.lean, Spec/Ply.lean); texts of numbers are read back by the lemmas of C77. The missing setting is shown for all settings.

*Status:* All settings but integration_order_mode, which is not printed (proved as a violation)

*Theorems:* `C134_tsdf_partial`, `C134_order_violated`, `C134_digits_violated`, `C134_same_text`, `C134_map`, `C134_mesh`

## Findings: where the code does not do what a user expects

Each is proved as a theorem on the model with a concrete witness.

| property | finding |
|---|---|
| C02 | block/voxel split of a global index goes through `float` and is wrong from 2^24 on |
| C09 | some parent directions of ESDF voxels do not survive the byte packing (`C09_what_survives`) |
| C15 | the layer copy constructor drops the has-data mark and the update flags |
| C16 | merging a block from a message ignores blocks without the has-data mark; different voxel sizes abort |
| C19 | skipping layers in a file fails when fewer than 8191 bytes follow (stream end-of-file flag) |
| C24 | the merged integrator can write a NaN distance with weight 0 over an observed voxel |
| C27 | points with NaN coordinates pass the validity test |
| C30 | sorting points with NaN norms is undefined behaviour |
| C33, C34 | axis-parallel rays visit wrong voxels (division by zero gives infinite or NaN steps). In general: a ray with equal first coordinates never leaves its start voxel (`C33_plane_ray_stuck_violated`), and every ray parallel to a coordinate plane misses its end voxel (`C33_parallel_end_missed_violated`). |
| C35 | the NaN branch of the ray caster leaves the step counter uninitialised |
| C37 | a default-constructed bucket queue is undefined; changing the maximum distance later does not resize it |
| C38 | hash value 0 is reported as present after a partial reset |
| C41 | rays of at most two voxels, or ending in an occupied voxel, skip the free update |
| C44 | incremental ESDF updates can leave stale fixed-band distances |
| C45 | a robot position followed by a batch update aborts |
| C46 | mesh and ESDF flags are lost on processed blocks; blocks changed by propagation are not flagged |
| C49 | the nearest-voxel gradient is wrong in a 1e-6 sliver below block borders |
| C51 | a NaN distance makes meshing read uninitialised vertices |
| C53 | incremental meshing leaves the mesh of the lower neighbour block stale |
| C54 | `getMesh` into a mesh that is not empty doubles old triangles |
| C55 | connecting a mesh without normals is undefined behaviour |
| C56 | sphere queries are asymmetric for radii that are no multiple of the voxel size |
| C22 | integrators never set the has-data mark, so merging an integrated map transfers nothing but empty blocks |
| C23 | merging maps of different resolution walks the block indices of the unresampled map |
| C57 | map bounds of an empty layer are uninitialised |
| C65 | `transformLayer` does not visit the last layer of blocks of an image; `naiveTransformLayer` reads the input at the output position |
| C63 | comparing ESDF layers ignores the hallucinated flag; layers with NaN differ from themselves; different sides read out of bounds |
| C64 | centering truncates toward zero, so negative maps end up to 1.5 blocks off; an empty layer is undefined behaviour |
| C62 | layer messages sent with merge are dropped for existing blocks; a NaN voxel size passes the size check; duplicate indices (reset) or a wrong payload length abort the receiver |
| C58 | `min_error` starts at 0 and is never raised; voxels unobserved in both maps count as non-overlapping; voxel sizes and sides are not compared; tiny errors square to zero |
| C59 | slices skip a block whose upper face lies less than half a voxel below the plane; TSDF slices return nothing for integrated maps (no has-data mark); a maximum of zero yields one point; the weights array is unchecked |
| C69 | `grayColorMap` outside [0,1] converts an unrepresentable value to a byte (undefined); the evaluation node passes such values; equal limits divide by zero |
| C67 | neighbours of a hit are looked up in the block of the hit: across a block border the wrong voxel is written and the right one is not |
| C68 | the reported point may lie beyond the maximum distance or outside the map; a ray starting behind a surface reports its origin; from 2^24 voxels on steps vanish in the rounding and the search never returns |
| C61 | near distance 0 makes two bounding planes degenerate: points far to one side count as in view; before a pose is set after the intrinsics everything counts as in view and the box is uninitialised |
| C60 | the cylinder distance is wrong on and near its caps and beyond their rims; vertical rays miss cylinders, steep ones may hit at their origin; a ray in the plane of a cube face yields a NaN hit or a hit off the cube; rays from inside a sphere miss it |
| C71 | blocks are found by samples one block apart: with bounds not a whole number of blocks apart, the last block within the bounds can be left out; a negative maximum makes all values equal |
| C72 | odd resolutions lose a row or column; a NaN hit of one object hides objects later in the list; `getNoisyPointcloudFromTransform` looks along z, `getPointcloudFromTransform` along x; the roll of the pose has no effect |
| C55 | the normal of a merged vertex is the sum of normals renormalised per input mesh: the result depends on how the triangles are spread over the meshes (`C55_grouping`) |
| C73 | `getGridIndexFromPoint` assigns the origin of cell 40 of a 2 cm grid to cell 39 (the epsilon is smaller than the rounding error); cell centres are misassigned from about five million cells on |
| C74 | `generateVoxbloxMeshMsg` checks the squared length instead of the coordinates: in-range vertices abort the process for two cells per side; colour modes read colours that the mesh may not have; `TsdfServer::clear` leaves meshes on display, late displays miss meshes, malformed messages are read past their end; positions are truncated to 2/65535 of an edge, not rounded to 1/65535 as `MeshBlock.msg` says |
| C75 | `std::remainder(val, voxel_size) < kFloatEpsilon` holds for every negative remainder: slices through the upper half of a voxel show the layer above, and through centres of odd index two layers; colour clouds ask for weight > 0, distance clouds for > 0.001; the occupancy cloud ignores `observed` |
| C76 | a NaN distance aborts the coloured export; `sdf_max_value = 0` exports everything; the returned flag reflects what the mesh held before |
| C77 | `outputMeshAsPly` prints six digits: distinct floats give the same file; a write error is reported as success; indices not divisible by three throw an uncaught `std::out_of_range`; short normals or colours are read out of bounds; indices are declared `int` though they are 64-bit |
| C78 | `vertices_written_` is never advanced: more vertices than declared are accepted; writing after `closeFile` reports success; zero vertices leave no header |
| C79 | `max_` starts at the smallest positive double, not the lowest; `Timer::Stop` does not ask whether the timer runs; the window sum is updated by differences and keeps rounding errors for ever, so `GetHz` can abort though all samples are positive; `GetHz` aborts for unused tags |
| C80 | the lookup takes the first transform within the tolerance, not the closest; discarding makes earlier times fail; a later-stamped transform at the front hides older ones; strict comparison makes tolerance 0 useless |
| C81 | one cloud without a pose blocks the queue until ten wait; `last_msg_time` starts at zero and the comparison is strict, so unstamped clouds are ignored; it is never reset, so replaying a recording is ignored; free-space clouds share the transformer whose queue is discarded |
| C82 | `removeDistantBlocks` is not announced to subscribers; only the number of subscribers is compared; `deserializeMsgToLayer` sets no flags; `Update::kMap` is never cleared; `EsdfServer::publishMap` returns early without the TSDF map and drops the reset flag on the way to `TsdfServer::publishMap` |
| C83 | `intensity_max_value` 0 makes clouds without colours undefined (0 / 0 converted to an integer); a field named `rgba` is not recognised, so the colours are replaced by that of intensity zero; `pointcloudToPclXYZRGB` reads `colors[i]` unchecked; alpha is lost |
| C84 | `recolorVoxbloxMeshMsgByIntensity` uses the `uint16` numbers of the message as coordinates in metres: neither the block origin nor the scale is applied |
| C85 | the parameter `subsample_factor` is not checked (0: undefined, negative: `std::length_error`); the image encoding is not checked before `ptr<float>`; the principal point is half a pixel off |
| C86 | `getDistanceAndGradientAtPosition` writes its outputs on failure: zero, the distance of an unobserved voxel, and the unscaled partial sums of the gradient; `Vector3d` positions are cast to `float` first |
| C87 | `mini_batch_size` 0 makes `runICP` loop forever; the batch starting exactly at the ratio is still used, so up to a batch more than `subsample_keep_ratio` |
| C88 | `voxel_idx` is computed with a tolerance of 1e-6 voxels but the interpolator's voxel with one of 1e-6 blocks, so near block borders the distance is corrected by the centre of another voxel; `addNormalizedPointInfo` omits the mixed term of the squared cross product (the source says "todo verify correct") |
| C90 | the information vector is in the layer's axes but weights the logarithm in the sensor's axes; consequently yaw-only refinement changes roll and pitch of a tilted sensor, and the server's removal of them ("already removed internally") makes the published correction differ from the pose used |
| C91 | for voxels of different sign `processOpenSet` compares `signum(potential_distance)` with the neighbour's distance instead of its sign and then sets the neighbour to minus or plus the length of the step, so distances beside a sign jump belong to no path and depend on the order of the blocks |
| C92 | `updateVoxelFromNeighbors` adds the unscaled length of the step (1 for a face) whatever the voxel size, and returns at the first neighbour with a smaller distance; voxels added by an incremental update keep too large distances |
| C92 | `processRaiseSet` skips fixed neighbours, which therefore are not queued again; a raised voxel next to a fixed voxel keeps the default distance after an incremental update |
| C94 | `updateTsdfVoxel` averages `sdf` untruncated and clamps the mean, so the map depends on the order of points and on thread scheduling |
| C95 | a bundle of points with depth 0 (weight below the threshold) has weight 0 and the sensor itself as its point; the update divides 0 by 0, and `std::max(-truncation, NaN)` writes minus the truncation distance into the sensor's voxel |
| C96 | after `resetApproxSet` the hash 0 counts as present (C38), so a point in the start voxel (0,0,0) is dropped; `static int64_t reset_counter` in `integratePointCloud` is shared by all fast integrators (and not synchronised) |
| C99 | the evaluation node colours by `grayColorMap(abs(distance) / (2 voxel_size))` without a limit: undefined conversion for distances of 511/510 of that or more (default maps reach 4 voxel sizes, ros_params.h:66-67); distances below minus the truncation distance and interpolated ones are not limited, unlike those in front; NaN without known points |
| C100 | `convertLayerToMesh` and `convertMeshLayerToMesh` append to the mesh handed in: for an empty layer they report success, otherwise the new triangles point at the old vertices; connecting into a mesh that is not empty aborts (mesh_utils.h:111) |
| C101 | `EsdfServer::loadMap` of a file whose ESDF part is short (an ESDF map that is still empty, or any file below 8192 bytes) reports failure after having replaced the TSDF map: the `eof` test in `LoadBlocksFromFile` sees the flag set by reading ahead in chunks (C19) |
| C101 | a failed load is not undone: after a truncated file the TSDF map keeps the blocks read so far |
| C102 | `tsdf_voxels_per_side` of zero passes `isPowerOfTwo`, so instead of the announced fallback to the default the process aborts in the constructor of the layer; the smallest integer makes the test overflow (undefined behaviour); an infinite `tsdf_voxel_size` is accepted |
| C102 | documented but without effect: `output_mesh_as_pointcloud`, `output_mesh_as_pcl_mesh`, `color_ptcloud_by_weight` and the service `generate_esdf`; documented defaults that differ: `truncation_distance` (four voxels, not two), `icp_refine_roll_pitch` (false) |
| C102 | an unknown `method` silently gives the simple integrator, although the default is the merged one and the factory refuses unknown names |
| C102 | the default of `esdf_min_distance_m` (half the truncation distance) is not bounded by `esdf_max_distance_m`: for voxels larger than a metre, TSDF values beyond the maximum distance are taken over |
| C103 | a reset message empties the TSDF map of a receiving server but not its mesh layer: the old meshes stay through `updateMesh` and even `generateMesh`, whose constant `clear_mesh` clears nothing, and are saved to the file |
| C103 | with blocks of one or two voxels per side `updateMesh` and `generateMesh` end the process on ordinary surfaces, because the sender compares the squared length of a vertex in block units with one (C74) |
| C103 | `deserializeMsgToLayer` sets no update flags, so `updateMesh` never meshes blocks received by message (and does not redo those overwritten); only `generateMesh` shows them |
| C103 | removing distant blocks does not mark their lower neighbours: triangles that need the removed voxels stay until the block is written again |
| C104 | `fillMarkerWithMesh` and `fillPointcloudWithMesh` check only that a mesh has some colour or normal; with fewer than vertices they read out of bounds |
| C104 | `fillMarkerWithMesh` appends to the lists of the marker and ignores the indices of the meshes: a marker used again shows removed triangles, a connected mesh shows wrong ones |
| C105 | with `clear_sphere_for_planning`, `addNewRobotPosition` queues voxels; `removeDistantBlocks`, `esdfMapCallback` and `generateEsdf` remove their blocks but not the queue entries, and the next update aborts in a CHECK |
| C105 | `tsdfMapCallback` with a reset does not touch the ESDF, and `updateEsdf` does nothing for an empty TSDF: obstacles of the old map stay in the ESDF |
| C106 | `generatePlausibleViewpoint` takes half of the lower bound as the lower end and the upper bound minus a quarter of the lower one as the size of the box of viewpoints: with bounds 10 and 20 viewpoints lie between 5 and 22.5, with -5 and 5 only between -2.5 and 3.75 |
| C106 | the distance to a cylinder is wrong (C60), so that viewpoints are accepted closer to it than the minimum distance |
| C106 | `generateSDF` with `add_robot_pose` but without `incremental` aborts: `updateFromTsdfLayerBatch` clears the layer but not the queue of the robot positions (C45) |
| C106 | without `incremental` the ESDF made from the occupancy map is discarded, as the batch update from the TSDF that follows writes into the same layer |
| C107 | After a cloud is integrated with the refined pose, distant blocks and meshes are removed, and `newPoseCallback` is called, with the pose that was looked up (tsdf_server.cc:314-322), so blocks within `max_block_distance_from_body` of the refined sensor are lost. `C107_prune_violated`. |
| C108 | `evaluateLayerRmseAtPoses` appends to the vector of details but replaces the entries of the vector of layers, so after a second call with the same vectors they do not correspond; with an empty list of poses old layers remain. `C108_reused_violated`. |
| C109 | `getHierarchicalIndexAlongRay` inherits both defects: a ray parallel to a coordinate plane does not reach the voxel of its end point and lists voxels repeatedly (`C109_parallel_violated`), and voxels beyond index 2^24 are put into the wrong block (`C109_far_violated`). |
| C26, C110 | If the sum of two weights overflows a float, blending two colours gives black with alpha 0 (`C26_blend_float32`). The TSDF update and the merge of bundles stay far from it; merging maps with such weights would not. |
| C25, C110 | In single precision the fused voxel depends on the order of the observations (`C110_order_matters`), within the bound of `C110_order`. |
| C110 | A weight limit above 2^24 has no effect for observation weights of at most 1: the sum no longer changes beyond 2^24 (`C110_absorbed`). |
| C111 | `allocateNewBlock` of an index that has a mesh returns the old mesh with its content (debug builds abort) (`C111_new_violated`). |
| C111 | `Mesh::getMemorySize` counts four bytes of colour for every vertex even if the mesh has no colours (`C111_memory_violated`). |
| C112 | An interpolated value can lie outside the values it interpolates: at x = 12.45 with 0.1 m voxels the offset in the cell is 1.0000038 (`C112_between_violated`). |
| C112 | The `CHECK` of `getQVector` on the offset aborts the process at large coordinates (0.1 m voxels, x = 2097255.5) (`C112_check_violated`). |
| C113 | In float a traversal can end beside the voxel of its end point: from (1/4, 1/2, 1/2) to a point 3.8e-6 below x = 28 and 1e-6 above y = 5 it ends in (28, 4, 2) instead of (27, 5, 2) and never visits the latter (`C113_end_voxel_violated`). |
| C114 | A point measured in a plane x = const of the sensor never reaches its voxel, with or without carving (`C114_plane_violated`); the general statement for the traversal is `C33_plane_ray_stuck_violated`. |
| C115 | An ESDF server with `publish_slices` publishes the slices of TSDF and ESDF twice on every call, since `TsdfServer::publishPointclouds` calls the virtual `publishSlices` again (`C115_slices_twice`). |
| C115 | Clearing the map and the timer of the ESDF publish no clouds, so subscribers keep showing the state before (`C115_clear_violated`, `C115_esdf_timer_violated`). |
| C115 | A surface between two voxels whose distances differ by more than 1.5 voxels may be missing in the surface cloud (`C115_crossing_violated`); the surface cloud shows voxels of weight up to 0.001 that the marker of occupied voxels leaves out (`C115_surface_occupied_violated`); the colour of a cube repeats every five metres of height (`C115_height_violated`). |
| C116 | The nearest-neighbour queries write their output argument even when they return false: in an allocated, never observed voxel a distance of 0 is written (`C116_output_violated`). |
| C116 | getNearestDistanceAndWeight returns true for a voxel that was never observed, getNearestDistance false (`C116_unobserved_violated`). |
| C117 | The interpolated colour can be darker than all eight voxels: 99 from grays of 100 and 255 (`C117_colour_violated`). |
| C117 | The interpolated weight of observed voxels can be negative (`C117_weight_violated`). |
| C117 | Far from the origin (61 km with voxels of 0.35 m) the interpolated colour component exceeds 255 and its conversion to a byte is undefined (`C117_undefined_violated`). |
| C118 | interpolator_inl.h:62-66: in nearest-neighbour mode `pos` and `pos + offset` can be looked up in the same voxel (or two apart) when `pos` is at a voxel border. With voxels of 0.1 m the gradient of a ramp at x = 7 m is half its slope. |
| C118 | interpolator_inl.h:57, 67: `*grad` is overwritten before the query is known to succeed; after a failure it holds zeros or differences that have not been divided by the voxel size. |
| C119 | interpolator_inl.h:117-137: in the fall-back of the adaptive query `pos` and `pos + offset` can be looked up in the same voxel when `pos` is at a voxel border. With voxels of 0.1 m and nothing observed below x = 7.2 m, the gradient of a ramp at x = 7.2 m is reported as zero. |
| C120 | voxel_utils.cc:11-20, 35-37: merging ignores the limits of the integrators. Two voxels of the largest weight 10000 give weight 20000; two voxels at the upper limit of the log-odds give twice the limit, and further hits leave it there. |
| C120 | voxel_utils.cc:13-15: in `float`, merging a voxel that was never observed changes the distance: 0.03 m with weight 5 loses one unit in the last place. Two voxels at 0.01 m with weights 1 and 5 give a smaller distance. |
| C121 | visualize_tsdf.cc:164-169: the polygon mesh is computed and converted, but `mesh_msg` is published on the topic advertised for `pcl_msgs/PolygonMesh`; with checked types ROS aborts or drops it, and the polygon mesh never appears. |
| C121 | visualize_tsdf.cc:62-77: colour mode `lambert_color`, known to the servers, shuts the visualizer down; the files are still written afterwards. |
| C74 | voxblox_mesh_visual.cc:68, 84-90: with normal colouring the display converts a component of a computed normal to a byte without a bound; for blocks of about 15 pm the squared length underflows, the normal is too long and the conversion undefined. Blocks of 0.125 m or more within 50 blocks of the origin are proved safe. |
| C104 | `heightColorFromVertex` maps 10 m to the hue 1, which is the hue 0 of -1 m: everything above and everything below the range is red (mesh_vis.h:112-122, color_maps.h and `rainbowColorMap`). |
| C69 | `RainbowColorMap` and its inverse give the same red for the lower and the upper limit and for everything beyond (color_maps.h:46-62). |
| C122 | simulation_server.cc:26 reads the side of a block again after `getTsdfMapConfigFromRosParam` replaced one that is no power of two, and after the checks of :91-96: the server starts, and aborts when an integrator asks for the first voxel (common.h:237). |
| C123 | `intensity_max_value` sets both the scale of incoming clouds and of the intensity mesh; a value below `intensity_min_value` (10 by default) makes every intensity white, an equal value makes colouring undefined (0 / 0 is used as an index): `C123_scale_violated`, `C123_equal_limits_violated` |
| C123 | intensity_server.cc:52-61: only blocks whose distances changed are sent, so intensities measured after an update are not shown until the map changes there: `C123_images_not_shown`, `C123_images_violated` |
| C123 | intensity_server.h:25-26: `generateMesh` is not overridden: its mesh never reaches `intensity_mesh`, and since it resets the marks neither does the next update: `C123_generate_not_shown`, `C123_generate_violated` |
| C123 | intensity_server.cc:12-14, tsdf_server.cc:305-319, :628-637: `clear` and the removal of distant blocks keep the intensity layer: `C123_intensities_kept` |
| C124 | `PlaneObject` divides only the offset by the length of the normal, not the scalar product with the point, and its constructor accepts lengths up to 1e-3 off. The reported distance is then wrong by that relative error times the distance from the origin; even the centre of the plane is not on it (`C124_normal_violated`). The constructor without colour checks nothing. |
| C125 | layer_inl.h:33-38: a finite voxel size of 2^128 in a header passes both checks and makes a layer of infinite voxels (`C125_infinite_violated`); layer_inl.h:239-240 compares with the absolute tolerance 2^-23: a layer made from a header with voxel size 2 + 2^-23 is not compatible with that header, so its own blocks are refused (`C125_self_violated`). |
| C126 | voxblox_eval.cc:203: with display and `recolor_by_error`, one known point whose distance is 511/510 of the band or more makes the whole program undefined (`C126_paint_violated`, from C99); voxblox_eval.cc:141-143: `lambert_color` and misspelt modes silently give grey (`C126_color_modes`). |
| C128 | `Print` shows a mean over all samples with the deviation of the last 50 around their own mean: one sample of 100 s followed by fifty of 1 s are shown as 2.941176 +- 0.000000; queries by tag create the tag and so a row |
| C130 | tsdf_to_esdf.cc:33 ignores the answer of `LoadLayer`: a missing file, or one with another kind of layer, makes :35 use a null pointer (`C130_missing_violated`); a file that was cut off is converted as far as it was read and the program returns 0 (`C130_truncated`, `C130_truncated_violated`) |
| C131 | simulation_server.cc:283-284 evaluates with the default mode, which leaves out voxels behind the surface of the tested map: a map under test that is negative everywhere gets RMSE 0 whatever the truth (`C131_numbers_violated`) |
| C132 | tsdf_integrator.cc:564-569 and tsdf_server.cc:628-637: the sets of seen voxels are not reset when the map is cleared or the layer is replaced; with `clear_checks_every_n_frames` of 3 or more a repeated scan leaves the cleared map empty (`C132_second_call_violated`, general) |
| C133 | A mesh message for which no transform is available is dropped; the sender does not repeat its blocks, so they stay missing. After a reset of a display the blocks shown before are missing likewise, until they change (`C133_reset_violated`). Frame nodes are not destroyed on reset. The instance number wraps after 2^32 visuals, after which `createManualObject` can throw on a duplicate name. |
| C134 | `TsdfIntegratorBase::Config::print` leaves out `integration_order_mode`. |

## Axioms per theorem

From `#print axioms`, for every theorem in the manifest. No theorem depends on any other axiom.

* no axioms (1): C07_distances

* `propext` (14): C01_huge_block_violated, C06_zero_side_refused, C07_table_complete, C07_connectivity_prefixes, C07_symmetric, C27_freespace_clears, C27_nan_accepted, C30_unknown_mode_refused, C32_no_deadlock, C38_single_bin_violated, C81_prompt, C82_esdf_silent_violated, C96_shared_counter_violated, C126_color_modes

* `Quot.sound`, `propext` (34): C03_zero_side_accepted, C06_offset_between, C09_parent_violated, C11_wrong_length_refused, C30_sorted_order, C30_nan_undefined, C31_one_thread_per_position, C32_same_index_same_block, C32_different_index_different_block, C32_map_blocks_kept, C32_merge_result, C39_index_hash_range, C39_hash_collides, C50_distinct, C54_concatenate, C54_getMesh_reused_wrong, C55_one_per_cell, C60_plane_parallel, C60_world_distance, C61_no_pose, C61_body_pose, C61_lines, C66_varint_truncated, C72_odd, C72_first, C72_zero_noise, C72_roll_ignored, C81_order, C81_insert, C81_kept, C96_cast_ray_prefix, C97_factory, C97_corrected, C111_remove

* `Classical.choice`, `Quot.sound`, `propext` (854): C01_valid_voxel_iff, C01_voxel_to_linear_to_voxel, C01_linear_to_voxel_to_linear, C01_no_aliasing, C02_split_recombine_partial, C02_pair_roundtrip_partial, C02_split_violated, C03_local_index, C03_other_sides_refused, C04_center_roundtrip, C04_origin_roundtrip, C04_origin_robust, C04_point_in_reported_cell, C04_index_of_cell, C05_truncated_in_block, C05_center_roundtrip, C05_far_point_undefined, C06_neighbor_position, C06_occ_neighbor_agrees, C06_hierarchical_agrees_with_global, C07_occ_enumeration, C08_tsdf_roundtrip, C09_esdf_roundtrip_partial, C09_what_survives, C10_occupancy_roundtrip, C10_intensity_roundtrip, C11_right_length_accepted, C11_empty_payload, C12_layer_is_finite_map, C12_insert_over_existing_debug, C13_updated_query, C13_all_blocks_query, C13_clear_one_flag, C14_remove_distant, C14_clear_distant_mesh, C15_copy_partial, C15_metadata_violated, C15_merge_from_copy_transfers_nothing, C16_incompatible, C16_missing, C16_prohibit_existing, C16_replace_existing, C16_discard_existing, C16_merge_existing_partial, C16_merge_unmarked_ignored, C16_merge_close_size_aborts, C17_save_load, C17_save_load_into, C18_save_subset, C19_first_compatible_partial, C19_first_compatible_into_partial, C19_single_only_first, C19_small_file_violated, C20_truncated_load, C20_truncated_load_into, C21_weighted_mean, C21_commutative, C21_associative, C21_zero_neutral, C21_both_zero, C21_esdf, C21_occupancy, C22_merge_partial, C22_tsdf_partial, C22_unmarked, C22_integrated, C22_not_transferred, C23_effect_partial, C23_lost, C24_bounds, C24_bounds_fresh, C24_weight_monotone, C24_negligible_total, C24_zero_weight_exact_partial, C24_zero_weight_violated, C25_weighted_mean, C25_order_independent, C25_distance_is_projection, C25_bundle_mean, C25_clearing_bundle_first, C26_blend_between, C26_zero_total_undefined, C26_update_defined, C26_sequence_defined, C26_bundle_defined, C26_merge_defined, C26_blend_float32, C26_sequence_float32, C26_bundle_float32, C26_merge_float32, C27_classification, C27_weight_nonneg, C27_weight_value, C28_no_duplicates, C28_complete, C28_no_deadlock, C28_terminates, C29_mixed_order, C30_any_mode_dispatch, C31_each_bundle_once, C31_needs_same_order, C31_bundles_partition, C33_unit_steps_partial, C33_axis_parallel_violated, C33_no_jumps, C33_max_length_never_ends, C33_plane_ray_stuck_violated, C33_parallel_end_missed_violated, C34_ends_in_end_voxel_partial, C34_cells_partial, C34_edge_missed, C34_interior_visited_partial, C34_measured_point_on_ray, C34_clearing_ray_short, C35_nan_is_undefined, C35_finite_safe_partial, C36_refines_stable_priority_queue, C36_entries_sorted, C36_push_conserves, C36_bucket_monotone, C37_no_abort_no_ub, C37_default_then_configured, C37_front_of_empty_aborts, C37_zero_buckets_abort, C37_default_constructed_undefined, C37_zero_maximum_undefined, C38_no_false_positive_partial, C38_full_resets_only, C38_zero_hash_violated, C39_never_out_of_range, C39_present_after_insert, C39_replace_then_present, C39_array_slot, C39_hash_separates, C40_limits, C40_observed, C40_direction, C40_saturation, C40_logodds_sign, C40_logodds_roundtrip, C40_logodds_mono, C41_once_hits_win, C41_end_point_hit_partial, C41_only_traversed, C41_short_ray_violated, C41_repeated_end_violated, C42_batch, C43_open, C43_raise, C43_update, C43_occ_open, C43_occ_update, C44_batch, C44_incremental_partial, C44_incremental_counterexample, C45_counterexample, C45_sequences_partial, C46_listed_partial, C46_lost, C46_unlisted, C46_propagation_counterexample, C47_trilinear, C47_bounded, C47_exact_at_center, C47_exact_on_affine, C47_colour_defined, C48_cell_exists_unique, C48_returns_surrounding, C48_refuses, C48_fresh_refused, C49_interpolated_exact, C49_nearest_exact_partial, C49_nearest_border_violated, C49_refuses, C49_adaptive_exact_partial, C50_rows, C50_edges, C50_used_iff, C50_segment_unique, C50_closed, C50_orientation_upper, C50_orientation_lower, C51_on_edge, C51_symmetric, C51_defined, C51_nan_undefined, C51_grid, C52_each_cube_once, C52_border_corner, C52_inside_corner, C52_unobserved_cube, C52_block_mesh, C52_vertex_edges, C52_colors, C52_tsdf, C52_esdf, C52_voxel_colors, C53_incremental_partial, C53_call, C53_violated, C54_block, C54_generate, C54_concatenate_abort, C54_getMesh, C55_connected_partial, C55_data_partial, C55_unit, C55_close, C55_grouping, C55_no_normals, C56_sphere_partial, C56_exact, C56_asymmetric, C56_within, C56_fill, C56_clear, C57_bounds_partial, C57_empty, C58_counts, C58_max, C58_min_zero, C58_min_partial, C58_min_violated, C58_rmse_exact, C58_rmse_zero, C58_rmse_underflow, C58_error_layer, C58_error_tsdf, C58_error_esdf, C58_symmetric, C58_unobserved_counted, C58_size_unchecked, C58_side_unchecked, C59_outcome, C59_esdf_partial, C59_tsdf_partial, C59_only_below_face, C59_skip_violated, C59_no_data_violated, C59_max_zero, C59_weights_overrun, C59_bad_axis, C60_sphere_distance, C60_cube_distance, C60_plane_distance, C60_cylinder_distance_partial, C60_cylinder_cap, C60_cylinder_edge, C60_cylinder_inside, C60_sphere_ray, C60_sphere_inside, C60_cube_ray_partial, C60_cube_nan, C60_cube_false_hit, C60_plane_ray, C60_cylinder_ray_partial, C60_cylinder_vertical, C60_cylinder_steep, C60_room, C61_view_partial, C61_focal_length_partial, C61_near_zero, C61_violated, C61_aabb, C61_body_view_partial, C61_far_points, C62_transmits_tsdf, C62_transmits_occ, C62_transmits_esdf_partial, C62_update, C62_reset, C62_reset_full, C62_merge_partial, C62_merge_dropped, C62_rejects, C62_decodes, C62_corrupt, C62_duplicates, C62_nan_accepted, C63_near, C63_iff, C63_tsdf_partial, C63_occ_partial, C63_esdf_partial, C63_detects, C63_symmetric, C63_voxel_symmetric, C63_reflexive_tsdf_partial, C63_reflexive_esdf_partial, C63_reflexive_occ_partial, C63_hallucinated, C63_not_reflexive, C63_not_transitive, C63_other_side, C63_other_type, C63_memory, C64_moves, C64_centers_partial, C64_not_centered, C64_empty, C65_transform_partial, C65_missed, C65_identity_partial, C65_naive_wrong_frame, C66_varint_roundtrip, C66_varint_injective, C66_block_message, C67_center, C67_neighbour_partial, C67_hit_partial, C67_other_block, C67_violated, C67_sizes, C67_miss, C67_bounds, C68_result, C68_terminates, C68_terminates_exact, C68_terminates_rounded, C68_on_ray, C68_covered, C68_accurate, C68_beyond_max, C68_starts_inside, C68_outside_map, C68_stuck, C69_rainbow_defined, C69_rainbow_hue, C69_rainbow_continuous, C69_gray_partial, C69_gray_undefined, C69_clamped_defined, C69_grayscale_monotone, C69_clamped_hues, C69_ends_violated, C69_equal_limits, C69_ironbow, C69_ironbow_brighter, C69_ids_defined, C69_irrational_hue, C69_ids_unique, C69_zero_items, C69_rainbow_double, C70_robot, C71_tsdf_partial, C71_esdf_partial, C71_reached, C71_missed, C71_negative_truncation, C72_cloud_partial, C72_field_of_view, C72_nan_hides, C72_noisy_partial, C72_noisy_direction, C73_nearest, C73_representable, C73_sqrt, C73_faithful, C73_odd, C73_esdf, C73_point, C73_center, C73_center_violated, C73_origin, C73_floor_violated, C73_lookup, C73_stored_index, C74_accepted, C74_accepted_violated, C74_defined, C74_colors_violated, C74_content, C74_colors, C74_color_roundtrip, C74_normals, C74_normal_colors, C74_tiny_violated, C74_precision_violated, C74_sync, C74_send_keeps, C74_removed_violated, C74_late_violated, C74_malformed_violated, C74_marching_cubes, C75_color, C75_near_surface, C75_distance, C75_distance_near, C75_occupied_tsdf, C75_esdf, C75_free_esdf, C75_intensity, C75_occupied, C75_distance_within_color, C75_same_voxels_violated, C75_unobserved_occupied, C75_slice_tsdf_partial, C75_slice_esdf_partial, C75_slice_upper_tsdf, C75_slice_upper_esdf, C75_slice_centre_tsdf, C75_slice_violated, C76_tsdf_shown, C76_esdf_shown, C76_tsdf_cloud, C76_esdf_cloud, C76_monotone, C76_above_range, C76_below_range, C76_nan_aborts, C76_zero_maximum_violated, C76_flag_violated, C77_roundtrip, C77_layer, C77_connected, C77_incomplete, C77_short_normals, C77_short_colors, C77_exact_violated, C77_full_disk_violated, C77_large_index_violated, C78_roundtrip, C78_count_partial, C78_count_violated, C78_refused, C78_kind, C78_header_once, C78_closed_violated, C78_empty_violated, C79_statistics, C79_max_violated, C79_handles, C79_fresh, C79_recorded, C79_query_creates, C79_hz_unused_violated, C79_hz, C79_scope, C79_stopped, C79_stop_violated, C79_hz_violated, C79_unknown_handle, C79_total_double, C79_rolling_double, C79_hz_double, C79_seconds_double, C80_found, C80_fails_iff, C80_neighbours, C80_ratio, C80_forgetting, C80_failed, C80_closest_violated, C80_backwards_violated, C80_order_violated, C80_zero_tolerance_violated, C81_spacing, C81_poses, C81_blocked_violated, C81_unstamped_violated, C81_restart_violated, C81_freespace_violated, C82_mirror, C82_removed_violated, C82_replaced_violated, C82_relay_violated, C82_resend_violated, C82_esdf_clear_violated, C82_clear, C83_received, C83_sizes, C83_defined_partial, C83_zero_max_violated, C83_intensity_range, C83_rgba_violated, C83_resent, C83_short_violated, C83_resent_intensity, C84_recolored, C84_defined, C84_violated, C84_far_violated, C84_index_violated, C84_negative_violated, C85_samples, C85_zero_violated, C85_negative_violated, C85_encoding_violated, C85_centre_violated, C86_nearest, C86_interpolated, C86_consistent, C86_gradient, C86_failure_violated, C86_rounded, C86_rounded_violated, C86_weight, C86_batch_distance, C86_batch_gradient, C86_batch_observed, C87_batches, C87_terminates, C87_empty_batches_hang, C87_enough_matches, C87_pose_unchanged, C87_updates_le, C87_pose_kept, C87_single_thread, C88_nearest_on_plane_partial, C88_matched_iff, C88_unknown, C88_flat, C88_border_violated, C88_sources, C88_information, C88_rotation_information_partial, C88_rotation_information_violated, C89_least_squares, C89_least_squares_yaw, C89_recovers_motion, C89_sizes_checked, C90_weights, C90_rigid, C90_aligned, C90_full, C90_never_overshoots, C90_yaw_only_partial, C90_yaw_only_violated, C90_axes_partial, C90_axes_violated, C90_correction, C90_correction_level, C90_correction_violated, C91_batch, C91_exact, C91_parents, C91_smooth, C91_jump_violated, C92_unchanged_partial, C92_raise_violated, C92_step_violated, C92_first_neighbor_violated, C92_parent_direction, C92_parent_modes, C93_scan_adds, C93_mismatch_refused, C93_bounds, C93_never_fails, C93_terminates, C93_measured_voxel_observed_partial, C94_schedule_independent_partial, C94_schedule_violated, C95_bundles_added, C95_anti_grazing, C95_bounds, C95_never_fails, C95_weightless_point_violated, C96_fast_adds, C96_reset_forgets, C96_starts_covered, C96_origin_point_lost_violated, C96_bounds, C96_never_fails, C96_terminates, C96_resets_every_n, C98_simple_visits_partial, C98_rejected, C98_fast_visits_partial, C98_bundle_visits_partial, C98_clearing_bundle_visits_partial, C99_statistics, C99_none_known, C99_order, C99_bounded, C99_band_violated, C99_recolor_partial, C99_recolor_undefined, C100_mesh, C100_isosurface, C100_no_surface, C100_connected_mesh, C100_connected, C100_cloud, C100_abort, C100_polygons, C100_connected_polygons, C100_reused_violated, C101_no_file, C101_tsdf_server, C101_esdf_server_partial, C101_default_side_partial, C101_tsdf_reads_esdf_file, C101_esdf_reads_tsdf_file, C101_small_file_violated, C101_last_block_violated, C101_other_configuration, C101_truncated, C101_partly_loaded_violated, C101_new_server_violated, C102_same_base, C102_starts, C102_refused, C102_zero_violated, C102_geometry, C102_documented, C102_declared, C102_only_these, C102_ignored_violated, C102_defaults_violated, C102_method, C102_colors, C102_timers, C102_derived, C102_truncation, C102_esdf_default, C102_esdf_range_violated, C102_topics, C103_determined, C103_generate, C103_file, C103_no_ghosts, C103_prune, C103_update_partial, C103_received_not_meshed, C103_reset_keeps_meshes, C103_words, C103_stale_violated, C103_received_violated, C103_reset_violated, C103_simple_marked, C103_merged_marked, C103_fast_marked, C103_never_fails_partial, C103_file_never_fails_partial, C103_small_blocks_violated, C104_marker, C104_balanced, C104_triangles, C104_cloud, C104_refused, C104_colors_violated, C104_reused_violated, C104_shared_violated, C104_height_partial, C104_height_distinct, C104_height_violated, C105_handled_partial, C105_safe_partial, C105_pruned, C105_no_ghosts, C105_generate, C105_update, C105_clear, C105_batch, C105_sequence, C105_prune_violated, C105_message_violated, C105_generate_violated, C105_stale_violated, C105_max_distance, C106_attempts, C106_viewpoint_partial, C106_direction, C106_box, C106_in_bounds_partial, C106_outside_violated, C106_coverage_violated, C106_cylinder_violated, C106_views, C106_count, C106_occupancy_ignored, C106_safe_partial, C106_batch_violated, C107_rigid, C107_frames_partial, C107_odometry_partial, C107_history, C107_off, C107_unmatched, C107_prune_partial, C107_prune_violated, C108_each, C108_incompatible, C108_optional, C108_self, C108_none, C108_reused_violated, C109_sorted_partial, C109_ray_partial, C109_other_sides, C109_parallel_violated, C109_far_violated, C109_point, C110_distance, C110_fusion, C110_order, C110_order_matters, C110_end_to_end, C110_absorbed, C111_invariant, C111_get, C111_allocate, C111_size, C111_new_partial, C111_new_violated, C111_write, C111_distant, C111_lists, C111_stays, C111_detached, C111_coordinates, C111_values, C111_memory_partial, C111_memory_violated, C112_value, C112_defined_partial, C112_bounded_partial, C112_constant, C112_between_violated, C112_check_violated, C113_traversal, C113_interior_visited, C113_end_voxel_violated, C113_coverage, C114_measured_voxel_visited, C114_measured_voxel_observed, C114_plane_violated, C115_faithful, C115_each_once_partial, C115_slices_twice, C115_occupancy_marker, C115_crossing_shown, C115_crossing_violated, C115_surface_occupied, C115_surface_occupied_violated, C115_current_partial, C115_timer_current, C115_clear_violated, C115_esdf_timer_violated, C115_height_violated, C116_nearest, C116_agree, C116_output_partial, C116_output_violated, C116_unobserved_violated, C116_weight_tells, C116_esdf_weight, C117_voxel_partial, C117_colour_violated, C117_weight_violated, C117_undefined_violated, C118_plane, C118_nearest_partial, C118_border_violated, C118_output_violated, C119_absent_partial, C119_plane_partial, C119_border_violated, C120_merge, C120_sequence, C120_order, C120_esdf, C120_limits_partial, C120_limits_violated, C120_exact_violated, C120_underflow_violated, C121_products_partial, C121_default_threshold, C121_type_violated, C121_color_modes, C121_mesh_file, C121_saved, C121_refused, C122_starts, C122_refused, C122_consistent, C122_occupancy, C122_parameters, C122_side_partial, C122_side_violated, C123_starts, C123_parameters, C123_scale, C123_scale_violated, C123_equal_limits_violated, C123_update, C123_same_blocks, C123_images_not_shown, C123_images_violated, C123_generate_not_shown, C123_generate_violated, C123_intensities_kept, C124_sphere, C124_cube, C124_plane, C124_normal_violated, C124_cylinder_partial, C124_cylinder_cap_partial, C124_world, C125_value, C125_nearest, C125_layer, C125_block, C125_self_compatible_partial, C125_self_violated, C125_infinite_violated, C126_frame, C126_report, C126_silent, C126_display, C126_completes_partial, C126_paint_violated, C126_saved, C126_refused, C127_topic, C127_rigid, C127_unique, C127_tf, C128_table, C128_aligned, C128_width, C128_deviation_violated, C128_deviation_partial, C129_axis, C129_plane, C129_reported, C129_refused, C130_converts_partial, C130_refused, C130_missing_violated, C130_truncated, C130_truncated_violated, C131_viewpoints, C131_truth, C131_numbers_partial, C131_numbers_violated, C131_display, C131_run, C132_after_change_partial, C132_second_call_violated, C133_objectName, C133_names_partial, C133_shown, C133_follows, C133_reset_violated, C133_dropped_violated, C133_nodes_violated, C133_names_violated, C134_tsdf_partial, C134_order_violated, C134_digits_violated, C134_same_text, C134_map, C134_mesh
