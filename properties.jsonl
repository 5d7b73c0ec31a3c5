{"id": "C01", "title": "Linear and 3-D voxel addressing of a block are inverse", "statement": "Inside a block, converting a voxel's 3-D index to its linear position and back yields the same index, and converting any linear position below num_voxels to 3-D and back yields the same position; hence no two voxels of a block share storage and no stored voxel is unreachable.", "quantifier": "every block side length from 1 to 1290 (at most 2^31 voxels; beyond that the int conversions in the code overflow), every valid voxel index, every valid linear index", "why_tests_cant": "A test uses one or two side lengths (8, 16) and samples voxels; collisions for other side lengths or corner voxels stay invisible.", "anchors": ["voxblox/include/voxblox/core/block_inl.h: computeLinearIndexFromVoxelIndex, computeVoxelIndexFromLinearIndex, isValidVoxelIndex", "voxblox/include/voxblox/core/block.h: isValidLinearIndex"]}
{"id": "C02", "title": "Global voxel index splits into block and voxel index and recombines", "statement": "Splitting a global voxel index into (block index, voxel index) and recombining gives the same global index, and splitting the global index made from a valid (block, voxel) pair gives that pair back. (Violated by the code once the index leaves the exactly representable float range.)", "quantifier": "every global voxel index that fits the index types, every power-of-two block side", "why_tests_cant": "The failing indices lie beyond 2^24 voxels from the origin; the domain is 2^192 triples and tests stay near the origin.", "anchors": ["voxblox/include/voxblox/core/common.h: getBlockIndexFromGlobalVoxelIndex, getLocalFromGlobalVoxelIndex, getBlockAndVoxelIndexFromGlobalVoxelIndex, getGlobalVoxelIndexFromBlockAndVoxelIndex"]}
{"id": "C03", "title": "The local voxel index of a global index is its Euclidean remainder and always addresses a real voxel", "statement": "For power-of-two block sides the local index of any global index, including negative ones, lies in [0, side) and differs from the global index by a multiple of the side; any other positive side is refused by a fatal check.", "quantifier": "every int64 global index, every positive block side", "why_tests_cant": "Sign handling of bit masks must hold on both sides of zero for every value, a test samples a few.", "anchors": ["voxblox/include/voxblox/core/common.h: getLocalFromGlobalVoxelIndex, isPowerOfTwo"]}
{"id": "C04", "title": "Voxel centres map back to their own voxel and every point is inside its reported voxel", "statement": "The centre of the voxel with a given global index is mapped back to exactly that index, the origin of a block is mapped back to that block, and any point lies in the half-open cell of its reported grid index up to the documented tolerance of 1e-6 cells.", "quantifier": "every grid index, every positive grid size, every real point (exact arithmetic)", "why_tests_cant": "Uncountably many points and grid sizes; only sampled by tests.", "anchors": ["voxblox/include/voxblox/core/common.h: getGridIndexFromPoint, getCenterPointFromGridIndex, getOriginPointFromGridIndex, getGridIndexFromOriginPoint"]}
{"id": "C05", "title": "Coordinate lookup inside a block never leaves the block", "statement": "Accessing a voxel of a block by coordinates always resolves to a valid voxel of that block; when the point is inside the block it is the voxel containing the point (within tolerance); when it is outside, the nearest boundary voxel per axis.", "quantifier": "every point, every block origin, every block side and positive voxel size", "why_tests_cant": "An out-of-range access is only visible for particular points near faces; tests cannot enumerate them.", "anchors": ["voxblox/include/voxblox/core/block_inl.h: computeTruncatedVoxelIndexFromCoordinates", "voxblox/include/voxblox/core/block.h: getVoxelByCoordinates, computeVoxelIndexFromCoordinates"]}
{"id": "C06", "title": "Neighbour lookup across block borders agrees with global index arithmetic", "statement": "The neighbour of (block, voxel) in any of the 26 directions is a valid voxel index whose global index equals the original global index plus the direction offset; the occupancy-ESDF neighbour routine and the shared neighbour tool give the same answer.", "quantifier": "every block index, every valid voxel index, every direction, every block side", "why_tests_cant": "Border crossings in x, y, z combine with signs and side lengths; unit tests cover one block size and few voxels.", "anchors": ["voxblox/include/voxblox/utils/neighbor_tools.h: getFromBlockAndVoxelIndexAndDirection, getFromBlockAndVoxelIndex, getFromGlobalIndex", "voxblox/src/integrator/esdf_occ_integrator.cc: getNeighbor, getNeighborsAndDistances"]}
{"id": "C07", "title": "Neighbourhood tables are complete, duplicate free, symmetric and correctly ordered", "statement": "The 26 offsets are pairwise distinct and are exactly the nonzero vectors of {-1,0,1}^3; the first 6 are exactly the face neighbours and the first 18 exactly the face and edge neighbours; the table is closed under negation; each entry's distance is the Euclidean length of its offset.", "quantifier": "every table entry and every pair of entries, every connectivity (6, 18, 26)", "why_tests_cant": "A swapped sign in a single entry only biases some distances; no end-to-end test notices.", "anchors": ["voxblox/src/utils/neighbor_tools.cc: kOffsets, kDistances", "voxblox/include/voxblox/utils/neighbor_tools.h: NeighborhoodLookupTables, Neighborhood"]}
{"id": "C08", "title": "TSDF blocks survive serialization unchanged", "statement": "Serializing a TSDF block to integers and deserializing into a block of the same size restores every voxel's distance, weight (bit for bit) and colour including alpha.", "quantifier": "every block content (every bit pattern of distance, weight and colour), every block size", "why_tests_cant": "2^96 states per voxel; a bug in one colour shift or one word offset needs exhaustive coverage.", "anchors": ["voxblox/src/core/block.cc: Block<TsdfVoxel>::serializeToIntegers, Block<TsdfVoxel>::deserializeFromIntegers"]}
{"id": "C09", "title": "ESDF blocks survive serialization unchanged", "statement": "Serializing an ESDF block and deserializing restores distance, observed, hallucinated, in_queue, fixed and the parent direction of every voxel. (Violated by the code: negative y or z components of the parent direction corrupt the higher components.)", "quantifier": "every voxel state with parent direction components in the signed byte range", "why_tests_cant": "Existing round-trip tests use parent directions that survive; the corruption depends on the sign combination of components.", "anchors": ["voxblox/src/core/block.cc: serializeDirection, deserializeDirection, Block<EsdfVoxel>::serializeToIntegers, Block<EsdfVoxel>::deserializeFromIntegers"]}
{"id": "C10", "title": "Occupancy and intensity blocks survive serialization unchanged", "statement": "Serializing an occupancy (respectively intensity) block and deserializing it restores every voxel's log-odds and observed flag (respectively intensity and weight).", "quantifier": "every block content, every block size", "why_tests_cant": "All bit patterns of the payload words must survive; sampling cannot exclude a masked bit.", "anchors": ["voxblox/src/core/block.cc: Block<OccupancyVoxel>/Block<IntensityVoxel>::serializeToIntegers, deserializeFromIntegers"]}
{"id": "C11", "title": "Voxel payloads of the wrong length are refused before any voxel is written", "statement": "Deserializing a word list whose length differs from (voxels per block) x (words per voxel) terminates with a fatal check and never reads out of range; a list of the right length never triggers the check and never reads out of range.", "quantifier": "every word list, every voxel type, every block size", "why_tests_cant": "Malformed inputs are unbounded in number.", "anchors": ["voxblox/src/core/block.cc: deserializeFromIntegers (all voxel types)"]}
{"id": "C12", "title": "A layer behaves like a finite map from block index to block", "statement": "Under any sequence of allocate, insert, remove, remove-all and lookup operations a layer answers exactly like a mathematical finite map: lookups return the most recent surviving block, allocation of an existing index returns the existing block untouched, allocation of a missing one gives a block of default voxels whose origin is index times block size, insertion over an existing index is fatal in debug builds and otherwise ignored (the existing block stays), and the number of allocated blocks equals the number of live keys.", "quantifier": "every operation sequence, every block index", "why_tests_cant": "Histories are unbounded; tests exercise a handful of orders.", "anchors": ["voxblox/include/voxblox/core/layer.h: getBlockPtrByIndex, allocateBlockPtrByIndex, allocateNewBlock, insertBlock, removeBlock, removeAllBlocks, hasBlock, getNumberOfAllocatedBlocks"]}
{"id": "C13", "title": "Update-flag queries return exactly the flagged blocks", "statement": "Asking a layer for the blocks updated for a consumer (map, mesh, ESDF) returns exactly the block indices whose flag for that consumer is set, each once; clearing one consumer's flag leaves the other consumers' flags and all voxels as they were.", "quantifier": "every layer content, every consumer, every history of set/clear operations", "why_tests_cant": "Cross-talk between consumers only appears for particular interleavings of flag operations.", "anchors": ["voxblox/include/voxblox/core/layer.h: getAllUpdatedBlocks, getAllAllocatedBlocks", "voxblox/include/voxblox/core/block.h: updated, Update::Status"]}
{"id": "C14", "title": "Removing distant blocks keeps exactly the near blocks", "statement": "After removing blocks farther than d from a centre, a block is present if and only if it was present before and its origin is within d of the centre; surviving blocks are unchanged. In a mesh layer exactly the mesh blocks beyond the distance are emptied and marked updated; all others are unchanged.", "quantifier": "every layer content, every centre, every distance", "why_tests_cant": "Needs all combinations of contents and centres; iterator invalidation style errors depend on content.", "anchors": ["voxblox/include/voxblox/core/layer.h: removeDistantBlocks", "voxblox/include/voxblox/mesh/mesh_layer.h: clearDistantMesh"]}
{"id": "C15", "title": "Copying a layer yields an equivalent, independent layer", "statement": "A copied layer has the same blocks, voxels and block metadata as the original (in particular merging from the copy equals merging from the original), and later changes to either do not affect the other. (Violated by the code for block metadata: the copy drops the has-data mark and the update flags, so merging from the copy transfers nothing.)", "quantifier": "every layer content, every later use of the copy", "why_tests_cant": "The loss is silent for every accessor a test compares (isSameLayer in tests compares metadata only on blocks that happened to be unset).", "anchors": ["voxblox/include/voxblox/core/layer_inl.h: Layer(const Layer&)", "voxblox/include/voxblox/core/block_inl.h: mergeBlock"]}
{"id": "C16", "title": "Block merge strategies on load do what they promise", "statement": "Adding a stored block to a layer: prohibit aborts exactly when the block exists and otherwise inserts; replace always ends with the stored block; discard keeps the existing block when there is one; merge combines voxel by voxel when the block exists and inserts otherwise; incompatible blocks are rejected with the layer unchanged.", "quantifier": "every layer content, every stored block, every strategy", "why_tests_cant": "Product of strategies, existing/absent, compatible/incompatible, data/no data.", "anchors": ["voxblox/include/voxblox/core/layer_inl.h: addBlockFromProto, isCompatible"]}
{"id": "C17", "title": "Saving a layer to a file and loading it gives the layer back", "statement": "Saving a layer (whole) and loading the file into an empty layer of the same configuration returns success and yields the same block set with identical voxels and has-data marks; byte-level framing (message count, size prefixes, fields) is decoded to exactly what was encoded.", "quantifier": "every layer content, every block size", "why_tests_cant": "Framing bugs depend on message sizes crossing varint widths and on content bytes.", "anchors": ["voxblox/include/voxblox/core/layer_inl.h: saveSubsetToFile, saveBlocksToStream", "voxblox/include/voxblox/io/layer_io_inl.h: LoadBlocksFromFile, LoadBlocksFromStream, LoadLayer", "voxblox/src/utils/protobuf_utils.cc", "voxblox/proto/voxblox/Block.proto", "voxblox/proto/voxblox/Layer.proto"]}
{"id": "C18", "title": "Saving a subset of blocks stores exactly the requested existing blocks", "statement": "Saving a list of block indices writes a header count and exactly the blocks that exist among the requested ones; loading the result yields the restriction of the layer to the requested indices.", "quantifier": "every layer content, every requested index list", "why_tests_cant": "Missing and duplicate requested indices combine freely.", "anchors": ["voxblox/include/voxblox/core/layer_inl.h: saveSubsetToFile, saveBlocksToStream"]}
{"id": "C19", "title": "Files containing several layers load the requested one", "statement": "When several layers are appended to one file, loading with multiple-layer support skips exactly the layers that are incompatible (type, voxel size or side) and loads the first compatible one completely; without multiple-layer support only the first layer is considered. (Violated by the code when fewer bytes than the stream read chunk follow a skipped layer.)", "quantifier": "every sequence of appended layers, every target configuration", "why_tests_cant": "The scan must stay in sync with the byte offsets over arbitrary preceding content.", "anchors": ["voxblox/include/voxblox/io/layer_io_inl.h: LoadBlocksFromFile", "voxblox/src/utils/protobuf_utils.cc: readProtoMsgFromStream, readProtoMsgCountFromStream"]}
{"id": "C20", "title": "A map file truncated by a crash never loads as a complete map", "statement": "For every strict prefix of a saved file, loading does not report success.", "quantifier": "every layer content and every crash point (prefix length)", "why_tests_cant": "One crash point per byte of an arbitrary file; tests try none or one.", "anchors": ["voxblox/include/voxblox/io/layer_io_inl.h: LoadBlocksFromFile, LoadBlocksFromStream", "voxblox/src/utils/protobuf_utils.cc: readProtoMsgFromStream"]}
{"id": "C21", "title": "Merging two voxels is the weighted combination, commutative and weight conserving", "statement": "Merging TSDF voxels gives the weight-averaged distance and the sum of weights, independent of merge order, unchanged by zero-weight voxels, and the distance stays between the inputs; merging ESDF or occupancy voxels never loses an observation.", "quantifier": "every pair and triple of voxels with non-negative weights (exact arithmetic)", "why_tests_cant": "Order independence over all voxel pairs is not testable by sampling.", "anchors": ["voxblox/src/utils/voxel_utils.cc: mergeVoxelAIntoVoxelB"]}
{"id": "C22", "title": "Merging a map into another map transfers every observed voxel", "statement": "After merging layer A into layer B with the same resolution, every voxel of B equals the voxel-wise merge of the former A and B voxels, and every block of A exists in B. (Violated by the code for maps produced by the integrators or received as messages: their blocks are not marked as having data, so nothing but empty blocks is transferred.)", "quantifier": "every pair of layers of equal resolution", "why_tests_cant": "Existing merge tests build their layers through test utilities that set the mark; the integrator-built history is not covered.", "anchors": ["voxblox/include/voxblox/integrator/merge_integration.h: mergeLayerAintoLayerB", "voxblox/include/voxblox/core/block_inl.h: mergeBlock", "voxblox/src/integrator/tsdf_integrator.cc: allocateStorageAndGetVoxelPtr, updateTsdfVoxel"]}
{"id": "C23", "title": "Merging maps of different resolution covers all resampled blocks", "statement": "When the resolutions differ, the source is resampled to the target resolution and every resampled block is merged; no block index that the resampled map does not have is created in the target. (Violated by the code: it walks the block indices of the unresampled source.)", "quantifier": "every pair of resolutions, every block set", "why_tests_cant": "The wrong block set still produces a plausible map; counts are only off for particular block positions.", "anchors": ["voxblox/include/voxblox/integrator/merge_integration.h: mergeLayerAintoLayerB, resampleLayer, transformLayer"]}
{"id": "C24", "title": "TSDF voxels stay within truncation and weight limits", "statement": "Whatever sequence of depth observations is integrated into a voxel, with whatever floating-point rounding, its distance stays within [-truncation, truncation] and its weight within [0, max weight]; the weight never decreases except by the cap; observations with negligible weight leave the voxel untouched.", "quantifier": "every observation sequence, every configuration with positive limits, every rounding behaviour", "why_tests_cant": "The accumulated history of updates is unbounded and rounding dependent.", "anchors": ["voxblox/src/integrator/tsdf_integrator.cc: updateTsdfVoxel, computeDistance, getVoxelWeight"]}
{"id": "C25", "title": "The fused TSDF distance is the weighted mean of the observations", "statement": "While limits are not reached, after integrating observations into a fresh voxel its distance is the weighted mean of the observed signed distances and its weight the sum of the weights, so the result does not depend on the observation order.", "quantifier": "every finite list of observations within the truncation band whose total weight is below the cap (exact arithmetic)", "why_tests_cant": "Order independence over all permutations and lengths.", "anchors": ["voxblox/src/integrator/tsdf_integrator.cc: updateTsdfVoxel"]}
{"id": "C26", "title": "Colour blending is well defined and stays between its inputs", "statement": "Blending two colours with non-negative weights of positive total gives channel values between the two inputs (within rounding) and never overflows a byte; blending with zero total weight is undefined behaviour and is never reached from the TSDF update or the voxel merge.", "quantifier": "every pair of colours, every pair of non-negative float weights whose sum does not overflow (beyond that the result is black and transparent); every update", "why_tests_cant": "All weight pairs; the undefined cast only shows for zero total.", "anchors": ["voxblox/include/voxblox/core/common.h: Color::blendTwoColors", "voxblox/src/integrator/tsdf_integrator.cc: updateTsdfVoxel", "voxblox/src/utils/voxel_utils.cc: mergeVoxelAIntoVoxelB"]}
{"id": "C27", "title": "Point filtering of the integrator classifies every point exactly once", "statement": "A sensor point is rejected, used normally or used as clearing exactly according to the configured ray-length window and clearing settings; too-short rays are always rejected, too-long rays are clearing if allowed and rejected otherwise, free-space points are always clearing, and the decision depends on nothing else.", "quantifier": "every point norm, every configuration", "why_tests_cant": "Decision table with real-valued borders.", "anchors": ["voxblox/include/voxblox/integrator/tsdf_integrator.h: isPointValid", "voxblox/src/integrator/tsdf_integrator.cc: getVoxelWeight, TsdfIntegratorBase constructor, TsdfIntegratorFactory::create"]}
{"id": "C28", "title": "Concurrent point dispatch hands out every point exactly once", "statement": "However the worker threads are scheduled, each point index of a cloud is handed to exactly one worker exactly once, no invalid index is handed out, and every worker eventually receives the end signal.", "quantifier": "every number of threads, every interleaving, every cloud size", "why_tests_cant": "Interleavings are exponential; a lost or duplicated point is not visible in a run.", "anchors": ["voxblox/src/integrator/integrator_utils.cc: ThreadSafeIndex::getNextIndex", "voxblox/include/voxblox/integrator/integrator_utils.h: ThreadSafeIndex"]}
{"id": "C29", "title": "The mixed integration order is a permutation of the cloud", "statement": "The order in which the mixed mode visits points is a permutation of 0..n-1, including clouds smaller than the group size and clouds not divisible by it.", "quantifier": "every cloud size", "why_tests_cant": "Off-by-one at the tail group shows only for some sizes.", "anchors": ["voxblox/src/integrator/integrator_utils.cc: MixedThreadSafeIndex::getNextIndexImpl"]}
{"id": "C30", "title": "The sorted integration order visits nearer points first and loses none", "statement": "The sorted mode visits each point once, in order of non-decreasing distance from the sensor; an unknown mode string is refused with a fatal error.", "quantifier": "every cloud, every mode string", "why_tests_cant": "Ordering over arbitrary clouds with ties.", "anchors": ["voxblox/src/integrator/integrator_utils.cc: SortedThreadSafeIndex, ThreadSafeIndexFactory::get"]}
{"id": "C31", "title": "Bundled integration partitions the voxel work among threads", "statement": "In the merged integrator, every bundle of points (voxel of the bundle map) is processed by exactly one of the threads, for every thread count, both in the single-threaded and the multi-threaded branch; every valid point is in exactly one bundle and is classified into the clearing or non-clearing map.", "quantifier": "every thread count >= 1, every bundle map size, every cloud", "why_tests_cant": "Partition arithmetic must hold for all sizes and thread counts.", "anchors": ["voxblox/src/integrator/tsdf_integrator.cc: MergedTsdfIntegrator::integrateVoxels, integrateRays, bundleRays"]}
{"id": "C32", "title": "Concurrent block allocation loses no block and creates no duplicate", "statement": "Whatever the interleaving of worker threads that request voxels in new blocks, all workers asking for the same block index get the same block, blocks already in the map are never replaced, and after the final merge step the map contains exactly the old blocks plus one block per requested new index.", "quantifier": "every interleaving of requests from any number of threads, every initial map", "why_tests_cant": "Race dependent; needs all schedules.", "anchors": ["voxblox/src/integrator/tsdf_integrator.cc: allocateStorageAndGetVoxelPtr, updateLayerWithStoredBlocks"]}
{"id": "C33", "title": "Ray traversal is gap free", "statement": "Casting a ray returns a list of voxel indices starting with the start point's voxel, with exactly (L1 distance between start and end voxel) + 1 entries, consecutive entries differing by one step along exactly one axis in the direction of the ray.", "quantifier": "every pair of finite start and end points", "why_tests_cant": "All directions, axis-parallel and degenerate rays included; tests try a few hundred random rays.", "anchors": ["voxblox/src/integrator/integrator_utils.cc: RayCaster::setupRayCaster, RayCaster::nextRayIndex", "voxblox/include/voxblox/integrator/integrator_utils.h: castRay"]}
{"id": "C34", "title": "Ray traversal ends in the end point's voxel and visits only voxels the ray passes through", "statement": "In exact arithmetic and away from the 1e-6 rounding band, the last returned index is the voxel of the end point and every returned voxel's closed cell is hit by the segment.", "quantifier": "every pair of start and end points", "why_tests_cant": "Geometric statement over all real segments.", "anchors": ["voxblox/src/integrator/integrator_utils.cc: RayCaster::setupRayCaster, RayCaster::nextRayIndex"]}
{"id": "C35", "title": "Casting a ray with undefined coordinates is safe", "statement": "A ray with NaN coordinates yields no voxels. (Violated by the code: the early return leaves the step counter and the current index unset, so the following reads are undefined.)", "quantifier": "every ray with at least one NaN coordinate", "why_tests_cant": "Result depends on stack garbage; tests may pass by luck.", "anchors": ["voxblox/src/integrator/integrator_utils.cc: RayCaster::setupRayCaster, RayCaster::nextRayIndex"]}
{"id": "C36", "title": "The bucket queue returns elements of the lowest non-empty bucket, first in first out, and loses none", "statement": "Under any sequence of push, front and pop, the queue contains exactly the pushed minus popped elements, front and pop always act on the oldest element of the lowest non-empty bucket, and two elements are never served in an order that contradicts their bucket order at the time of service.", "quantifier": "every sequence of operations, every number of buckets, every key", "why_tests_cant": "Histories with decreasing keys after pops move the cursor backwards; tests push sorted keys.", "anchors": ["voxblox/include/voxblox/utils/bucket_queue.h: push, pop, front, empty, clear"]}
{"id": "C37", "title": "The bucket queue never indexes outside its buckets", "statement": "For a queue with at least one bucket and positive maximal key, every key (negative, beyond the maximum, zero) maps to an existing bucket, front/pop on a non-empty queue find an element without running past the buckets, and re-sizing the queue keeps it usable; a default-constructed queue or a maximum of zero is outside the contract (undefined).", "quantifier": "every key, every configuration, every operation sequence including re-sizing and clearing", "why_tests_cant": "Memory safety over all keys and histories.", "anchors": ["voxblox/include/voxblox/utils/bucket_queue.h: BucketQueue(), setNumBuckets, push, pop, front, clear"]}
{"id": "C38", "title": "The approximate hash set never reports an element that was never inserted since the last reset", "statement": "A membership query answers true only if exactly that hash was inserted after the last reset. (Violated by the code: after a reset whose offset lands on the stored value, e.g. hash 0 on slots never written, the answer can be true.)", "quantifier": "every operation sequence, every hash value", "why_tests_cant": "False positives need particular hash values and reset counts.", "anchors": ["voxblox/include/voxblox/utils/approx_hash_array.h: ApproxHashSet::isHashCurrentlyPresent, replaceHash, resetApproxSet"]}
{"id": "C39", "title": "The approximate hash set and array never index outside their tables and remember the last writer", "statement": "Every hash maps into the table; directly after inserting a hash the query for it answers true until another hash of the same slot is inserted or the set is reset; the array returns the slot shared exactly by the hashes with equal masked value. Different indices of a neighbourhood have different hashes.", "quantifier": "every hash, every table size parameter, every operation sequence", "why_tests_cant": "All 2^64 hashes and histories.", "anchors": ["voxblox/include/voxblox/utils/approx_hash_array.h: ApproxHashArray::get, ApproxHashSet"]}
{"id": "C40", "title": "Occupancy log-odds stay within limits and move in the direction of the evidence", "statement": "Whatever sequence of hits and misses is integrated, with any rounding, the log-odds stay in [min, max], a hit never lowers and a miss never raises them (for sane probabilities), an updated voxel is observed and observed is never cleared, and enough consecutive hits (misses) saturate the voxel.", "quantifier": "every hit/miss sequence, every configuration with min <= 0 <= max", "why_tests_cant": "Unbounded histories.", "anchors": ["voxblox/include/voxblox/integrator/occupancy_integrator.h: updateOccupancyVoxel, OccupancyIntegrator constructor"]}
{"id": "C41", "title": "One scan updates each occupancy voxel at most once and hits win over misses", "statement": "Integrating one point cloud updates every voxel at most once; a voxel containing a measured end point receives a hit even if other rays of the scan pass through it; all other traversed voxels receive a miss.", "quantifier": "every cloud, every ray set", "why_tests_cant": "Depends on the overlap pattern of all rays of a scan and on point order.", "anchors": ["voxblox/include/voxblox/integrator/occupancy_integrator.h: integratePointCloud"]}
{"id": "C42", "title": "The occupancy ESDF is the exact quasi-Euclidean distance to the nearest occupied voxel", "statement": "After a full (batch) update from an occupancy layer, every observed voxel holds the length of a shortest 26-connected path through observed voxels to an occupied voxel (up to the propagation cut-off at the maximum distance), occupied voxels hold zero.", "quantifier": "every occupancy layer, every bucket configuration", "why_tests_cant": "Optimality over all maps; wavefront order and bucket quantisation interact.", "anchors": ["voxblox/src/integrator/esdf_occ_integrator.cc: updateFromOccBlocks, processOpenSet, updateFromOccLayerBatch"]}
{"id": "C43", "title": "ESDF propagation terminates", "statement": "The open-set processing of the ESDF integrators always ends after finitely many steps.", "quantifier": "every map, every configuration", "why_tests_cant": "Termination cannot be observed by testing.", "anchors": ["voxblox/src/integrator/esdf_occ_integrator.cc: processOpenSet", "voxblox/src/integrator/esdf_integrator.cc: processOpenSet, processRaiseSet"]}
{"id": "C44", "title": "Fixed-band ESDF voxels carry the TSDF distance", "statement": "After a batch update from a TSDF layer, every observed voxel whose TSDF magnitude is inside the fixed band holds exactly the TSDF distance and is marked fixed; voxels not observed in the TSDF (weight below the minimum) are not marked observed unless inherited through free-space clearing.", "quantifier": "every TSDF layer, every configuration", "why_tests_cant": "Wavefront propagation could overwrite a fixed voxel only for specific neighbourhoods.", "anchors": ["voxblox/src/integrator/esdf_integrator.cc: updateFromTsdfBlocks, processOpenSet, updateVoxelFromNeighbors", "voxblox/include/voxblox/integrator/esdf_integrator.h: isFixed"]}
{"id": "C45", "title": "Adding a robot position and then rebuilding the ESDF is safe", "statement": "Any sequence of free-space clearing around the robot and full or incremental ESDF updates completes without abort. (Violated by the code: clearing queues voxel indices, the batch update drops the blocks but not the queues, and processing a stale index aborts.)", "quantifier": "every order of the public update operations", "why_tests_cant": "Order-dependent; tests call one update per integrator instance.", "anchors": ["voxblox/src/integrator/esdf_integrator.cc: addNewRobotPosition, updateFromTsdfLayerBatch, processRaiseSet, processOpenSet", "voxblox/include/voxblox/integrator/esdf_integrator.h: clear"]}
{"id": "C46", "title": "ESDF updates notify every consumer of changed blocks", "statement": "When the ESDF integrator changes a block, the block's updated flag is set for all consumers (map, mesh, ESDF). (Violated by the code: marking with a boolean sets only the map flag and clears the others.)", "quantifier": "every changed block, every previous flag state", "why_tests_cant": "Flag loss is only visible to a consumer that polls the other flags.", "anchors": ["voxblox/src/integrator/esdf_integrator.cc: set_updated(true)", "voxblox/include/voxblox/core/block.h: set_updated, updated"]}
{"id": "C47", "title": "Trilinear interpolation is bounded, exact at voxel centres and exact on affine fields", "statement": "The interpolated distance inside a cell of eight observed voxels lies between the smallest and largest corner values, equals the voxel's value at its centre, and equals the field for any affine field; interpolation weights are non-negative and sum to one.", "quantifier": "every query point, every corner values, every affine field (exact arithmetic)", "why_tests_cant": "Bounds over all points and all values.", "anchors": ["voxblox/include/voxblox/interpolator/interpolator_inl.h: setIndexes, getQVector, interpMember, getInterpDistance"]}
{"id": "C48", "title": "Interpolation queries use the eight voxels that surround the query point", "statement": "For every query position the eight voxels used are the ones whose centres form the cell around the query, across block borders, and the query answers false when any of them is missing or unobserved.", "quantifier": "every query position, every block/voxel alignment", "why_tests_cant": "Border handling in 8 corner directions times sign cases.", "anchors": ["voxblox/include/voxblox/interpolator/interpolator_inl.h: setIndexes, getVoxelsAndQVector, getVoxels"]}
{"id": "C49", "title": "Distance gradients are exact on affine fields", "statement": "The central-difference gradient query returns the true gradient for affine distance fields and refuses when a needed sample is missing.", "quantifier": "every affine field, every position inside observed space (exact arithmetic)", "why_tests_cant": "Infinite family of fields and positions.", "anchors": ["voxblox/include/voxblox/interpolator/interpolator_inl.h: getGradient, getAdaptiveDistanceAndGradient"]}
{"id": "C50", "title": "Marching cubes tables produce triangles exactly on sign changes", "statement": "For each of the 256 sign configurations the table lists complete triangles terminated by -1, every used edge connects corners of different sign, every sign-changing edge is used, and the triangle edges inside the cube pair up so that the surface patch is a proper manifold with boundary on the cube faces only.", "quantifier": "every sign configuration, every triangle", "why_tests_cant": "A wrong entry in one of 4096 table cells gives small holes that no mesh test detects.", "anchors": ["voxblox/src/mesh/marching_cubes.cc: kTriangleTable, kEdgeIndexPairs", "voxblox/include/voxblox/mesh/marching_cubes.h: meshCube, calculateVertexConfiguration"]}
{"id": "C51", "title": "Mesh vertices lie on the voxel edge at the zero crossing", "statement": "Every generated vertex lies on the segment between the two corner points whose distances have different signs, at the linear zero crossing (at the middle when the two distances differ by less than 1e-6), independent of the direction in which the edge is traversed; therefore neighbouring cubes generate the same vertex on a shared edge and the surface is watertight across cube and block borders.", "quantifier": "every pair of corner distances and positions (exact arithmetic)", "why_tests_cant": "Continuous parameters.", "anchors": ["voxblox/include/voxblox/mesh/marching_cubes.h: interpolateEdgeVertices, interpolateVertex"]}
{"id": "C52", "title": "Meshing a block visits every cube exactly once and reads the right voxels", "statement": "Extracting the mesh of a block considers each of its side^3 cubes exactly once, and for each cube the eight corner values come from the voxels with the corresponding global indices, also across block borders; cubes with a missing or unobserved corner produce nothing.", "quantifier": "every block side, every cube, every neighbour configuration", "why_tests_cant": "The split into inside, X, Y and Z border loops must cover without overlap for all sizes.", "anchors": ["voxblox/include/voxblox/mesh/mesh_integrator.h: extractBlockMesh, extractMeshInsideBlock, extractMeshOnBorder"]}
{"id": "C53", "title": "Incremental meshing equals full meshing", "statement": "Regenerating only blocks flagged as updated leaves the mesh layer equal to a full regeneration. (Violated by the code: cubes on a block's upper border depend on the next block, whose update does not trigger re-meshing.)", "quantifier": "every history of map updates and meshing calls", "why_tests_cant": "Stale border triangles appear only for particular update orders.", "anchors": ["voxblox/include/voxblox/mesh/mesh_integrator.h: generateMesh, updateMeshForBlock, extractMeshOnBorder"]}
{"id": "C54", "title": "Generated and combined meshes have valid indices", "statement": "Every index of a generated block mesh, of the concatenated mesh, of the layer-wide mesh and of the connected mesh refers to an existing vertex; index counts are multiples of three; combining meshes preserves each triangle's vertex positions.", "quantifier": "every sequence of cubes, every mesh layer", "why_tests_cant": "Index offsets accumulate over arbitrary many blocks.", "anchors": ["voxblox/include/voxblox/mesh/marching_cubes.h: meshCube", "voxblox/include/voxblox/mesh/mesh.h: concatenateMesh", "voxblox/include/voxblox/mesh/mesh_layer.h: getMesh, getConnectedMesh", "voxblox/include/voxblox/mesh/mesh_utils.h: createConnectedMesh"]}
{"id": "C55", "title": "Connecting a mesh merges near-duplicate vertices without degenerate triangles", "statement": "The connected mesh contains one vertex per occupied threshold cell, keeps only triangles with three distinct vertices, moves no vertex by more than the threshold cell, and works for meshes without normals. (The last part is violated by the code: normals are read unconditionally.)", "quantifier": "every mesh, every positive threshold", "why_tests_cant": "Arbitrary vertex sets.", "anchors": ["voxblox/include/voxblox/mesh/mesh_utils.h: createConnectedMesh"]}
{"id": "C56", "title": "Sphere queries return exactly the voxels within the radius", "statement": "The set of voxels reported for a sphere contains exactly the voxels whose offset from the centre voxel is within the radius, each once, for every centre (including negative coordinates) and radius; filling or clearing a sphere changes no voxel outside it, changes an observed voxel only when the new value is better, and marks exactly the blocks with changed voxels as updated. (Exact symmetry is violated for non-integer radius/voxel ratios.)", "quantifier": "every centre, every radius, every layer content", "why_tests_cant": "Continuous radius and centre.", "anchors": ["voxblox/include/voxblox/utils/planning_utils_inl.h: getSphereAroundPoint, getAndAllocateSphereAroundPoint, fillSphereAroundPoint, clearSphereAroundPoint"]}
{"id": "C57", "title": "Map bounds enclose all allocated blocks", "statement": "The computed lower and upper bounds enclose every allocated block tightly; for an empty layer the query is well defined. (The last part is violated: uninitialised values are read.)", "quantifier": "every non-empty/empty layer", "why_tests_cant": "All block sets.", "anchors": ["voxblox/include/voxblox/utils/planning_utils_inl.h: computeMapBoundsFromLayer"]}
{"id": "C58", "title": "Map comparison statistics are a faithful account", "statement": "In layer evaluation the evaluated, ignored, overlapping and non-overlapping counts partition the voxels considered, max_error is the largest and min_error the smallest evaluated absolute error, and rmse is zero iff all evaluated errors are zero. (min_error is violated: it is always zero.)", "quantifier": "every pair of layers, every evaluation mode", "why_tests_cant": "Aggregates over arbitrary contents.", "anchors": ["voxblox/include/voxblox/utils/evaluation_utils.h: evaluateLayersRmse, computeVoxelError", "voxblox/src/utils/evaluation_utils.cc: computeVoxelError"]}
{"id": "C59", "title": "Slice queries return every voxel on the slice", "statement": "A coordinate-plane slice query returns every sufficiently weighted voxel whose centre is within one voxel size of the plane, up to the caller's maximum number of points. (Violated by the code: blocks that do not contain the plane are skipped although they own qualifying voxels; blocks not marked as having data, i.e. all integrator-built ones, are skipped entirely.)", "quantifier": "every map, every plane axis and position", "why_tests_cant": "Planes near block borders and integrator-built maps.", "anchors": ["voxblox/src/core/tsdf_map.cc: coordPlaneSliceGetDistanceWeight", "voxblox/src/core/esdf_map.cc: coordPlaneSliceGetDistance"]}
{"id": "C60", "title": "Simulated objects report consistent distances and ray hits", "statement": "For sphere, cube, plane and cylinder the reported distance is zero on the surface, positive outside, negative inside, equals the Euclidean distance to the surface outside, and a reported ray hit lies on the surface within the maximum range; the world distance is the minimum over objects. (Violated for the cylinder above/below its caps.)", "quantifier": "every object pose and size, every query point (exact arithmetic)", "why_tests_cant": "Continuous families.", "anchors": ["voxblox/include/voxblox/simulation/objects.h: Sphere, Cube, PlaneObject, Cylinder", "voxblox/src/simulation/simulation_world.cc: getDistanceToPoint"]}
{"id": "C61", "title": "Camera view test equals the frustum", "statement": "A point is reported in view iff it is between the near and far planes and within the horizontal and vertical opening angles. (Violated for a near distance of zero: the near and left bounding planes degenerate and stop constraining.)", "quantifier": "every point, every field of view, every near/far distance (exact arithmetic)", "why_tests_cant": "Continuous; the degenerate plane needs min_distance = 0.", "anchors": ["voxblox/src/utils/camera_model.cc: calculateBoundingPlanes, isPointInView, Plane::setFromPoints, Plane::isPointInside"]}
{"id": "C62", "title": "Layer messages reproduce the layer at the receiver", "statement": "Sending a layer (full or only updated blocks) and applying the message with reset or update gives the receiver the sender's voxels for the transmitted blocks and leaves others untouched (update) or removed (reset); mismatching type, voxel size or side is rejected without change; merge combines voxel-wise with existing blocks. (Merge is violated by the code: received blocks are not marked as having data and the merge is dropped.)", "quantifier": "every layer content, every action, every receiver state", "why_tests_cant": "Cartesian product of contents and actions.", "anchors": ["voxblox_ros/include/voxblox_ros/conversions_inl.h: serializeLayerAsMsg, deserializeMsgToLayer", "voxblox/include/voxblox/core/block_inl.h: mergeBlock"]}
{"id": "C63", "title": "Layer comparison is an equivalence that detects any difference", "statement": "Two layers compare equal iff they have the same configuration, block set and voxels; comparing is reflexive and symmetric. (Violated for ESDF: the hallucinated flag is not compared.)", "quantifier": "every pair of layers", "why_tests_cant": "All differences, incl. single flags.", "anchors": ["voxblox/include/voxblox/utils/layer_utils.h: isSameLayer, isSameBlock", "voxblox/src/utils/layer_utils.cc: isSameVoxel"]}
{"id": "C64", "title": "Centering a layer moves all blocks by one common shift", "statement": "Centering the blocks of a non-empty layer keeps the number of blocks and their contents and shifts all indices by the same vector so that the centroid ends within half a block of the origin; an empty layer is left alone. (Violated: truncation toward zero for negative centroids, division by zero for the empty layer.)", "quantifier": "every block set", "why_tests_cant": "Arbitrary block sets, sign of the centroid.", "anchors": ["voxblox/include/voxblox/utils/layer_utils.h: centerBlocksOfLayer"]}
{"id": "C65", "title": "Transforming a layer covers the whole image of every block", "statement": "After transforming a layer, every point of the image of every source block lies in an allocated target block unless the interpolation had no data there. (Violated by the code: the block sampling stops one step short of the upper end.)", "quantifier": "every rigid transform, every block set", "why_tests_cant": "Continuous transforms.", "anchors": ["voxblox/include/voxblox/integrator/merge_integration.h: transformLayer, naiveTransformLayer"]}
{"id": "C66", "title": "Variable-length integers and message framing decode to what was encoded", "statement": "Every 32-bit count or size written to a stream is read back exactly, consuming exactly the written bytes, whatever follows in the stream; no encoding is longer than five bytes; truncated encodings are rejected.", "quantifier": "every 32-bit value, every following byte sequence", "why_tests_cant": "2^32 values times continuations.", "anchors": ["voxblox/src/utils/protobuf_utils.cc: readProtoMsgCountFromStream, writeProtoMsgCountToStream"]}
{"id": "C67", "title": "Intensity integration writes the voxel it looked up", "statement": "Adding an intensity measurement updates the voxel of the intensity layer at the surface hit and its neighbours at their own positions. (Violated by the code: neighbour writes go through the block of the centre voxel.)", "quantifier": "every hit position, in particular near block borders", "why_tests_cant": "Only hits within the radius of a block border misplace.", "anchors": ["voxblox/src/integrator/intensity_integrator.cc: addIntensityBearingVectors"]}
{"id": "C68", "title": "Surface search along a ray terminates, passes over nothing and finds the surface the map knows of", "statement": "Searching the TSDF along a ray ends after a bounded number of steps. It reports a hit only for a sample before the maximum distance whose voxel is observed with a distance below the voxel size, and then that sample advanced by the (positive) distance; everything before it is covered by steps no longer than the distances the map states there. If the map knows of a surface at a distance up to an error e, the reported point is at that distance up to e.", "quantifier": "every map, every ray, every maximum distance", "why_tests_cant": "Termination, and all maps and rays: a skipped surface needs a particular sequence of stored distances.", "anchors": ["voxblox/include/voxblox/utils/distance_utils.h: getSurfaceDistanceAlongRay"]}
{"id": "C69", "title": "Colour maps stay in range", "statement": "Rainbow and grayscale colour maps give defined byte values for every input in [0,1], are continuous at segment borders within one count, and out-of-range inputs wrap or clamp instead of overflowing.", "quantifier": "every real input", "why_tests_cant": "Continuous input.", "anchors": ["voxblox/include/voxblox/core/color.h: rainbowColorMap, grayColorMap"]}
{"id": "C70", "title": "Robot clearing never erases measured obstacles", "statement": "Clearing free space around the robot changes only voxels that were unobserved or hallucinated (they become hallucinated free inside the clear radius); voxels that were really observed keep distance, flags and parent; occupied shell values are only placed on unobserved voxels.", "quantifier": "every ESDF content, every robot position", "why_tests_cant": "Needs all contents within the sphere.", "anchors": ["voxblox/src/integrator/esdf_integrator.cc: addNewRobotPosition"]}
{"id": "C71", "title": "Ground-truth maps hold the truncated distance to the nearest object", "statement": "After generating a map from a simulated world, every voxel whose centre lies within the world bounds holds the distance to the nearest object limited to plus or minus the maximum, is marked as observed (weight one, colour of the nearest object); voxels outside the bounds keep their content. (Violated by the code: blocks at the upper bounds can be left out.)", "quantifier": "every world, every bounds, every layer", "why_tests_cant": "A missed block needs a particular position of the bounds relative to the block grid.", "anchors": ["voxblox/include/voxblox/simulation/simulation_world_inl.h: generateSdfFromWorld, setVoxel"]}
{"id": "C72", "title": "Simulated views report the nearest object for every pixel", "statement": "A simulated view contains, for every pixel of the image whose ray meets an object within range, exactly one point: the nearest one, with the colour of its object, in pixel order; rays stay within the field of view. The noisy view moves each point along its ray only and equals the plain view for zero noise. (Violated by the code: odd resolutions lose a row or column, a NaN hit hides other objects, the noisy view from a pose looks along another axis, and the roll of a pose is ignored.)", "quantifier": "every world, every pose, resolution, field of view and noise sequence", "why_tests_cant": "All worlds and poses; wrong axes only show when both variants are compared.", "anchors": ["voxblox/src/simulation/simulation_world.cc: getPointcloudFromViewpoint, getPointcloudFromTransform, getNoisyPointcloudFromViewpoint, getNoisyPointcloudFromTransform"]}
{"id": "C73", "title": "Voxel coordinates lead back to the voxel in single precision", "statement": "In the float arithmetic the code really uses, the coordinates a layer reports for the centre of a voxel are resolved by the layer's coordinate lookup to that very block and voxel, and the stored origin of a block to that very block index; an arbitrary point is resolved to a cell it lies in up to the rounding of four operations. (Violated beyond a few million cells, and for points on cell borders when the flooring lookup is used.)", "quantifier": "every float voxel size, every power-of-two side up to 1024, every voxel within half a million voxels of the origin, every block within a million blocks", "why_tests_cant": "Rounding errors depend on voxel size and position; a test cannot try all floats.", "anchors": ["voxblox/include/voxblox/core/common.h: getGridIndexFromPoint, getGridIndexFromOriginPoint, getCenterPointFromGridIndex, getOriginPointFromGridIndex", "voxblox/include/voxblox/core/layer.h: computeBlockIndexFromCoordinates, getVoxelPtrByCoordinates, allocateNewBlock", "voxblox/include/voxblox/core/block.h: computeCoordinatesFromVoxelIndex", "voxblox/include/voxblox/core/block_inl.h: computeTruncatedVoxelIndexFromCoordinates", "voxblox/include/voxblox/core/layer_inl.h: addBlockFromProto"]}
{"id": "C74", "title": "Mesh messages show the mesh of the layer", "statement": "After any history of flagged mesh changes and messages that ends with a message, a display that received all messages shows for every block what the sender's mesh layer holds for it and nothing else. Each vertex arrives in order, displaced by at most two 65535ths of a block edge plus rounding, and its colour bytes arrive unchanged. Vertices in the cells of their block are accepted, and no conversion is undefined. (Violated by the code: blocks of fewer than four cells per side abort, meshes without colours are read out of bounds, removed meshes stay on display, late displays miss meshes, malformed messages are read out of bounds, and precision is coarser than documented.)", "quantifier": "every float block size, every mesh and colour mode, every sequence of stores, clearings, allocations and messages", "why_tests_cant": "Needs all vertex positions with their rounding, all 256 byte values and all histories of two communicating programs.", "anchors": ["voxblox_ros/include/voxblox_ros/mesh_vis.h: generateVoxbloxMeshMsg, getVertexColor", "voxblox_ros/include/voxblox_ros/conversions.h: colorVoxbloxToMsg, colorMsgToVoxblox", "voxblox_rviz_plugin/src/voxblox_mesh_visual.cc: setMessage"]}
{"id": "C75", "title": "Point clouds of a layer show exactly the voxels their criterion selects", "statement": "Each point cloud or marker made from a layer contains, once each, the centres of the voxels that meet its criterion (positive or sufficient weight, observed, near the surface, occupied, free), with the colour, distance or intensity of that voxel, and nothing else; the slice clouds show the voxels the plane passes through. The distance cloud is contained in the colour cloud. (Violated by the code: a slice plane in the upper half of a voxel shows the layer above instead, a plane through centres of odd index shows two layers, the clouds use different weight thresholds, and unobserved voxels are shown as occupied.)", "quantifier": "every layer of every block size, every threshold and every plane", "why_tests_cant": "All maps and plane positions; the slice error depends on which half of a voxel the plane lies in.", "anchors": ["voxblox_ros/include/voxblox_ros/ptcloud_vis.h: createColorPointcloudFromLayer, createOccupancyBlocksFromLayer, createDistancePointcloudFromTsdfLayerSlice, createDistancePointcloudFromEsdfLayerSlice, visualizeOccupiedTsdfVoxels"]}
{"id": "C76", "title": "The distance-coloured cloud shows each selected voxel once, in a colour monotone in distance", "statement": "Exporting a layer as coloured points appends, once each, the centres of the observed voxels within the maximum distance; every colour is defined, gets redder and less blue with the distance, and is one red above the colour range and one blue below it. (Violated by the code: a NaN distance aborts the export, a maximum of zero exports everything, and the returned flag is true for a mesh that held points before.)", "quantifier": "every layer, every colour range, every maximum, every distance including infinities", "why_tests_cant": "Monotonicity is about all pairs of floats through single and double precision rounding.", "anchors": ["voxblox/include/voxblox/io/sdf_ply.h: convertVoxelGridToPointCloud", "voxblox/src/io/sdf_ply.cc: getColorFromVoxel"]}
{"id": "C77", "title": "A mesh written as PLY reads back as the same mesh", "statement": "Writing a mesh whose normals and colours are absent or as many as its vertices, and whose indices form whole triangles, reports success and leaves a text file that a PLY reader accepts; it has the positions and normals rounded to six decimal digits (relative error at most 1/200000, order kept, NaN and infinities kept), the colours and the triangles exactly. The same holds for the meshes of a layer, combined or connected. (Violated by the code: distinct single-precision positions give the same file; a full disk is reported as success; incomplete triangles end the process; short lists of normals or colours are read out of bounds; indices of 2^31 and more contradict the header.)", "quantifier": "every mesh, every finite or non-finite coordinate, every colour", "why_tests_cant": "All floats pass through the decimal printing; the round trip must hold for every number of vertices and every combination of optional data.", "anchors": ["voxblox/src/io/mesh_ply.cc: outputMeshAsPly, outputMeshLayerAsPly, convertMeshLayerToMesh"]}
{"id": "C78", "title": "The incremental PLY writer", "statement": "A writer told the number and kind of vertices and given exactly these, at least one, reports success each time and leaves a file that reads back with positions to six digits and exact colours; it refuses everything before the declaration or without an open file, refuses vertices of the other kind, and writes the header once. (Violated by the code: more vertices than declared are accepted and make the file unreadable; vertices after closing are reported as written; a declared empty set leaves an empty file.)", "quantifier": "every list of vertices, every order of calls stated", "why_tests_cant": "The number of vertices is unbounded and the text depends on every float.", "anchors": ["voxblox/include/voxblox/io/ply_writer.h: PlyWriter"]}
{"id": "C79", "title": "Timers report the statistics of the recorded intervals", "statement": "For every sequence of lookups, recordings and resets, the handle of a tag is stable, different from those of other tags and never given out again, and each timer holds exactly the samples recorded for it; without rounding, count, total, mean, minimum, maximum, and mean and variance over the last fifty samples are those of the samples, and the frequency is the inverse of that mean. A timer in a scope records one sample, the time between its start and its end. (Violated by the code: the maximum of samples that are not positive is none of them; stopping a timer that does not run records the time since 1970 or since the last start; in double precision the sum over the window never recovers from a long sample, and asking for the frequency ends the process; so does asking for the frequency of an unused tag.)", "quantifier": "every history of calls, every number of samples below 2^31", "why_tests_cant": "The window sum is updated incrementally: its correctness is an invariant over unbounded histories.", "anchors": ["voxblox/include/voxblox/utils/timing.h: Accumulator, Timer, Timing", "voxblox/src/utils/timing.cc"]}
{"id": "C80", "title": "Poses looked up in a queue of transforms", "statement": "Asking for the pose at a time gives the transform chain of the first received transform closer than the tolerance, or else of the interpolation between the two received transforms around that time, with a weight between nought and one equal to the fraction of the time passed up to 2^-22; for transforms that arrived in order it fails exactly if all of them are too new or too old by the tolerance. As long as the times asked for do not decrease, discarding old transforms changes no answer. (Violated by the code: a transform for exactly that time loses against an older one within the tolerance; earlier times are refused afterwards; out-of-order arrivals make the lookup fail; with tolerance 0 the latest transform is not found for its own time.)", "quantifier": "every queue, every time, every later stream of transforms and questions", "why_tests_cant": "Harmlessness of the discarding is about all continuations of all histories.", "anchors": ["voxblox_ros/src/transformer.cc: transformCallback, lookupTransformQueue"]}
{"id": "C81", "title": "Incoming point clouds are integrated in order, at most once, and with the right poses", "statement": "Whatever arrives, the clouds integrated and waiting are a subsequence of the arrivals that keep the minimum interval, in order and each at most once; at most nine wait, clouds are dropped (oldest first) only when nine remain, and if poses are always known each accepted cloud is integrated at once. With one kind of clouds the poses are those of a transformer that forgets nothing. (Violated by the code: a cloud whose pose never becomes known blocks later ones; unstamped clouds are never taken; after time jumps back all clouds are ignored; clouds of free space lose their poses to the other clouds.)", "quantifier": "every sequence of clouds and transforms, every minimum interval, every behaviour of the pose lookup", "why_tests_cant": "Interleavings of clouds and transforms are unbounded.", "anchors": ["voxblox_ros/src/tsdf_server.cc: getNextPointcloudFromQueue, insertPointcloud, insertFreespacePointcloud"]}
{"id": "C82", "title": "Subscribers of a published map have the server's map", "statement": "If every change of the map is flagged and no block is removed, then, however subscribers come and go (as long as between two messages more join than leave, or none joins), after each publishing and each clearing every subscriber's map has exactly the server's blocks and voxels. (Violated by the code: removed blocks stay with the subscribers; a subscriber replacing another is not reset; a server that relays a received map does not send it on; unchanged blocks are sent again with every message; an ESDF server that does not publish the ESDF map publishes no TSDF map either, and clearing it does not clear the subscribers' TSDF maps.)", "quantifier": "every history of map changes, publications, clearings and subscriptions", "why_tests_cant": "An invariant over unbounded histories with any number of subscribers.", "anchors": ["voxblox_ros/src/tsdf_server.cc: publishMap, clear, tsdfMapCallback", "voxblox_ros/src/esdf_server.cc: publishMap, clear", "voxblox_ros/include/voxblox_ros/conversions_inl.h: serializeLayerAsMsg, deserializeMsgToLayer"]}
{"id": "C83", "title": "Point cloud messages keep their points and colours", "statement": "A received cloud is converted to exactly its points with finite coordinates, in order, with one colour each: its own, or that of its intensity, or that of intensity zero; the conversion is defined for all numbers if the maximal intensity is not zero. A coloured cloud that is sent and received again keeps points and red, green and blue. (Violated by the code: a maximal intensity of zero makes colourless clouds undefined; colours in a field `rgba` are ignored; too few colours are read beyond the end.)", "quantifier": "every cloud, every colour map, every number including NaN and infinities", "why_tests_cant": "The points, colours and intensities are unbounded.", "anchors": ["voxblox_ros/include/voxblox_ros/conversions.h: convertPointcloud, pointcloudToPclXYZRGB, pointcloudToPclXYZI", "voxblox_ros/src/tsdf_server.cc: processPointCloudMessageAndInsert"]}
{"id": "C84", "title": "The mesh of the intensity server shows the measured intensities", "statement": "Recolouring a mesh message keeps blocks and positions and gives each vertex that is displayed in a voxel with a measured intensity the colour of that intensity. (Violated by the code: the encoded numbers of a message, relative to the block and scaled, are taken for coordinates in metres, so colours come from other places or not at all, do not depend on the block, and never change in maps with negative coordinates only.)", "quantifier": "every message, every intensity layer, every colour map", "why_tests_cant": "The relation of message numbers to places in the map involves every block and vertex.", "anchors": ["voxblox_ros/include/voxblox_ros/intensity_vis.h: recolorVoxbloxMeshMsgByIntensity"]}
{"id": "C85", "title": "Intensity images are sampled regularly and with the right rays", "statement": "Exactly the pixels whose number (row by row) is a multiple of the subsampling factor are integrated, in order, each with its own value, along the ray through its column and row relative to half the image size. (Violated by the code: a factor of zero is undefined, a negative one throws; images of other encodings are read as floats; the axis is half a pixel off the middle.)", "quantifier": "every image with at most 2^23 rows and columns, every factor, every focal length", "why_tests_cant": "Images and factors are unbounded.", "anchors": ["voxblox_ros/src/intensity_server.cc: intensityImageCallback"]}
{"id": "C86", "title": "Answers to queries of a map", "statement": "A query of the distance succeeds exactly if the voxel is observed (plain), or all eight voxels around are (interpolated, which implies the former), and then gives its distance or the trilinear interpolation; a failing query leaves the caller's variable alone. The query with gradient succeeds if both parts do, with the same distance and the exact slope in linear fields. Batches answer each query by itself, refuse too short arrays before writing and touch nothing beyond. Positions are doubles and lead to the right voxel. (Violated by the code: the query with gradient overwrites the variables on failure, with unobserved distances and unscaled parts of sums; positions are rounded to floats, so that voxels further than 2^24 voxel sizes from the origin are missed.)", "quantifier": "every ESDF or TSDF layer, every position in the range of indexes, every batch", "why_tests_cant": "All positions and maps; agreement of two different functions everywhere.", "anchors": ["voxblox/src/core/esdf_map.cc: getDistanceAtPosition, getDistanceAndGradientAtPosition, isObserved, batchGetDistanceAtPosition, batchGetDistanceAndGradientAtPosition, batchIsObserved", "voxblox/src/core/tsdf_map.cc: getWeightAtPosition"]}
{"id": "C87", "title": "The alignment uses the requested part of the points, once each, and ends", "statement": "However the threads are scheduled, when all have ended the batches taken are the consecutive pieces of the shuffled cloud that start at or before the given ratio of it: at least that ratio of the points, less than a batch more, each point once. With a positive batch size the threads end after a number of rounds bounded in advance; with size zero they never do. A batch counts only with three matches and the configured ratio of its size; with fewer than three points or an empty map the pose is returned unchanged with no updates. The number of updates is at most that of the batches, the pose stays a rigid motion, the information never shrinks, a level sensor stays level if only the yaw is refined, and with one thread the result does not depend on the schedule.", "quantifier": "every number of threads, every interleaving of their steps, every cloud, every configuration", "why_tests_cant": "The interleavings are unbounded in number and not reproducible.", "anchors": ["voxblox/src/alignment/icp.cc: runICP, runThread, stepICP"]}
{"id": "C88", "title": "Points are matched with the nearest points of the mapped surface", "statement": "Where the layer holds the distance to a plane, a point is matched exactly if its voxel and the six next to it are observed; it is matched with the nearest point of the plane, with the plane's normal. Points in or next to unobserved voxels, or where the distance does not vary, are not matched. A batch matches at most its size, in order, each point once; its information is positive in every component and its translational part adds up to twice the number of matches. (Violated by the code: within a few millionths of a voxel below a block border, distance and centre belong to different voxels and the target is off the plane by up to a voxel; the rotational information lacks the mixed term, so that points straight along their normal count although they say nothing about rotations.)", "quantifier": "every pose, every plane, every position of the point, every layer", "why_tests_cant": "Voxel attribution near borders and observed sets are unbounded; tests use points in general position.", "anchors": ["voxblox/src/alignment/icp.cc: matchPoints, addNormalizedPointInfo"]}
{"id": "C89", "title": "The alignment of matched points is the least-squares optimum", "statement": "For every nonempty set of matched points, the transform found is a rigid motion with the smallest possible sum of squared distances between moved source points and targets among all rigid motions; with yaw only, it is a turn about the vertical axis that is the best among those. If some such motion matches all points exactly, so does the one found. Sets of different sizes are refused.", "quantifier": "every set of matched points over an ordered field, every singular value decomposition of the correlation (also degenerate ones and those with reflections)", "why_tests_cant": "Optimality quantifies over all rotations and translations.", "anchors": ["voxblox/include/voxblox/alignment/icp.h: getRotationFromMatchedPoints", "voxblox/src/alignment/icp.cc: getTransformFromMatchedPoints"]}
{"id": "C90", "title": "Fusing an alignment into the pose respects information, rigidity and yaw", "statement": "All weights are defined, positive and at most one; the fused pose is a rigid motion; a batch that finds the points aligned changes nothing, without prior information a batch is applied in full, and the position never moves farther than the batch asks. The correction kept by the server, applied to the received pose, is the pose used for integration if roll and pitch are refined or only the yaw changed. (Violated by the code: for a sensor that is not level, refining the yaw only tilts it further, and the correction kept and published is then not the one used; information gathered along the axes of the layer is applied along the axes of the sensor.)", "quantifier": "every pose, every correction, all information vectors, every rotation logarithm", "why_tests_cant": "The violations need tilted sensors with anisotropic information; the rest quantifies over all rotations.", "anchors": ["voxblox/src/alignment/icp.cc: runThread", "voxblox_ros/src/tsdf_server.cc: processPointCloudMessageAndInsert"]}
{"id": "C91", "title": "Distances of a batch ESDF are lengths of shortest paths to the surface band", "statement": "After a batch update in quasi-Euclidean mode from a TSDF in which no voxel off the band touches the other side of the surface (which holds if neighbouring distances differ by less than the width of the band), band voxels hold their TSDF distance, and every other known voxel is on its side and holds the default distance or the length of a 26-connected path on its side that starts at a band voxel with that voxel's distance. No such path is shorter, up to min_diff_m per step; with min_diff_m zero the magnitude is exactly the least of the default distance and the path lengths. The parent of each voxel is a neighbour on its side that is nearer by at least the step. (Without the condition on the TSDF the code sets distances that are the length of no path.)", "quantifier": "every TSDF layer without jumps, every monotone rounding, every configuration and voxel size, every order of the blocks", "why_tests_cant": "All maps and all paths in them; queue order and lazily lowered distances interact over unbounded runs.", "anchors": ["voxblox/src/integrator/esdf_integrator.cc: updateFromTsdfLayerBatch, updateFromTsdfBlocks, processOpenSet"]}
{"id": "C92", "title": "Incremental updates of the ESDF agree with batch updates", "statement": "An incremental update leaves the distances that a batch update from the same TSDF gives; in particular it changes nothing if the TSDF did not change, whatever blocks are flagged. (Violated by the code when the TSDF changes: raising skips fixed neighbours, so a voxel whose nearest band voxel left the band keeps the default distance although another band voxel is next to it.)", "quantifier": "every TSDF layer, every set of flagged blocks and their order, every configuration", "why_tests_cant": "All histories of maps; the violation overestimates clearance silently.", "anchors": ["voxblox/src/integrator/esdf_integrator.cc: updateFromTsdfLayer, updateFromTsdfBlocks, processRaiseSet"]}
{"id": "C93", "title": "A scan adds each ray's observations once, under every schedule", "statement": "When the simple TSDF integrator returns, no ray has failed, every voxel has received exactly the observations of the rays passing it (each once, in some order) on top of its former content, blocks were created exactly where rays pass and are flagged for all consumers, and nothing else changed; distances stay in the truncation band and weights in [0, max]. Clouds and colours of different lengths are refused. Executions always end, without failure if the rays can be cast. The voxel of an accepted measurement becomes observed.", "quantifier": "every number of threads, every interleaving of takes and updates, every order of the points, every map and cloud", "why_tests_cant": "Interleavings are unbounded and not reproducible; lost updates or lost blocks show only under rare schedules.", "anchors": ["voxblox/src/integrator/tsdf_integrator.cc: SimpleTsdfIntegrator::integratePointCloud, integrateFunction, allocateStorageAndGetVoxelPtr, updateLayerWithStoredBlocks, updateTsdfVoxel"]}
{"id": "C94", "title": "The map after a scan does not depend on the scheduling of the threads", "statement": "Two executions of the same scan, with different numbers of threads, orders and schedules, leave the same distances and weights. (Violated by the code: signed distances beyond the truncation distance are averaged untruncated and only the result is truncated, so two threads may leave a voxel with distance 1 or 1/2 depending on which is faster. It holds for voxels observed within the truncation distance only, up to rounding.)", "quantifier": "every pair of executions of every scan", "why_tests_cant": "Needs all pairs of schedules; the difference is silent.", "anchors": ["voxblox/src/integrator/tsdf_integrator.cc: updateTsdfVoxel, SimpleTsdfIntegrator::integrateFunction"]}
{"id": "C95", "title": "The merged integrator integrates each bundle once, and spares measured voxels from grazing rays", "statement": "When the merged integrator returns, each accepted point is in exactly one bundle, that of its end voxel; the map has received exactly the visits of the bundles of normal points and then those of the clearing bundles, each once; with anti-grazing the end voxel of a normal bundle is updated by that bundle only. Distances and weights stay in range, and no execution fails if the rays can be cast. (Violated by the code for points without weight: a single measurement in the plane of the sensor sets the distance of an observed free voxel at the sensor to minus the truncation distance.)", "quantifier": "every number of threads, every interleaving, every iteration order of the bundle maps, every map and cloud", "why_tests_cant": "Interleavings and iteration orders are unbounded.", "anchors": ["voxblox/src/integrator/tsdf_integrator.cc: MergedTsdfIntegrator::integratePointCloud, bundleRays, integrateVoxel, integrateVoxels, integrateRays"]}
{"id": "C96", "title": "The fast integrator leaves out only what has been seen", "statement": "When the fast integrator returns, the map has received, for each point, nothing, or all voxels of its ray from the far end, or an initial part of at least max_consecutive_ray_collisions voxels that ends where one more voxel than this in a row had hashes already seen in this scan or in the set before; within the time limit a valid point is left out only if its start voxel has the hash of one whose ray was cast, or was in the set before. The workers always end and do not fail if the rays can be cast. With one integrator in the process the sets are reset in each n-th call exactly. (Violated by the code: after a reset the hash zero counts as seen, so a first measurement in the start voxel at the origin is lost; the frame counter is shared by all integrators of the process, so that of two integrators called in turns with n = 2 one never resets.)", "quantifier": "every number of threads, every interleaving of loads, stores and updates, every moment at which the time is up, every history of the sets", "why_tests_cant": "Interleavings of unsynchronised set accesses are unbounded.", "anchors": ["voxblox/src/integrator/tsdf_integrator.cc: FastTsdfIntegrator::integratePointCloud, integrateFunction", "voxblox/include/voxblox/utils/approx_hash_array.h: ApproxHashSet"]}
{"id": "C97", "title": "TSDF integrators are made by name and have a usable configuration", "statement": "The factory makes the integrator of the given name and aborts for every other name; an integrator has at least one worker, and without voxel carving no point of an ordinary cloud gives a clearing ray.", "quantifier": "every name, every configuration", "why_tests_cant": "Names are unbounded.", "anchors": ["voxblox/src/integrator/tsdf_integrator.cc: TsdfIntegratorFactory::create, TsdfIntegratorBase::TsdfIntegratorBase", "voxblox/include/voxblox/integrator/tsdf_integrator.h: isPointValid, kTsdfIntegratorTypeNames"]}
{"id": "C98", "title": "The rays of a scan observe the voxels they pass", "statement": "For the three TSDF integrators: an accepted point is observed exactly once in each of a set of voxels that its ray meets and that cover the traversed part of the ray; that part ends the truncation distance behind a surface point and the truncation distance in front of a clearing point (at most at the maximal ray length), and begins at the sensor, or without carving the truncation distance in front of the point. Each observation carries the sensor position, the measured point, its colour and weight and the centre of the voxel. A bundle is observed as the weighted mean of its points with their total weight, with anti-grazing except where other surface bundles end; the fast integrator casts the same ray from its far end. Rejected points are not observed.", "quantifier": "every sensor position and point whose ray is not parallel to a coordinate plane and does not end on a voxel boundary, every voxel size, truncation distance and ray length limits, with and without carving, clearing and anti-grazing", "why_tests_cant": "Rays are unbounded in direction and length.", "anchors": ["voxblox/src/integrator/tsdf_integrator.cc: SimpleTsdfIntegrator::integrateFunction, MergedTsdfIntegrator::integrateVoxel, FastTsdfIntegrator::integrateFunction, getVoxelWeight", "voxblox/src/integrator/integrator_utils.cc: RayCaster::RayCaster", "voxblox/include/voxblox/integrator/tsdf_integrator.h: isPointValid"]}
{"id": "C99", "title": "Evaluating a map against a ground truth cloud reports its error", "statement": "The evaluation counts every point of the cloud once: as unknown if its voxel does not exist or has weight at most 0.01, as outside if the distance of its voxel is at least twice the voxel size, and otherwise as measured with the trilinearly interpolated distance, or that of its voxel if one of the eight voxels around it is not observed. The reported mean square is the mean over the known points of the squared distances, with twice the voxel size for those outside; it is NaN if no point is known, does not depend on the order of the points and is at most the square of the largest distance in the map. Recolouring changes only colours: a voxel with known points gets the grey value of the last one's distance relative to twice the voxel size. (Violated by the code: recolouring is undefined for distances of 511/510 of twice the voxel size or more, which maps with the default truncation distance contain; errors behind the surface are not limited to the band, so the root mean square may exceed it.)", "quantifier": "every well-formed map, every cloud of points outside the last millionth of a block before a voxel's upper faces, in exact arithmetic, with and without recolouring", "why_tests_cant": "Clouds and maps are unbounded.", "anchors": ["voxblox_ros/src/voxblox_eval.cc: VoxbloxEvaluator::evaluate", "voxblox/include/voxblox/interpolator/interpolator_inl.h: getNearestDistanceAndWeight"]}
{"id": "C100", "title": "An exported layer is the surface or the distances it holds", "statement": "Writing a layer to a PLY file as isosurface writes a file exactly when some cube of eight observed voxels is crossed by the surface, and the file reads back as the triangles of all cubes, each cube once, for any order in which the blocks are visited; connected, it reads back as one vertex per cell of the threshold, each a point of the surface, with the triangles that do not collapse. As distance field the file holds the centres and colours of the voxels that have a colour, once each, and no faces. A polygon mesh for PCL has the vertices of all meshes and polygons of three indices in range. An empty file name or an unknown kind aborts. A mesh handed in for conversion should hold the surface of the layer afterwards (it does not if it held something before).", "quantifier": "every well-formed layer of any voxel type with finite distances, every hash map order, every threshold that gives the points cells, exact coordinates rounded to six digits in the file", "why_tests_cant": "Layers and traversal orders are unbounded.", "anchors": ["voxblox/include/voxblox/io/sdf_ply.h: outputLayerAsPly, convertLayerToMesh, convertVoxelGridToPointCloud", "voxblox/src/io/mesh_ply.cc: convertMeshLayerToMesh", "voxblox_ros/include/voxblox_ros/mesh_pcl.h: toPCLPolygonMesh"]}
{"id": "C101", "title": "Maps saved by a server can be loaded by a server", "statement": "A TSDF or ESDF server that saves its maps writes only the named file, replacing its content; a server of the same configuration that loads it, whatever it contains, reports success and has every saved block, flagged as updated, in place of its own, keeping its other blocks. A TSDF server can load the file of an ESDF server; the file of a server with another side or voxel size changes nothing and is reported; a cut file is never loaded successfully; a missing file or one that cannot be written is reported, an empty name aborts. (Violated by the code: if the bytes of the ESDF map fit into the last 8192-byte chunk read for the last TSDF block, as with an ESDF map that is still empty, an ESDF server reports failure although it has already replaced its TSDF map.)", "quantifier": "every configuration, every TSDF map and every ESDF map whose parents survive storage, every content of the loading server and of the disk, every place of a cut", "why_tests_cant": "Maps, disk contents and cuts are unbounded.", "anchors": ["voxblox_ros/src/tsdf_server.cc: TsdfServer::saveMap, TsdfServer::loadMap", "voxblox_ros/src/esdf_server.cc: EsdfServer::saveMap, EsdfServer::loadMap", "voxblox/include/voxblox/io/layer_io_inl.h: SaveLayer, LoadBlocksFromFile", "voxblox/include/voxblox/core/layer_inl.h: saveSubsetToFile, addBlockFromProto"]}
{"id": "C102", "title": "A server is configured by its parameters", "statement": "A server starts exactly when the voxel size is positive in single precision and the side of the blocks is neither zero nor the smallest integer; otherwise it ends with an error message, except for that integer, for which the test is undefined. The TSDF and the ESDF map have the same voxels, blocks of a power of two of them (sixteen if another number is asked for), and each documented parameter takes its documented default and is used as given. The integrator, the colour mode and the colour map are those named; a timer runs exactly when its period is positive; clearing rays need voxel carving; the truncation distance is four voxels and the ESDF takes over TSDF values up to half of it unless set; the distance of unknown voxels is at least the maximum distance. Nothing else on the parameter server has an effect. (Violated by the code: a side of zero, meant to be replaced, ends the process; an infinite voxel size is accepted; three documented parameters and one documented service do not exist; the documentation gives two voxels as truncation distance and another default for one flag; unknown integrator names give the simple integrator instead of the default one; with voxels of two metres TSDF values are taken over beyond the maximum distance of the ESDF.)", "quantifier": "every content of the parameter server, every number of hardware threads", "why_tests_cant": "Parameter values are unbounded.", "anchors": ["voxblox_ros/include/voxblox_ros/ros_params.h: getTsdfMapConfigFromRosParam, getTsdfIntegratorConfigFromRosParam, getEsdfIntegratorConfigFromRosParam, getMeshIntegratorConfigFromRosParam, getICPConfigFromRosParam", "voxblox_ros/src/tsdf_server.cc: TsdfServer::TsdfServer, TsdfServer::getServerConfigFromRosParam", "voxblox_ros/src/esdf_server.cc: EsdfServer::EsdfServer, EsdfServer::setupRos", "voxblox_ros/src/transformer.cc: Transformer::Transformer"]}
{"id": "C103", "title": "The mesh of a server shows its map", "statement": "After every sequence of map changes that mark what they change, point clouds with removal of distant blocks, mesh updates, map messages and clearings, generating the mesh leaves the map alone and afterwards the mesh layer shows, at every block, the triangles of the cubes of this block in the current map, and nothing where there is no block; the saved file is the connected surface of the map, and there is none without a surface. At no time is anything shown where the map has no block; removing distant blocks removes exactly their meshes. After the timed update the mesh of each block was made from the voxels that it has now. (Violated by the code: a reset message empties the map but leaves all meshes, also when the mesh is generated anew; voxels that come by message are not marked, so that the timed update never shows them; the timed update does not redo a mesh when a neighbouring block changes or is removed.)", "quantifier": "every sequence of operations of a server that starts empty, every map of any voxel type with finite distances, every hash map order, exact coordinates", "why_tests_cant": "Sequences of operations and maps are unbounded.", "anchors": ["voxblox_ros/src/tsdf_server.cc: TsdfServer::updateMesh, TsdfServer::generateMesh, TsdfServer::clear, TsdfServer::tsdfMapCallback, TsdfServer::processPointCloudMessageAndInsert", "voxblox/include/voxblox/mesh/mesh_layer.h: clearDistantMesh", "voxblox/include/voxblox/core/layer.h: removeDistantBlocks", "voxblox/src/io/mesh_ply.cc: outputMeshLayerAsPly"]}
{"id": "C104", "title": "Markers and point clouds show the meshes of a layer", "statement": "A marker filled from a mesh layer lists the vertices of all its meshes in order, three per triangle of the layer, with one colour each: that of the mesh, its normal in the unit cube, grey, the height map or a shading of at least the ambient light. The point cloud has the same vertices, with the very colour bytes of the mesh in colour mode. No conversion is undefined and nothing is read out of bounds. (Violated by the code: meshes with fewer colours or normals than vertices pass the check and are read out of bounds; a marker used again keeps what it showed; the indices are ignored, so that meshes with shared vertices show wrong triangles; the height map wraps, so that all heights from 10 m up and from -1 m down have the same colour.)", "quantifier": "every mesh layer, every colour mode, every marker or cloud filled before, IEEE colours", "why_tests_cant": "Meshes and their attribute lists are unbounded; out-of-bounds reads may go unnoticed.", "anchors": ["voxblox_ros/include/voxblox_ros/mesh_vis.h: fillMarkerWithMesh, fillPointcloudWithMesh, getVertexColor", "voxblox_ros/include/voxblox_ros/conversions.h: colorMsgToVoxblox"]}
{"id": "C105", "title": "The ESDF of a server follows its map", "statement": "An ESDF server handles every sequence of scans, timer updates, services, messages, changes of the maximum distance and clears without abort or undefined behaviour. After a scan neither map has blocks far from the robot, near blocks are kept as they are, and in normal operation the ESDF never has a voxel that the TSDF does not have. generateEsdf gives the ESDF of the current map whatever was there before; an update processes all flagged blocks and leaves nothing queued; clear forgets both maps and all queued voxels. (Violated by the code with free-space clearing: robot positions queue voxels whose blocks are removed by the next scan, an ESDF message or generateEsdf, and the next update aborts. A TSDF message that resets the map leaves the old ESDF.)", "quantifier": "every sequence of events of an ESDF server, every map and pose within the index range, every order of the hash map, with or without free-space clearing", "why_tests_cant": "Event sequences are unbounded; the abort depends on the interleaving of scans, timers and messages.", "anchors": ["voxblox_ros/src/esdf_server.cc: EsdfServer::newPoseCallback, updateEsdf, updateEsdfBatch, generateEsdfCallback, esdfMapCallback, setEsdfMaxDistance, clear", "voxblox/src/integrator/esdf_integrator.cc: addNewRobotPosition, updateFromTsdfLayer, updateFromTsdfLayerBatch, clear", "voxblox/include/voxblox/core/layer.h: removeDistantBlocks"]}
{"id": "C106", "title": "The simulation server maps what it sees from valid viewpoints", "statement": "The simulation server makes at most the requested number of views, fewer only if a whole series of random points was too close to an object. Each view is taken from a point within the bounds of the world, at least the minimum distance away from and outside of every object, in a direction of length one; the TSDF integrator and, if enabled, the occupancy integrator get the points seen from there, which lie on the objects, transformed by the inverse of the pose they are given with, so that the integrators put them back where they were. Every setting runs to the end, and the ESDF is that of the final maps. (Violated by the code: viewpoints lie between half the lower bound and the upper bound plus a quarter of the lower one, so they may be outside and never reach most of the world; beside and above a cylinder they come too close; robot positions without incremental updates end the process; the distances from the occupancy map are overwritten.)", "quantifier": "every world, every setting, every sequence of random vectors, every map the scans give, exact coordinates", "why_tests_cant": "Worlds and sequences of random vectors are unbounded.", "anchors": ["voxblox_ros/src/simulation_server.cc: SimulationServer::generatePlausibleViewpoint, SimulationServer::generateSDF", "voxblox/src/simulation/simulation_world.cc: SimulationWorld::getDistanceToPoint, SimulationWorld::getPointcloudFromTransform"]}
{"id": "C107", "title": "The pose correction of a server keeps poses rigid, composes, and follows the odometry", "statement": "When a TSDF server aligns each incoming cloud with its map before integrating it: over every sequence of clouds the poses used and the corrections stay rigid motions (rotations about the vertical axis if only the yaw is refined and the sensor is level). The two transforms published for a cloud compose to the pose the cloud was integrated with; with accumulated corrections the next alignment starts at that pose moved by the change of the looked-up pose. Without accumulated corrections nothing depends on earlier ones. A cloud that cannot be matched is integrated at the corrected looked-up pose and leaves the correction as it was. Afterwards exactly the blocks within the maximum distance of the pose the cloud was integrated with remain.", "quantifier": "for every configuration, map, sequence of clouds, shuffling of the points, schedule of the alignment threads and integration of clouds", "why_tests_cant": "The corrections result from numerical alignment with random point orders and racing threads; a test sees a handful of runs and cannot tell a wrong frame composition from an alignment error.", "anchors": ["voxblox_ros/src/tsdf_server.cc:253-323", "voxblox_ros/include/voxblox_ros/tsdf_server.h:219-261"]}
{"id": "C108", "title": "Evaluating one map against another at several poses treats every pose on its own", "statement": "Evaluating layer B against layer A at a list of poses reports, in order, for each pose exactly what evaluating that pose alone would report, together with the layer aligned for that pose and its error layer if they are asked for; asking for the layers does not change the reported errors; layers of different geometry are refused. A map evaluated against itself at the identity has zero error on every measured voxel. After the call the reported errors and the returned layers correspond entry by entry.", "quantifier": "for every pair of layers, list of poses, evaluation mode, iteration order of the block set, and content of the vectors handed in", "why_tests_cant": "The function is used offline on pairs of maps whose true error is unknown; a result attributed to the wrong pose or contaminated by another pose looks like any other number.", "anchors": ["voxblox/include/voxblox/integrator/merge_integration.h:236-307", "voxblox/include/voxblox/utils/evaluation_utils.h:73-185"]}
{"id": "C109", "title": "The voxels along a ray are sorted by block without loss", "statement": "The hierarchical index along a ray lists, for every block the ray passes, exactly the voxels of the ray in that block, as local indices within the block and in the order along the ray; every such block has one entry and no other block has one, whatever the map held before. The voxels are those met by the segment from the start (or, without carving, from the truncation distance before the end point) to the truncation distance behind the end point, each once. Block sides that are not a power of two are refused.", "quantifier": "for every pair of points, voxel size, block side, truncation distance, with and without carving", "why_tests_cant": "Splitting errors show only for voxels at particular block boundaries, negative indices or far coordinates.", "anchors": ["voxblox/include/voxblox/integrator/integrator_utils.h:145-192"]}
{"id": "C110", "title": "The rounding error of the fused distance is bounded", "statement": "In single precision the observed signed distance of a voxel differs from the exact signed distance along the ray by at most 13 rounding units (2^-24) of the lengths involved, the fused distance of a voxel from the weighted mean of the observed distances by at most 6 rounding units of the truncation distance per observation, and its weight from the sum of the weights by at most 5/4 rounding units of that sum per observation; so the order of the observations matters by at most 12 rounding units of the truncation distance per observation. With observation weights of at most 1 the weight of a voxel never exceeds 2^24, however many observations follow.", "quantifier": "for all coordinates up to 2^30 and measured points at least 2^-10 away from the sensor; for every list of up to 2^20 observations within the truncation distance, in every order, while the weight limit is not reached", "why_tests_cant": "The error of a long fusion depends on the whole history; tests compare a handful of fusions with a tolerance chosen by hand.", "anchors": ["voxblox/src/integrator/tsdf_integrator.cc:150-228"]}
{"id": "C111", "title": "The mesh layer is a finite map from block indices to meshes", "statement": "After any sequence of operations a mesh layer has at most one mesh per index and no mesh under two indices. Allocation returns the mesh an index has or gives it an empty one; writing through a pointer changes the mesh of its index only, and nothing if that mesh has been removed; removal and clearing remove exactly what they name; clearing distant meshes empties and marks exactly the meshes whose block origin is farther away than the given distance; the lists of all and of updated meshes have each such index once. An index keeps its pointer until its mesh is removed, and a removed mesh never comes back. Access by coordinates is access by the block containing the point. allocateNewBlock makes a new mesh, and the reported memory size is that of the meshes.", "quantifier": "for every sequence of operations, index, point, mesh and pointer", "why_tests_cant": "Aliasing and stale pointers depend on the order of many operations.", "anchors": ["voxblox/include/voxblox/mesh/mesh_layer.h:31-161", "voxblox/include/voxblox/mesh/mesh_layer.h:277-307", "voxblox/include/voxblox/mesh/mesh.h:45-81"]}
{"id": "C112", "title": "Interpolation in single precision is accurate and does not abort", "statement": "In single precision an interpolation query finds the cell of voxel centres that contains the position, up to a few rounding units of the coordinates; it fails if and only if one of the eight voxels of that cell is missing or unobserved; otherwise its result is the trilinear interpolation of the eight values at the position, up to 2^-14 of the largest value and, for the rounding of the coordinates, a few rounding units of the coordinates (in voxels) times the spread of the values. The result lies between the values of the cell, a constant field is reproduced exactly, and no query aborts the process.", "quantifier": "for every layer, position, set of values, and every order in which the matrix products are summed", "why_tests_cant": "Whether the rounded offset of a position within its cell leaves [0, 1] depends on the last bits of coordinates, voxel size and block origin; tests sample a few positions near the origin.", "anchors": ["voxblox/include/voxblox/interpolator/interpolator_inl.h:156-299", "voxblox/include/voxblox/interpolator/interpolator_inl.h:448-474"]}
{"id": "C113", "title": "The ray caster in single precision follows the segment up to a stated tolerance", "statement": "Computed in single precision, the traversal of a segment that is not parallel to a coordinate plane and whose end point lies clearly inside its voxel terminates, starts in the voxel of the start point, ends in the voxel of the end point, has one voxel more than the Manhattan distance of the two, visits only voxels that meet the segment and misses no part of the segment, all up to a tolerance of 1e-6 + (X + N^2/2 + 5 N + 7) / 2^24 voxels for coordinates up to X voxels and rays of N steps. Without the tolerance this fails: the traversal can leave the ray at its end and miss the voxel of the end point.", "quantifier": "for every pair of end points with coordinates up to 2^20 voxels, components apart by at least 2^-60, and rays of up to 2044 voxels", "why_tests_cant": "The boundary parameters are summed up in float along the ray; the order of two nearly equal ones decides about the voxel visited, which depends on the last bits of both end points.", "anchors": ["voxblox/src/integrator/integrator_utils.cc:111-179", "voxblox/include/voxblox/core/common.h:142-142"]}
{"id": "C114", "title": "In single precision a measured point reaches its voxel", "statement": "From the position of the sensor and a measured point to the enumerated voxels, everything computed in single precision: the voxel in which the point lies, farther from its faces than a stated tolerance, is enumerated by the ray through the point, with or without voxel carving and from either end of the ray. After a scan of the simple integrator containing the point as an accepted measurement, that voxel is part of the map and counts as observed, whatever the other points, the number of threads and the scheduling. For rays in a plane x = const this fails: the ray never leaves the voxel it starts in.", "quantifier": "for every sensor position and point with coordinates up to 2^20 voxels (2^13 for the scan), voxel sizes between 2^-20 and 2^10, rays of up to 2041 voxels whose direction has no component smaller than a few tolerances, every truncation distance, every other content of the scan and every schedule", "why_tests_cant": "Normalising the ray, adding the truncation distance and scaling to voxels all round; whether the rounded ray still meets the voxel of the point depends on the last bits of all of them.", "anchors": ["voxblox/src/integrator/integrator_utils.cc:72-125", "voxblox/src/integrator/tsdf_integrator.cc:257-305"]}
{"id": "C115", "title": "The clouds and markers a server publishes show its map", "statement": "Every point cloud and marker a TSDF, ESDF or intensity server publishes shows exactly the voxels of its map its topic stands for, once each, at their centres and in the frame of the map: the distances of measured voxels, the colours of voxels nearer to the surface than three quarters of a voxel, the occupied voxels as opaque cubes of voxel size, the observed distances of the ESDF, the traversable space, the intensities; slices show voxels at most one voxel from their level. The server publishes once on each of its topics. Where the surface passes between two neighbouring voxels one of them is in the surface cloud, and what is in the surface cloud is among the occupied voxels. After each change of the map the clouds received last show it.", "quantifier": "for every map, kind of server, parameter setting and sequence of events (point clouds, timers, requests, map messages, clearing, loading)", "why_tests_cant": "The clouds are looked at, not checked; a voxel missing from a cloud or a cloud that is out of date looks like an unobserved place.", "anchors": ["voxblox_ros/src/tsdf_server.cc:373-491", "voxblox_ros/src/esdf_server.cc:81-143", "voxblox_ros/src/intensity_server.cc:63-73", "voxblox_ros/include/voxblox_ros/ptcloud_vis.h:131-174"]}
{"id": "C116", "title": "The queries of the interpolator agree with one another", "statement": "At every position, in nearest-neighbour and in interpolating mode, getVoxel, getDistance and getWeight succeed together, and where they succeed getDistance and getWeight give the distance and weight of the voxel getVoxel gives. The nearest-neighbour queries read the voxel that contains the position, up to the rounding of the coordinates, and getNearestDistanceAndWeight gives the same two values; it succeeds exactly where getNearestDistance does, or at least its weight tells whether the voxel was observed. A query that returns false leaves its output argument alone.", "quantifier": "all layers with a power-of-two side, all positions within 2^19 voxels of the origin, both modes, all contents of the output arguments", "why_tests_cant": "A test compares two queries at a few positions; agreement at block borders, in allocated but unobserved voxels and for failing queries with a meaningful value already in the output needs all positions.", "anchors": ["voxblox/include/voxblox/interpolator/interpolator_inl.h:14-44", "voxblox/include/voxblox/interpolator/interpolator_inl.h:301-426"]}
{"id": "C117", "title": "The interpolated voxel is defined and close to the eight voxels around it", "statement": "Computed in single precision, getVoxel with interpolation gives a distance, a weight and colour components within the rounding error (for colours: less than 2) of the trilinear interpolation of the eight surrounding voxels; no colour component leaves the range of the eight, the weight of observed voxels stays positive, and the conversion of the colour to bytes is never undefined.", "quantifier": "all layers, all positions up to a stated distance from the origin, all colours, weights and distances, every order of the additions in the matrix products", "why_tests_cant": "The colour leaves the range only where the rounded offset within the cell exceeds one, on a few coordinates just below a voxel centre; truncation then shows it as a wrong byte, and far away the conversion is undefined, which an ordinary build does not report.", "anchors": ["voxblox/include/voxblox/interpolator/interpolator_inl.h:353-367", "voxblox/include/voxblox/interpolator/interpolator_inl.h:428-489"]}
{"id": "C118", "title": "Gradients in single precision", "statement": "Where the voxels around a position are observed and sample a plane up to an error e, the interpolated gradient query succeeds and each component differs from that of the plane by at most a bound given by e, the voxel size, the largest value and the distance from the origin, for every order in which Eigen adds the terms. In nearest-neighbour mode the gradient consists of the central differences of the six neighbours of the voxel at the position, and the query fails if and only if one of them is missing or unobserved. A failing query leaves the output alone.", "quantifier": "For all layers with power-of-two blocks, float voxel sizes, positions within 2^17 voxels of the origin, planes, errors and summation orders.", "why_tests_cant": "The error of a difference quotient divides rounding errors by the voxel size and depends on position, values and summation order; tests compare a few positions with loose tolerances. The lookups at voxel borders flip only at isolated coordinates.", "anchors": ["voxblox/include/voxblox/interpolator/interpolator_inl.h:46-75"]}
{"id": "C119", "title": "The adaptive query gives the distance and gradient of a plane in single precision, also at the border of the observed space", "statement": "Where the voxel at a position and along each axis at least one of its neighbours are observed, and the observed voxels around sample a plane up to an error e, the adaptive distance-and-gradient query succeeds, and its distance and gradient differ from those of the plane by at most bounds given by e, the voxel size, the largest value and the distance from the origin, whichever of interpolation, central, left or right differences and extrapolation from the voxel centre it uses. If the voxel, or both neighbours along some axis, are not observed, it returns false and leaves both outputs alone.", "quantifier": "all layers, float positions within 2^17 voxels of the origin, voxel sizes, block sides 2^k up to 1024, planes, patterns of observed voxels, evaluation orders of the matrix products", "why_tests_cant": "Which of the methods is used depends on the pattern of missing voxels around the position, and rounding decides which voxel a position on a border is looked up in; tests query a few positions in fully observed space.", "anchors": ["voxblox/include/voxblox/interpolator/interpolator_inl.h:77-154", "voxblox/include/voxblox/core/block_inl.h:29-40", "voxblox/include/voxblox/core/block.h:90-92"]}
{"id": "C120", "title": "Merging voxels in single precision", "statement": "Merging TSDF voxels in float arithmetic is defined, and the merged distance is the weighted mean of the distances up to 6 rounding units of the largest distance per merged voxel, the weight the sum of the weights up to 5/4 rounding units per voxel, the colour between the colours; so the order in which maps are merged matters at most by 12 such units per voxel. The mean of two observed ESDF distances lies between them exactly. Merged log-odds are the rounded sum. Voxels within the limits of the integrators (largest weight, log-odds limits) are merged into voxels within these limits.", "quantifier": "all finite distances up to 2^40 m, weights zero or at least 1e-5 with sum up to 2^40, sequences of up to 2^18 voxels and their orders, all float ESDF distances up to 2^125, all limits", "why_tests_cant": "The error accumulates over many merges and depends on magnitudes and order; tests merge two voxels with small integer values and compare with tolerances. Limits are reached only after many observations.", "anchors": ["voxblox/src/utils/voxel_utils.cc:9-39", "voxblox/include/voxblox/core/common.h:105-125", "voxblox/include/voxblox/integrator/occupancy_integrator.h:60-76"]}
{"id": "C121", "title": "Visualizing a saved TSDF map", "statement": "The TSDF visualizer, given a file written by saveMap, shows that map: the distances of observed voxels closer to the surface than the given number of voxels, the distances of all observed voxels, the surface as a mesh message from which a display draws it, as coloured points and as a polygon mesh, each on its topic with the advertised type and in the given frame; the files it writes have the same voxels and surface. Without path, without file or with a file it cannot load it returns 1 and sends nothing; an unknown colour mode sends nothing.", "quantifier": "all TSDF maps, voxel sizes, distance factors, frames, paths and colour modes, whatever follows the map in the file", "why_tests_cant": "The program has no tests; each product depends on every voxel of the map, and a wrong message type shows only when a subscriber connects.", "anchors": ["voxblox_ros/src/visualize_tsdf.cc:26-177", "voxblox_ros/src/visualize_tsdf.cc:181-219", "voxblox_ros/include/voxblox_ros/mesh_vis.h:150-285", "voxblox_ros/include/voxblox_ros/ptcloud_vis.h:130-165"]}
{"id": "C122", "title": "Construction of the simulation server", "statement": "The simulation server starts exactly if the voxel size is positive, the side of a block is usable and at least one attempt per viewpoint is allowed; otherwise the process ends with an error message. The true and the built maps have the same voxels; the true distances are cut off where the integrators cut off theirs; every parameter has the value given or its default; the occupancy map exists exactly if asked for, with the ray length and largest distance of the other maps. A side that is not a power of two is replaced by the default, as in the other servers.", "quantifier": "all values of all parameters", "why_tests_cant": "Tests start the server with one set of parameters; an unusable side is noticed only when the first scan is integrated.", "anchors": ["voxblox_ros/src/simulation_server.cc:22-63", "voxblox_ros/src/simulation_server.cc:65-153", "voxblox_ros/src/simulation_server.cc:155-160", "voxblox_ros/include/voxblox_ros/simulation_server.h:74-111", "voxblox/include/voxblox/core/common.h:226-243"]}
{"id": "C123", "title": "The intensity server shows its map coloured by intensity", "statement": "An intensity server starts exactly when a TSDF server with the same parameters does, keeps intensities in a layer with the voxels of the map, and uses its own parameters or their defaults. If the maximal intensity is above the minimal one, every intensity has a colour, black up to the minimum and white from the maximum on. Clients of `intensity_mesh` have the same blocks and vertices as clients of `mesh`, coloured by the intensities measured so far: each update sends both meshes. Refuted parts: a maximum below the minimum (10 by default) makes everything white and equal limits make colouring undefined; intensities measured after an update are not shown by the next update unless the map changes; meshes sent by the mesh service never reach `intensity_mesh`; clearing the map keeps the intensities.", "quantifier": "all parameters, all maps, all sequences of clouds, images, timer and service calls", "why_tests_cant": "The two topics agree on short runs without the mesh service; that they diverge depends on the order of images, updates and service calls, and on update marks that are invisible from outside.", "anchors": ["voxblox_ros/src/intensity_server.cc:5-61", "voxblox_ros/src/tsdf_server.cc:493-559", "voxblox/include/voxblox/utils/color_maps.h:78-87"]}
{"id": "C124", "title": "Distances to simulated objects in single precision", "statement": "getDistanceToPoint, evaluated in the float and double operations of the code, reports for every point the signed Euclidean distance to the surface of the object up to rounding: for a sphere within 6 units in the last place (2^-24) of the distance to the centre plus the radius, wherever the sphere lies; for a box within kEpsilon plus 64 units of the largest coordinate, whichever branch rounding selects near the surface; for a plane within 13 units of the distances of the point and of the plane's centre from the origin plus the deviation of the normal's length from 1 times the distance of the point from the origin; beside a cylinder within 6 units of the distance to the axis plus the radius, and above or below it within 5 units of the distance plus the largest coordinate. Nothing overflows for coordinates up to 2^30, and the world reports the least of these distances and the maximum with the same error, whatever the order of the objects. The normals that the coloured PlaneObject constructor accepts give planes placed correctly.", "quantifier": "all finite coordinates up to 2^30, all sizes, radii and normals, all points inside, outside and on surfaces, all worlds", "why_tests_cant": "Simulation tests use the reported distance itself as ground truth on worlds of a few metres around the origin; the loss of accuracy depends on rounding at each operation, on the branch taken near a surface, and on the distance from the origin.", "anchors": ["voxblox/include/voxblox/simulation/objects.h:60-63", "voxblox/include/voxblox/simulation/objects.h:113-142", "voxblox/include/voxblox/simulation/objects.h:213-227", "voxblox/include/voxblox/simulation/objects.h:271-298", "voxblox/src/simulation/simulation_world.cc:36-47"]}
{"id": "C125", "title": "Voxel sizes and origins read from files and messages", "statement": "Voxel sizes and block origins are stored in double and used in float. For every stored number the layer or block that is made from it has the nearest float, ties to even; infinities and NaN are kept. A layer is made from exactly the headers that name its voxel type, have a positive side and a voxel size above 2^-150 (smaller positive ones vanish in float); all others abort with a message, none is undefined. A layer made from a header with a voxel size below 2 m is compatible with that header, whether or not the size is a float. Refuted: the same for larger voxels, and that an accepted header gives finite voxels.", "quantifier": "all 2^64 patterns of a double, all voxel types, headers and blocks", "why_tests_cant": "Tests save and load sizes that already are floats, for which no rounding takes place; ties, subnormals and overflow concern single patterns among 2^64.", "anchors": ["voxblox/include/voxblox/core/layer_inl.h:24-40", "voxblox/include/voxblox/core/layer_inl.h:236-270", "voxblox/include/voxblox/core/block_inl.h:73-88"]}
{"id": "C126", "title": "The evaluation program", "statement": "The program that evaluates a saved map against a ground truth cloud: the cloud is judged in the frame of the map, moved by the given transformation, or at the points that it takes to the given ones if it is said to be inverted. The printed numbers do not depend on whether the map is displayed or painted: every point is counted once, the mean square error is over the known points. Without display nothing is sent and the program ends; with display it stays, and sends in the given frame the moved cloud and a marker with the surface of the loaded map, each cube once, painted or not. A saved map is evaluated with the voxels it was saved with; without a path, a map or a cloud the program aborts with a message. Refuted: that a run with painting always ends.", "quantifier": "all parameters, transformations, maps, clouds, orders of the hash map and map files", "why_tests_cant": "The program is a ROS node that prints to the console; it has no tests, and a wrong direction of the transformation or a wrong frame shows only in the numbers.", "anchors": ["voxblox_ros/src/voxblox_eval.cc:80-148", "voxblox_ros/src/voxblox_eval.cc:150-225", "voxblox_ros/src/voxblox_eval.cc:227-267"]}
{"id": "C127", "title": "Where the points of a cloud are placed", "statement": "Without TF, after any messages and questions, a pose that is given out places a point of the sensor like this: the static transform of the sensor gives its position on the robot, the static transform of the dynamic frame says to which position in that frame it belongs, and a transform received before (within the tolerance of the time asked for, or a blend of an older and a newer one) takes that to the world; each static transform may be given the other way round and marked as inverted. This determines the placement, and keeps all distances if the pose is rigid. With TF the pose is the one TF has for the time of the cloud from its frame, or from the sensor frame of the parameters if there is one; there is none if TF has none or throws; messages, earlier questions and static transforms have no influence.", "quantifier": "all parameters, rigid transforms, histories of messages and questions, frames and times", "why_tests_cant": "Mixing up a transform and its inverse goes unnoticed with identity transforms, which is what tests and launch files use; there are no tests of the transformer.", "anchors": ["voxblox_ros/src/transformer.cc:9-67", "voxblox_ros/src/transformer.cc:74-119", "voxblox_ros/src/transformer.cc:121-195"]}
{"id": "C128", "title": "The printed table of timers", "statement": "After any sequence of lookups, recordings and resets, the table written by Timing::Print can be read back: one row for each tag looked up since the last reset, in alphabetical order, columns aligned, each row giving the number of samples of the tag and, if there are any, the total, mean, deviation, smallest and largest as the queries answer them, rounded to the nearest millionth of a second; with no tags nothing is written. The number printed behind the mean as its spread is the standard deviation of the samples the mean was taken of.", "quantifier": "for all histories of registry calls, all tags without tabulators, newlines or blanks at the end, all rounding modes of the arithmetic, all statistics below 10^247 s", "why_tests_cant": "the text depends on all histories, on tags of every length and on every value of five statistics; a test compares a few tables", "anchors": ["voxblox/src/utils/timing.cc:169-214", "voxblox/src/utils/timing.cc:47-63", "voxblox/include/voxblox/utils/timing.h:42-103"]}
{"id": "C129", "title": "The slider for slices moves along its axis and reports its level", "statement": "An InteractiveSlider created for an axis offers two ways to drag it: by one control it moves exactly along that axis, by the other exactly in the plane across it (where its marker is a thin plate), so that the second never changes the level; the callback is told the coordinate along that axis of the position at creation and of every new pose, and nothing else; an empty name or an axis other than 0, 1, 2 stops the program.", "quantifier": "for all names, positions, axes, sizes and sequences of feedback, and all dragging motions", "why_tests_cant": "the orientation sent is an unnormalised quaternion whose meaning is fixed by the display; no test drags a marker", "anchors": ["voxblox_ros/src/interactive_slider.cc:8-107"]}
{"id": "C130", "title": "Converting a TSDF file to an ESDF file", "statement": "When tsdf_to_esdf is given a file that a TSDF layer was saved to, it computes the ESDF with the settings of the command line from exactly that layer, into a layer of the same configuration, and the second file then loads as the result; other files stay as they are. Wrong arguments and an output that cannot be written are reported and change nothing. When the program ends without an error, the whole map in the first file was converted; a file that cannot be read is reported.", "quantifier": "for all layers that can be stored, all paths (also the same twice), settings, contents of the disk, and cuts of the input file", "why_tests_cant": "needs every layer and every damaged file; the program has no tests", "anchors": ["voxblox/test/tsdf_to_esdf.cc:16-65", "voxblox/include/voxblox/io/layer_io_inl.h:130-232"]}
{"id": "C131", "title": "The simulation program", "statement": "In the room of simulation_eval every viewpoint is at least the minimal distance away from ball, box, walls and ground and inside the space of the random positions, and if none is found no position tried was. The ground truth holds in every sampled voxel inside the bounds the truncated distance to the nearest of these things, with its colour. The two numbers printed are the root mean squares of the differences over the voxels known to both maps. With visualize, each of the four layers is shown as a slice on its own topic, with generate_mesh the two surfaces also; without, nothing is.", "quantifier": "for all random positions, numbers of attempts, distances, voxel sizes, maps under test and settings", "why_tests_cant": "needs every random position and every map; the program only prints numbers that nobody compares", "anchors": ["voxblox_ros/src/simulation_eval.cc:14-51", "voxblox_ros/src/simulation_server.cc:279-361", "voxblox_ros/include/voxblox_ros/simulation_server.h"]}
{"id": "C132", "title": "The first scan after the map was cleared or replaced fills it", "statement": "After the map of a fast integrator was cleared, or the integrator was given another layer, the next scan is integrated as by a new integrator: a valid point is left out only if a ray of the same scan started in a voxel of the same hash. (Violated by the code if clear_checks_every_n_frames is larger than one: the sets of seen voxels belong to the integrator and outlive the map, so a repeated scan leaves a cleared map empty.)", "quantifier": "every scan, layer, number of threads, schedule and setting", "why_tests_cant": "needs every schedule; an empty map after a scan is silent, and the default setting hides it", "anchors": ["voxblox/src/integrator/tsdf_integrator.cc:68-80", "voxblox/src/integrator/tsdf_integrator.cc:555-590", "voxblox_ros/src/tsdf_server.cc:628-637"]}
{"id": "C133", "title": "Mesh displays share a scene without colliding", "statement": "For every history of messages and resets of several mesh displays of one process: the names of scene objects belong to one block of one visual, so no message fails on a duplicate name; the scene holds exactly the objects of the visuals that exist, each once; a display without a placed message since its last reset has no visual, otherwise its frame has the pose found for the last message placed and every block shows the picture of the last block sent there. A display that places every message of its sender and is not reset shows after each message exactly what the sender has. (Violated in four ways: messages without a transform are dropped and their blocks are not sent again; blocks shown before a reset are not sent again either; frame nodes are never destroyed, so resets leak them; the instance number wraps after 2^32 visuals, after which names can collide.)", "quantifier": "all histories over any number of displays, all transforms, all messages whose blocks can be drawn; fewer than 2^32 events for the names", "why_tests_cant": "Collisions depend on the text of indices and on the history of several displays; the wrap needs 2^32 visuals", "anchors": ["voxblox_rviz_plugin/src/voxblox_mesh_display.cc:19-47", "voxblox_rviz_plugin/src/voxblox_mesh_visual.cc:12-27", "voxblox_rviz_plugin/src/voxblox_mesh_visual.cc:102-125"]}
{"id": "C134", "title": "Printed settings can be read back", "statement": "The texts that the settings of the TSDF integrators, of the TSDF map and of the mesh integrator print name every setting once with its value, so that a reader that knows nothing but the form of the lines gets back switches and counts exactly and lengths and weights to six digits; equal texts mean equal settings up to six digits. (Violated by integration_order_mode, which is not printed.)", "quantifier": "all values of all settings, including infinities and NaN", "why_tests_cant": "The number of combinations and of floating-point values is too large; a setting that is missing from the text is noticed only by comparing with the structure", "anchors": ["voxblox/src/integrator/tsdf_integrator.cc:592-618", "voxblox/src/core/tsdf_map.cc:99-108", "voxblox/include/voxblox/mesh/mesh_integrator.h:55-65", "voxblox/include/voxblox/integrator/tsdf_integrator.h:56-89"]}
