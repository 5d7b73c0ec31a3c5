/-
Index arithmetic of voxblox: grid indices, block/voxel/global indices, neighbours.
-/
import Verif.Model.Basic

namespace Vox

/-! ### Linear index inside a block -/

/-- voxblox/include/voxblox/core/block_inl.h:12-27 `computeLinearIndexFromVoxelIndex`.
The sum is evaluated in `size_t` (64 bit, wraps); the `DCHECK`s are not active in release. -/
def linearIndex (vps : ℕ) (v : Idx) : ℕ := wrapU64 (v.x + vps * (v.y + v.z * vps))

/-- voxblox/include/voxblox/core/block_inl.h:42-54 `computeVoxelIndexFromLinearIndex`.
`std::div` is the `int` overload: both arguments are first converted to 32-bit `int`; it truncates
toward zero; a zero divisor is undefined behaviour. -/
def voxelIndexFromLinear (vps : ℕ) (l : ℕ) : Outcome Idx :=
  let rem := wrap32 l
  let d2 := wrap32 (vps * vps)
  let d1 := wrap32 vps
  if d2 = 0 ∨ d1 = 0 then .ub
  else
    let z := rem.tdiv d2
    let rem' := rem.tmod d2
    .ok ⟨rem'.tmod d1, rem'.tdiv d1, z⟩

/-- voxblox/include/voxblox/core/block_inl.h:56-71 `isValidVoxelIndex`. -/
def isValidVoxelIndex (vps : ℕ) (v : Idx) : Bool :=
  if v.x < 0 ∨ v.x ≥ wrap32 vps then false
  else if v.y < 0 ∨ v.y ≥ wrap32 vps then false
  else if v.z < 0 ∨ v.z ≥ wrap32 vps then false
  else true

/-- voxblox/include/voxblox/core/block.h:36 `num_voxels_`. -/
def numVoxels (vps : ℕ) : ℕ := vps * vps * vps

/-- voxblox/include/voxblox/core/block.h:150-155 `isValidLinearIndex`. -/
def isValidLinearIndex (vps : ℕ) (l : ℕ) : Bool := if l ≥ numVoxels vps then false else true

/-! ### Grid index of a point -/

/-- voxblox/include/voxblox/core/common.h:142 `kEpsilon` (exact decimal value). -/
def kEpsilon : ℚ := 1 / 1000000

/-- voxblox/include/voxblox/core/common.h:166-171 `getGridIndexFromPoint(scaled_point)`, one axis.
Exact arithmetic. -/
def gridIndexScaled1 (p : ℚ) : ℤ := ⌊p + kEpsilon⌋

/-- voxblox/include/voxblox/core/common.h:166-171 `getGridIndexFromPoint(scaled_point)`. -/
def gridIndexScaled (p : Pt) : Idx := p.map gridIndexScaled1

/-- voxblox/include/voxblox/core/common.h:153-159 `getGridIndexFromPoint(point, grid_size_inv)`. -/
def gridIndex (p : Pt) (inv : ℚ) : Idx := p.map fun c => ⌊c * inv + kEpsilon⌋

/-- C `round`: nearest integer, ties away from zero.
Serves the model of voxblox/include/voxblox/core/common.h:153-255. -/
def roundHalfAway (q : ℚ) : ℤ := if 0 ≤ q then ⌊q + 1 / 2⌋ else ⌈q - 1 / 2⌉

/-- voxblox/include/voxblox/core/common.h:179-185 `getGridIndexFromOriginPoint`. -/
def gridIndexFromOrigin (p : Pt) (inv : ℚ) : Idx := p.map fun c => roundHalfAway (c * inv)

/-- voxblox/include/voxblox/core/common.h:187-193 `getCenterPointFromGridIndex`. -/
def centerPoint (i : Idx) (size : ℚ) : Pt := i.map fun (c : ℤ) => ((c : ℚ) + 1 / 2) * size

/-- voxblox/include/voxblox/core/common.h:195-201 `getOriginPointFromGridIndex`. -/
def originPoint (i : Idx) (size : ℚ) : Pt := i.map fun (c : ℤ) => (c : ℚ) * size

/-- voxblox/include/voxblox/core/block.h:65-70 `computeVoxelIndexFromCoordinates`
(exact arithmetic, `voxel_size_inv_` = 1 / `voxel_size_`, block.h:37). -/
def voxelIndexFromCoordinates (origin : Pt) (voxelSize : ℚ) (p : Pt) : Idx :=
  gridIndex (p - origin) (1 / voxelSize)

/-- The conversion of three floored floats to `int` performed by `IndexType(...)` in
voxblox/include/voxblox/core/common.h:156-158 when `IndexType` is a 32-bit index: undefined when a
value does not fit. -/
def toIdx32 (i : Idx) : Outcome Idx := if i.All IsI32 then .ok i else .ub

/-- voxblox/include/voxblox/core/common.h:153-159 `getGridIndexFromPoint<BlockIndex>` /
`<VoxelIndex>` including the conversion to 32-bit integers. -/
def gridIndex32 (p : Pt) (inv : ℚ) : Outcome Idx := toIdx32 (gridIndex p inv)

/-- voxblox/include/voxblox/core/block_inl.h:29-40 `computeTruncatedVoxelIndexFromCoordinates`. -/
def truncatedVoxelIndex (vps : ℕ) (origin : Pt) (voxelSize : ℚ) (p : Pt) : Outcome Idx := do
  let maxValue : ℤ := wrap32 (vps - 1)
  let i ← gridIndex32 (p - origin) (1 / voxelSize)
  pure (i.map fun c => max (min c maxValue) 0)

/-- voxblox/include/voxblox/core/block.h:90-92 `computeCoordinatesFromVoxelIndex`. -/
def coordinatesFromVoxelIndex (origin : Pt) (voxelSize : ℚ) (v : Idx) : Pt :=
  origin + centerPoint v voxelSize

/-! ### Block index, voxel index, global index -/

/-- voxblox/include/voxblox/core/common.h:208-213 `getGlobalVoxelIndexFromBlockAndVoxelIndex`
(64-bit arithmetic; cannot overflow for 32-bit inputs). -/
def globalIndex (vps : ℕ) (b v : Idx) : Idx := Vec3.map₂ (fun b v => b * vps + v) b v

/-- Conversion of a non-negative integer to `float`: round to nearest, ties to even, with a 24-bit
significand (IEEE binary32; no overflow below 2^127). Used by the cast in
voxblox/include/voxblox/core/common.h:218. -/
def natToF32 (n : ℕ) : ℕ :=
  let e := (Nat.log2 n + 1) - 24
  let q := n / 2 ^ e
  let r := n % 2 ^ e
  if e = 0 then n
  else if r * 2 > 2 ^ e ∨ (r * 2 = 2 ^ e ∧ q % 2 = 1) then (q + 1) * 2 ^ e
  else q * 2 ^ e

/-- `static_cast<FloatingPoint>(int64)`, voxblox/include/voxblox/core/common.h:218. The result is
always an integer. -/
def intToF32 (n : ℤ) : ℤ := if n < 0 then -(natToF32 n.natAbs : ℤ) else natToF32 n.natAbs

/-- voxblox/include/voxblox/core/common.h:215-224 `getBlockIndexFromGlobalVoxelIndex`, one axis, for a
block side that is a power of two `2^k`: then `voxels_per_side_inv` and the product are exact. The
conversion of the floored float to a 32-bit `int` is undefined out of range. -/
def blockFromGlobal1 (k : ℕ) (g : ℤ) : Outcome ℤ :=
  let b := ⌊(intToF32 g : ℚ) * (1 / 2 ^ k)⌋
  if IsI32 b then .ok b else .ub

/-- voxblox/include/voxblox/core/common.h:215-224 `getBlockIndexFromGlobalVoxelIndex`. -/
def blockFromGlobal (k : ℕ) (g : Idx) : Outcome Idx := do
  let x ← blockFromGlobal1 k g.x
  let y ← blockFromGlobal1 k g.y
  let z ← blockFromGlobal1 k g.z
  pure ⟨x, y, z⟩

/-- voxblox/include/voxblox/core/common.h:226 `isPowerOfTwo`, on a 32-bit `int` (`x - 1` overflows for
`INT_MIN`, which is undefined). -/
def isPowerOfTwo (x : ℤ) : Outcome Bool :=
  if x = -2 ^ 31 then .ub
  else .ok ((BitVec.ofInt 32 x &&& BitVec.ofInt 32 (x - 1)) == 0#32)

/-- voxblox/include/voxblox/core/common.h:236: the constant `1 << 31` of type `int`. -/
def localOffset : ℤ := -2 ^ 31

/-- voxblox/include/voxblox/core/common.h:240-242, one axis: 64-bit addition (overflow is undefined),
bitwise and, conversion to `int`. -/
def localFromGlobal1 (vps : ℤ) (g : ℤ) : Outcome ℤ :=
  if IsI64 (g + localOffset) then
    .ok (wrap32 (BitVec.ofInt 64 (g + localOffset) &&& BitVec.ofInt 64 (vps - 1)).toInt)
  else .ub

/-- voxblox/include/voxblox/core/common.h:233-243 `getLocalFromGlobalVoxelIndex`. -/
def localFromGlobal (vps : ℤ) (g : Idx) : Outcome Idx := do
  let p ← isPowerOfTwo vps
  Outcome.check p
  let x ← localFromGlobal1 vps g.x
  let y ← localFromGlobal1 vps g.y
  let z ← localFromGlobal1 vps g.z
  pure ⟨x, y, z⟩

/-- voxblox/include/voxblox/core/common.h:245-255 `getBlockAndVoxelIndexFromGlobalVoxelIndex`, for a
block side `2^k`. -/
def blockAndVoxelFromGlobal (k : ℕ) (g : Idx) : Outcome (Idx × Idx) := do
  let b ← blockFromGlobal k g
  let v ← localFromGlobal (2 ^ k) g
  pure (b, v)

/-! ### Neighbours -/

/-- The inner `while` loops of voxblox/include/voxblox/utils/neighbor_tools.h:72-80, lower border: returns
(block, voxel) of one axis. `fuel` bounds the number of iterations. -/
def carryUp (vps : ℕ) : ℕ → ℤ × ℤ → ℤ × ℤ
  | 0, s => s
  | n + 1, (b, v) => if v < 0 then carryUp vps n (b - 1, v + vps) else (b, v)

/-- The inner `while` loops of voxblox/include/voxblox/utils/neighbor_tools.h:72-80, upper border. -/
def carryDown (vps : ℕ) : ℕ → ℤ × ℤ → ℤ × ℤ
  | 0, s => s
  | n + 1, (b, v) => if v ≥ vps then carryDown vps n (b + 1, v - vps) else (b, v)

/-- One axis of voxblox/include/voxblox/utils/neighbor_tools.h:71-81. The fuel `|v| + 1` suffices for
every positive side (proved in `Verif.Lemmas.Index`). -/
def neighborAxis (vps : ℕ) (b v : ℤ) : ℤ × ℤ :=
  let s := carryUp vps (v.natAbs + 1) (b, v)
  carryDown vps (s.2.natAbs + 1) s

/-- voxblox/include/voxblox/utils/neighbor_tools.h:60-82 `getFromBlockAndVoxelIndexAndDirection`. -/
def neighborFromDirection (vps : ℕ) (b v d : Idx) : Outcome (Idx × Idx) := do
  Outcome.check (decide (0 < vps))
  let x := neighborAxis vps b.x (v.x + d.x)
  let y := neighborAxis vps b.y (v.y + d.y)
  let z := neighborAxis vps b.z (v.z + d.z)
  pure (⟨x.1, y.1, z.1⟩, ⟨x.2, y.2, z.2⟩)

/-- voxblox/src/utils/neighbor_tools.cc:24-30 `kOffsets`, row x. -/
def kOffsetsX : List ℤ :=
  [-1,  1,  0,  0,  0,  0, -1, -1,  1,  1,  0,  0,  0,  0, -1,  1, -1,  1, -1, -1, -1, -1,  1,  1,  1,  1]
/-- voxblox/src/utils/neighbor_tools.cc:24-30 `kOffsets`, row y. -/
def kOffsetsY : List ℤ :=
  [ 0,  0, -1,  1,  0,  0, -1,  1, -1,  1, -1, -1,  1,  1,  0,  0,  0,  0, -1, -1,  1,  1, -1, -1,  1,  1]
/-- voxblox/src/utils/neighbor_tools.cc:24-30 `kOffsets`, row z. -/
def kOffsetsZ : List ℤ :=
  [ 0,  0,  0,  0, -1,  1,  0,  0,  0,  0, -1,  1, -1,  1, -1, -1,  1,  1, -1,  1, -1,  1, -1,  1, -1,  1]

/-- voxblox/src/utils/neighbor_tools.cc:24-34 `kOffsets` / `kLongOffsets`: the columns of the matrix. -/
def kOffsets : List Idx :=
  List.zipWith (fun x (yz : ℤ × ℤ) => ⟨x, yz.1, yz.2⟩) kOffsetsX (List.zip kOffsetsY kOffsetsZ)

/-- The kind of an entry of the distance table: `1`, `sqrt 2` or `sqrt 3`, stored as its square.
Serves the model of voxblox/include/voxblox/core/common.h:153-255. -/
abbrev DistSq := ℕ

/-- voxblox/src/utils/neighbor_tools.cc:8-21 `kDistances`; entries are stored as their squares
(1, 2, 3), the code stores `1`, `sqrt(2)`, `sqrt(3)`. -/
def kDistancesSq : List DistSq :=
  [1, 1, 1, 1, 1, 1,
   2, 2, 2, 2,
   2, 2, 2, 2,
   2, 2, 2, 2,
   3, 3, 3, 3,
   3, 3, 3, 3]

/-- voxblox/include/voxblox/utils/neighbor_tools.h:46-52 `getFromGlobalIndex` with connectivity `n`. -/
def neighborsFromGlobal (n : ℕ) (g : Idx) : List Idx := (kOffsets.take n).map (g + ·)

/-- voxblox/include/voxblox/utils/neighbor_tools.h:90-102 `getFromBlockAndVoxelIndex`. -/
def neighborsFromBlockAndVoxel (n : ℕ) (vps : ℕ) (b v : Idx) : Outcome (List (Idx × Idx)) :=
  (kOffsets.take n).mapM (neighborFromDirection vps b v)

/-- voxblox/include/voxblox/utils/neighbor_tools.h:105-113 `getOffsetBetweenVoxels`. -/
def offsetBetweenVoxels (vps : ℕ) (sb sv eb ev : Idx) : Outcome Idx := do
  Outcome.check (decide (vps ≠ 0))
  pure ((ev - sv) + (eb - sb).map (· * (vps : ℤ)))

/-- One axis of voxblox/src/integrator/esdf_occ_integrator.cc:278-287. -/
def occNeighborAxis (vps : ℕ) (b v : ℤ) : ℤ × ℤ :=
  if v < 0 then (b - 1, v + vps)
  else if v ≥ vps then (b + 1, v - vps)
  else (b, v)

/-- voxblox/src/integrator/esdf_occ_integrator.cc:267-288 `EsdfOccIntegrator::getNeighbor`. -/
def occNeighbor (vps : ℕ) (b v d : Idx) : Idx × Idx :=
  let x := occNeighborAxis vps b.x (v.x + d.x)
  let y := occNeighborAxis vps b.y (v.y + d.y)
  let z := occNeighborAxis vps b.z (v.z + d.z)
  (⟨x.1, y.1, z.1⟩, ⟨x.2, y.2, z.2⟩)

/-- Assignment of one component of an Eigen 3-vector, `direction(i) = j`.
Serves the model of voxblox/include/voxblox/core/common.h:153-255. -/
def setAxis (d : Idx) (i : ℕ) (j : ℤ) : Idx :=
  if i = 0 then { d with x := j } else if i = 1 then { d with y := j } else { d with z := j }

/-- The directions visited by voxblox/src/integrator/esdf_occ_integrator.cc:214-262, with the squared
distance emitted for each, in program order. -/
def occDirections : List (Idx × DistSq) :=
  let signs : List ℤ := [-1, 1]
  -- 217-228
  ([0, 1, 2].flatMap fun i => signs.map fun j => (setAxis 0 i j, 1)) ++
  -- 231-246
  ([0, 1, 2].flatMap fun i => signs.flatMap fun j => signs.map fun k =>
    (setAxis (setAxis 0 i j) ((i + 1) % 3) k, 2)) ++
  -- 249-262
  (signs.flatMap fun i => signs.flatMap fun j => signs.map fun k => (⟨i, j, k⟩, 3))

/-- voxblox/src/integrator/esdf_occ_integrator.cc:198-265 `getNeighborsAndDistances`
(neighbour, squared distance factor, direction). -/
def occNeighbors (vps : ℕ) (b v : Idx) : List ((Idx × Idx) × DistSq × Idx) :=
  occDirections.map fun d => (occNeighbor vps b v d.1, d.2, d.1)

/-- voxblox/include/voxblox/core/common.h:258 `signum`. -/
def signum (x : ℚ) : ℤ := if x = 0 then 0 else if x < 0 then -1 else 1

end Vox
