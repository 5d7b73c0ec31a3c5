/-
Grid indices and voxel coordinates in `float` arithmetic (voxblox/include/voxblox/core/common.h:153-201, block.h:29-92,
layer.h:34-44). Every operation is rounded as the hardware does; only overflow beyond 2¹²⁸ is not represented. Multiplications and
additions are taken as separate operations (no contraction to fused multiply-add).
-/
import Verif.Model.Ieee
import Verif.Model.Index
import Verif.Model.FloatBits

namespace Vox.IndexF

open Ieee

/-- voxblox/include/voxblox/core/common.h:142 `kEpsilon`, a `float`. -/
def kEps : ℚ := rnd32 (1 / 1000000)

/-- voxblox/include/voxblox/core/layer.h:37, block.h:37: `voxel_size_inv_ = 1.0 / voxel_size_`, a `double` division stored in a
`float` (also `block_size_inv_`, layer.h:41). -/
def inverse (s : ℚ) : ℚ := rnd32 (rnd64 (1 / s))

/-- voxblox/include/voxblox/core/layer.h:39: `block_size_ = voxel_size_ * voxels_per_side_`, the side converted to `float`. -/
def blockSize (s : ℚ) (vps : ℕ) : ℚ := rnd32 (s * rnd32 vps)

/-- voxblox/include/voxblox/core/common.h:153-159 `getGridIndexFromPoint`, one axis. -/
def gridIndex1 (p inv : ℚ) : ℤ := ⌊rnd32 (rnd32 (p * inv) + kEps)⌋

/-- voxblox/include/voxblox/core/common.h:153-159 `getGridIndexFromPoint`: the conversion to 32-bit integers is undefined if a value
does not fit. -/
def gridIndex (p : Pt) (inv : ℚ) : Outcome Idx := toIdx32 (p.map fun c => gridIndex1 c inv)

/-- voxblox/include/voxblox/core/common.h:179-185 `getGridIndexFromOriginPoint`, one axis. -/
def originIndex1 (p inv : ℚ) : ℤ := roundHalfAway (rnd32 (p * inv))

/-- voxblox/include/voxblox/core/common.h:179-185 `getGridIndexFromOriginPoint`. -/
def originIndex (p : Pt) (inv : ℚ) : Outcome Idx := toIdx32 (p.map fun c => originIndex1 c inv)

/-- voxblox/include/voxblox/core/common.h:187-193 `getCenterPointFromGridIndex`, one axis: `0.5` is a `double`, so the sum and the
product are computed in `double` and the result is stored in a `float`. -/
def center1 (i : ℤ) (s : ℚ) : ℚ := rnd32 (rnd64 (rnd64 (rnd32 i + 1 / 2) * s))

/-- voxblox/include/voxblox/core/common.h:195-201 `getOriginPointFromGridIndex`, one axis. -/
def origin1 (i : ℤ) (s : ℚ) : ℚ := rnd32 (rnd32 i * s)

/-- voxblox/include/voxblox/core/common.h:195-201 `getOriginPointFromGridIndex`. -/
def originPoint (i : Idx) (s : ℚ) : Pt := i.map fun c => origin1 c s

/-- voxblox/include/voxblox/core/common.h:187-193 `getCenterPointFromGridIndex`. -/
def centerPoint (i : Idx) (s : ℚ) : Pt := i.map fun c => center1 c s

/-- voxblox/include/voxblox/core/block.h:90-92 `computeCoordinatesFromVoxelIndex` of a block with the given origin. -/
def voxelCoordinates (origin : Pt) (s : ℚ) (v : Idx) : Pt := Vec3.map₂ (fun o c => rnd32 (o + c)) origin (centerPoint v s)

/-- voxblox/include/voxblox/core/layer.h:128-131 `computeBlockIndexFromCoordinates`. -/
def blockIndex (s : ℚ) (vps : ℕ) (p : Pt) : Outcome Idx := gridIndex p (inverse (blockSize s vps))

/-- voxblox/include/voxblox/core/block_inl.h:29-40 `computeTruncatedVoxelIndexFromCoordinates`. -/
def truncatedVoxelIndex (origin : Pt) (s : ℚ) (vps : ℕ) (p : Pt) : Outcome Idx := do
  let maxValue : ℤ := wrap32 (vps - 1)
  let i ← gridIndex (Vec3.map₂ (fun c o => rnd32 (c - o)) p origin) (inverse s)
  pure (i.map fun c => max (min c maxValue) 0)

/-- voxblox/include/voxblox/core/layer.h:241-248 `getVoxelPtrByCoordinates`, block.h:78-81: the voxel a coordinate refers to, as its
block (whose origin was set on allocation, layer.h:133-137) and the voxel in it. -/
def lookup (s : ℚ) (vps : ℕ) (p : Pt) : Outcome (Idx × Idx) := do
  let b ← blockIndex s vps p
  let v ← truncatedVoxelIndex (originPoint b (blockSize s vps)) s vps p
  pure (b, v)

/-- The coordinates of voxel `v` of block `b`, voxblox/include/voxblox/core/block.h:90-92 with the origin set on allocation,
layer.h:133-137. -/
def coordinatesOf (s : ℚ) (vps : ℕ) (b v : Idx) : Pt := voxelCoordinates (originPoint b (blockSize s vps)) s v

/-- The number of a finite bit pattern; `none` for infinities and NaN. C++ `float` members, voxblox/include/voxblox/core/block.h:205-214. -/
def finite (w : Word) : Option ℚ :=
  match FloatBits.fl32 w with
  | .fin q => some q
  | _ => none

/-- The block index under which a block read from a file is inserted, from the bit patterns of the voxel size and of the block's
origin: voxblox/include/voxblox/core/layer_inl.h:197-200 with `block_size_inv_` of layer_inl.h:33-37. Converting a NaN or an infinity to
an integer is undefined. -/
def idxOfBits (voxelSize : Word) (vps : ℕ) (origin : Vec3 Word) : Outcome Idx :=
  match finite voxelSize, finite origin.x, finite origin.y, finite origin.z with
  | some s, some x, some y, some z => originIndex ⟨x, y, z⟩ (inverse (blockSize s vps))
  | _, _, _, _ => .ub

end Vox.IndexF
