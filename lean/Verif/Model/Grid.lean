/-
A layer as a value: configuration and block map, with the read accessors that the map algorithms use
(voxblox/include/voxblox/core/layer.h, block.h). Pointer identity is not needed here; the pointer model is
in Model/Layer.lean.
-/
import Verif.Model.Layer

namespace Vox.Grid

open Layer

/-- A layer: configuration and block map, voxblox/include/voxblox/core/layer.h:284-295 (exact sizes). -/
structure VLayer (V : Type) where
  cfg : Cfg
  blocks : List (Idx × Block ℚ V)
deriving DecidableEq

variable {V : Type}

/-- voxblox/include/voxblox/core/layer.h:72-89 `getBlockPtrByIndex` (`none` is the null pointer). -/
def block? (l : VLayer V) (i : Idx) : Option (Block ℚ V) := l.blocks.lookup i

/-- voxblox/include/voxblox/core/layer.h:128-131 `computeBlockIndexFromCoordinates`. -/
def blockIndexOf (l : VLayer V) (p : Pt) : Outcome Idx := gridIndex32 p (1 / l.cfg.blockSize)

/-- voxblox/include/voxblox/core/layer.h:105-112 `getBlockPtrByCoordinates`. -/
def blockAtCoords (l : VLayer V) (p : Pt) : Outcome (Option (Block ℚ V)) := do
  let i ← blockIndexOf l p
  pure (block? l i)

/-- voxblox/include/voxblox/core/block.h:97-99 `getVoxelByLinearIndex` (reading outside the array is
undefined; the `DCHECK`s are not active in release builds). -/
def voxelAt (b : Block ℚ V) (n : ℕ) : Outcome V :=
  match b.voxels[n]? with
  | some v => .ok v
  | none => .ub

/-- voxblox/include/voxblox/core/block.h:101-103 `getVoxelByVoxelIndex`. -/
def voxelByIndex (b : Block ℚ V) (v : Idx) : Outcome V := voxelAt b (linearIndex b.vps v)

/-- voxblox/include/voxblox/core/block.h:111-113 `getVoxelByCoordinates`. -/
def voxelByCoords (b : Block ℚ V) (p : Pt) : Outcome V := do
  let v ← truncatedVoxelIndex b.vps b.origin b.voxelSize p
  voxelByIndex b v

/-- voxblox/include/voxblox/core/block.h:90-92 `computeCoordinatesFromVoxelIndex`. -/
def centerOf (b : Block ℚ V) (v : Idx) : Pt := coordinatesFromVoxelIndex b.origin b.voxelSize v

end Vox.Grid
