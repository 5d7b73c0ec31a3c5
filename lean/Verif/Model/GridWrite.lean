/-
Writing to a value-level layer: block allocation and voxel access
(voxblox/include/voxblox/core/layer.h, block.h).
-/
import Verif.Model.Grid

namespace Vox.Grid

open Layer

variable {V : Type}

/-- voxblox/include/voxblox/core/layer.h:95-103 `allocateBlockPtrByIndex` and :133-145 `allocateNewBlock`; `dflt` is the
default-constructed voxel. -/
def allocateBlock (dflt : V) (l : VLayer V) (i : Idx) : VLayer V :=
  match block? l i with
  | some _ => l
  | none => { l with blocks := (i, Block.new dflt l.cfg.vps l.cfg.voxelSize (originPoint i l.cfg.blockSize)) :: l.blocks }

/-- Change a block through its pointer, voxblox/include/voxblox/core/layer.h:72-89 (blocks of one layer are not shared,
C10). -/
def modifyBlock (l : VLayer V) (i : Idx) (f : Block ℚ V → Block ℚ V) : VLayer V :=
  { l with blocks := l.blocks.map fun e => if e.1 = i then (e.1, f e.2) else e }

/-- Reading through `getVoxelByVoxelIndex`, voxblox/include/voxblox/core/block.h:101-103, of the block behind
`getBlockPtrByIndex`: a missing block is dereferenced. -/
def readVoxel (l : VLayer V) (i v : Idx) : Outcome V :=
  match block? l i with
  | none => .ub
  | some b => voxelByIndex b v

/-- Assignment through the reference returned by `getVoxelByVoxelIndex`,
voxblox/include/voxblox/core/block.h:144-146. -/
def writeVoxel (l : VLayer V) (i v : Idx) (x : V) : Outcome (VLayer V) :=
  match block? l i with
  | none => .ub
  | some b =>
    if linearIndex b.vps v < b.voxels.length then
      .ok (modifyBlock l i fun b => { b with voxels := b.voxels.set (linearIndex b.vps v) x })
    else .ub

/-- voxblox/include/voxblox/core/common.h:245-255 `getBlockAndVoxelIndexFromGlobalVoxelIndex` for any side: sides that are
not a power of two abort (common.h:238), the block index computed before that is of no further use. -/
def splitGlobal (vps : ℕ) (g : Idx) : Outcome (Idx × Idx) :=
  if vps = 2 ^ Nat.log2 vps then blockAndVoxelFromGlobal (Nat.log2 vps) g else .fatal

/-- voxblox/include/voxblox/core/block.h:170-179: the two status fields of a block, written together. -/
def setStatus (l : VLayer V) (i : Idx) (hasData : Bool) (u : Flags) : VLayer V :=
  modifyBlock l i fun b => { b with hasData := hasData, updated := u }

end Vox.Grid
