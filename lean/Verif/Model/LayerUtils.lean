/-
Comparing two layers and centering the blocks of a layer
(voxblox/include/voxblox/utils/layer_utils.h, voxblox/src/utils/layer_utils.cc).
Sizes and origins are exact rationals; the voxels' floats carry NaN, infinities and a parametric rounding.
-/
import Verif.Model.Grid
import Verif.Model.Arith
import Verif.Model.Voxel

namespace Vox.LayerUtils

open Layer Grid

/-- `kTolerance`, voxblox/include/voxblox/utils/layer_utils.h:28, :55 and voxblox/src/utils/layer_utils.cc:11, :27, :45: the
`double` nearest to 1e-10. -/
def kTolerance : ℚ := 7737125245533627 / 2 ^ 86

/-! ### Voxels -/

/-- `std::abs(a - b) < kTolerance`, voxblox/src/utils/layer_utils.cc:13: `float` subtraction, comparison as `double`. -/
def closeFl (A : Arith) (a b : Fl) : Bool := Fl.lt (Fl.abs (A.sub a b)) (.fin kTolerance)

/-- voxblox/src/utils/layer_utils.cc:7-21. -/
def sameTsdf (A : Arith) (a b : TsdfVoxel Fl) : Outcome Bool :=
  .ok (closeFl A a.distance b.distance && closeFl A a.weight b.weight && (a.color.r == b.color.r) && (a.color.g == b.color.g) &&
    (a.color.b == b.color.b) && (a.color.a == b.color.a))

/-- voxblox/src/utils/layer_utils.cc:23-39. -/
def sameEsdf (A : Arith) (a b : EsdfVoxel Fl) : Outcome Bool :=
  .ok (closeFl A a.distance b.distance && (a.observed == b.observed) && (a.inQueue == b.inQueue) && (a.fixed == b.fixed) &&
    (a.parent.x == b.parent.x) && (a.parent.y == b.parent.y) && (a.parent.z == b.parent.z))

/-- voxblox/src/utils/layer_utils.cc:41-52. -/
def sameOcc (A : Arith) (a b : OccVoxel Fl) : Outcome Bool :=
  .ok (closeFl A a.probabilityLog b.probabilityLog && (a.observed == b.observed))

/-- Any other voxel type (intensity voxels), voxblox/include/voxblox/utils/layer_utils.h:16-21. -/
def sameOther {V : Type} (_ _ : V) : Outcome Bool := .fatal

/-! ### Blocks and layers -/

variable {V : Type}

/-- `std::abs(a - b) < kTolerance` on sizes and origins, voxblox/include/voxblox/utils/layer_utils.h:30-41 (exact). -/
def closeQ (a b : ℚ) : Bool := decide (|a - b| < kTolerance)

/-- The loop over the voxels, voxblox/include/voxblox/utils/layer_utils.h:45-48: as many as block A has, no early exit. -/
def sameVoxels (same : V → V → Outcome Bool) (a b : Block ℚ V) (acc : Bool) : Outcome Bool :=
  (List.range (numVoxels a.vps)).foldlM (fun r k => do
    let x ← voxelAt a k
    let y ← voxelAt b k
    let s ← same x y
    pure (r && s)) acc

/-- `block_size_`, voxblox/include/voxblox/core/block.h:38. -/
def blockSizeOf (b : Block ℚ V) : ℚ := b.vps * b.voxelSize

/-- voxblox/include/voxblox/utils/layer_utils.h:23-50 `isSameBlock`. -/
def isSameBlock (same : V → V → Outcome Bool) (a b : Block ℚ V) : Outcome Bool :=
  sameVoxels same a b (closeQ a.voxelSize b.voxelSize && closeQ (blockSizeOf a) (blockSizeOf b) && (a.vps == b.vps) &&
    closeQ a.origin.x b.origin.x && closeQ a.origin.y b.origin.y && closeQ a.origin.z b.origin.z &&
    (numVoxels a.vps == numVoxels b.vps))

/-- voxblox/include/voxblox/core/layer.h:56-70 `getBlockByIndex`. -/
def blockByIndex (l : VLayer V) (i : Idx) : Outcome (Block ℚ V) :=
  match block? l i with
  | some b => .ok b
  | none => .fatal

/-- One of the two loops over block indices, voxblox/include/voxblox/utils/layer_utils.h:73-89 and :90-106: `is` is the list iterated
over, `other` the list searched; both loops hand the block of layer A to `isSameBlock` first. `none` is the early `return false`. -/
def sameBlocks (same : V → V → Outcome Bool) (A B : VLayer V) (other : List Idx) : List Idx → Bool → Outcome (Option Bool)
  | [], acc => .ok (some acc)
  | i :: is, acc =>
    if i ∈ other then do
      let a ← blockByIndex A i
      let b ← blockByIndex B i
      let s ← isSameBlock same a b
      sameBlocks same A B other is (acc && s)
    else .ok none

/-- Sizes in bytes: of the members counted for a layer (layer_inl.h:277-280), for a block (block_inl.h:136-144), and of a voxel.
voxblox/include/voxblox/core/layer_inl.h:273-289. -/
structure Sizes where
  layer : ℕ
  block : ℕ
  voxel : ℕ

/-- voxblox/include/voxblox/core/block_inl.h:132-150 `Block::getMemorySize`. -/
def blockMemory (z : Sizes) (b : Block ℚ V) : ℕ := z.block + numVoxels b.vps * z.voxel

/-- voxblox/include/voxblox/core/layer_inl.h:273-289 `Layer::getMemorySize`: the number of blocks times the size of the first
(no overflow). -/
def layerMemory (z : Sizes) (l : VLayer V) : ℕ :=
  match l.blocks with
  | [] => z.layer
  | e :: _ => z.layer + l.blocks.length * blockMemory z e.2

/-- voxblox/include/voxblox/utils/layer_utils.h:59-71: the comparisons before the loops. -/
def sameHeader (A B : VLayer V) : Bool :=
  closeQ A.cfg.voxelSize B.cfg.voxelSize && closeQ A.cfg.blockSize B.cfg.blockSize && (A.cfg.vps == B.cfg.vps) &&
    (A.blocks.length == B.blocks.length)

/-- voxblox/include/voxblox/utils/layer_utils.h:52-110 `isSameLayer`. The lists of block indices are in the order of the block
maps (`getAllAllocatedBlocks`, layer.h:184-190). -/
def isSameLayer (z : Sizes) (same : V → V → Outcome Bool) (A B : VLayer V) : Outcome Bool := do
  match ← sameBlocks same A B (B.blocks.map (·.1)) (A.blocks.map (·.1)) (sameHeader A B) with
  | none => pure false
  | some r1 =>
    match ← sameBlocks same A B (A.blocks.map (·.1)) (B.blocks.map (·.1)) r1 with
    | none => pure false
    | some r2 => pure (r2 && (layerMemory z A == layerMemory z B))

/-! ### Centering -/

/-- Conversion of a number to `int`: truncation toward zero, voxblox/include/voxblox/utils/layer_utils.h:142-143. -/
def truncZ (q : ℚ) : ℤ := if 0 ≤ q then ⌊q⌋ else ⌈q⌉

/-- The sum of the blocks' origins, voxblox/include/voxblox/utils/layer_utils.h:132-137. -/
def sumOrigins (l : VLayer V) : List Idx → Outcome Pt
  | [] => .ok 0
  | i :: is => do
    let b ← blockByIndex l i
    let s ← sumOrigins l is
    pure (b.origin + s)

/-- `index_centroid`, voxblox/include/voxblox/utils/layer_utils.h:131-143. Without blocks the division 0/0 gives NaN, whose
conversion to `int` is undefined, as is that of a value out of range. -/
def indexCentroid (l : VLayer V) : Outcome Idx := do
  let s ← sumOrigins l (l.blocks.map (·.1))
  if l.blocks.length = 0 then .ub
  else toIdx32 (s.map fun c => truncZ (c / l.blocks.length / l.cfg.blockSize + 1 / 2))

/-- `block_index - index_centroid`, voxblox/include/voxblox/utils/layer_utils.h:167 (`int` overflow is undefined). -/
def shiftIndex (s i : Idx) : Outcome Idx := toIdx32 (i - s)

/-- Dereferencing the result of `getBlockPtrByIndex`, voxblox/include/voxblox/utils/layer_utils.h:161-164. -/
def derefBlock (l : VLayer V) (i : Idx) : Outcome (Block ℚ V) :=
  match block? l i with
  | some b => .ok b
  | none => .ub

/-- The temporary map, voxblox/include/voxblox/utils/layer_utils.h:159-168: `emplace` keeps an existing entry. -/
def shiftBlocks (l : VLayer V) (s : Idx) (newOrigin : Pt) : List Idx → List (Idx × Block ℚ V) → Outcome (List (Idx × Block ℚ V))
  | [], m => .ok m
  | i :: is, m => do
    let b ← derefBlock l i
    let j ← shiftIndex s i
    shiftBlocks l s newOrigin is (if j ∈ m.map (·.1) then m else (j, { b with origin := b.origin - newOrigin }) :: m)

/-- Re-insertion of the temporary map, voxblox/include/voxblox/utils/layer_utils.h:173-177; `insertBlock` (layer.h:152-161) keeps an
existing entry. -/
def insertAll (m : List (Idx × Block ℚ V)) : List (Idx × Block ℚ V) → List (Idx × Block ℚ V)
  | [] => m
  | e :: es => insertAll (if e.1 ∈ m.map (·.1) then m else e :: m) es

/-- voxblox/include/voxblox/utils/layer_utils.h:126-179 `centerBlocksOfLayer`; `order` is the iteration order of the temporary
map. Returns the layer and `*new_layer_origin`. -/
def centerBlocksOfLayer (order : List (Idx × Block ℚ V) → List (Idx × Block ℚ V)) (l : VLayer V) : Outcome (VLayer V × Pt) := do
  let s ← indexCentroid l
  let newOrigin := originPoint s l.cfg.blockSize
  let m ← shiftBlocks l s newOrigin (l.blocks.map (·.1)) []
  let bs := insertAll [] (order m)
  Outcome.check (bs.length == l.blocks.length)
  pure (⟨l.cfg, bs⟩, newOrigin)

end Vox.LayerUtils
