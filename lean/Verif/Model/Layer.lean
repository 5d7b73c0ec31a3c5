/-
Blocks and layers (voxblox/include/voxblox/core/block.h, block_inl.h, layer.h, layer_inl.h).

A layer is an unordered map from block index to `std::shared_ptr<Block>`. The map is an association list
(the order of the list stands for the unspecified iteration order), blocks live in a heap of pointers,
so sharing and independence of blocks can be expressed.
-/
import Verif.Model.Index
import Mathlib.Logic.Function.Basic

namespace Vox.Layer

/-- voxblox/include/voxblox/core/block.h:15-18 `Update::Status`. -/
inductive Consumer where
  | map
  | mesh
  | esdf
deriving DecidableEq, Repr

/-- `std::bitset<Update::kCount>`, voxblox/include/voxblox/core/block.h:214. -/
structure Flags where
  map : Bool
  mesh : Bool
  esdf : Bool
deriving DecidableEq, Repr

namespace Flags

/-- `updated()[bit]`, voxblox/include/voxblox/core/layer.h:199. -/
def get (f : Flags) : Consumer → Bool
  | .map => f.map
  | .mesh => f.mesh
  | .esdf => f.esdf

/-- `updated().set()`, voxblox/include/voxblox/core/block_inl.h:120. -/
def setAll : Flags := ⟨true, true, true⟩

/-- `updated().set(bit, value)` / `updated().reset(bit)`, e.g.
voxblox/include/voxblox/mesh/mesh_integrator.h:181, voxblox/src/integrator/esdf_integrator.cc:116-118. -/
def put (f : Flags) (c : Consumer) (v : Bool) : Flags :=
  match c with
  | .map => { f with map := v }
  | .mesh => { f with mesh := v }
  | .esdf => { f with esdf := v }

/-- The implicit conversion of a `bool` to `std::bitset<3>` in `set_updated(true)` and in the
constructor's `updated_(false)` (voxblox/include/voxblox/core/block.h:35, :176-178): the bool becomes
the integer 0 or 1, so only bit 0 (`kMap`) can be set. -/
def ofBool (b : Bool) : Flags := ⟨b, false, false⟩

end Flags

/-- voxblox/include/voxblox/core/block.h:190-214; `F` represents `float` (exact rationals here, bit
patterns in the file format). The voxel array is in linear-index order. -/
structure Block (F V : Type) where
  vps : ℕ
  voxelSize : F
  origin : Vec3 F
  hasData : Bool
  updated : Flags
  voxels : List V
deriving DecidableEq, Repr

/-- voxblox/include/voxblox/core/block.h:30-41: constructor; `dflt` is the default voxel. -/
def Block.new {F V : Type} (dflt : V) (vps : ℕ) (voxelSize : F) (origin : Vec3 F) : Block F V :=
  { vps := vps, voxelSize := voxelSize, origin := origin, hasData := false,
    updated := Flags.ofBool false, voxels := List.replicate (numVoxels vps) dflt }

/-- voxblox/include/voxblox/core/block_inl.h:111-129 `mergeBlock(other)`; `mergeV a b` is
`mergeVoxelAIntoVoxelB(a, &b)`. The voxel loop runs over this block's linear indices. -/
def Block.merge {F V : Type} [DecidableEq F] (mergeV : V → V → V) (self other : Block F V) :
    Outcome (Block F V) := do
  Outcome.check (decide (other.voxelSize = self.voxelSize))
  Outcome.check (decide (other.vps = self.vps))
  if other.hasData then
    pure { self with hasData := true, updated := Flags.setAll,
                     voxels := List.zipWith mergeV other.voxels self.voxels }
  else pure self

/-- Configuration of a layer, voxblox/include/voxblox/core/layer.h:34-44. -/
structure Cfg where
  voxelSize : ℚ
  vps : ℕ
deriving DecidableEq, Repr

/-- `block_size_`, voxblox/include/voxblox/core/layer.h:39. -/
def Cfg.blockSize (c : Cfg) : ℚ := c.voxelSize * c.vps

/-- voxblox/include/voxblox/core/layer.h:34-44: the constructor's checks. -/
def Cfg.ctor (voxelSize : ℚ) (vps : ℕ) : Outcome Cfg := do
  Outcome.check (decide (0 < voxelSize))
  Outcome.check (decide (0 < voxelSize * vps))
  Outcome.check (decide (0 < vps))
  pure ⟨voxelSize, vps⟩

/-- Identity of a heap-allocated block (`std::shared_ptr`).
Serves the model of voxblox/include/voxblox/core/layer.h:24-296. -/
abbrev Ptr := ℕ

/-- `block_map_`, voxblox/include/voxblox/core/layer.h:30-31, :295. -/
abbrev BlockMap := List (Idx × Ptr)

/-- The heap: contents of every allocated block and the next unused pointer.
Serves the model of voxblox/include/voxblox/core/layer.h:24-296. -/
structure Mem (V : Type) where
  heap : Ptr → Block ℚ V
  next : Ptr

/-- Heap allocation of a block (`std::make_shared<BlockType>(...)`, layer.h:135-137). -/
def Mem.alloc {V : Type} (m : Mem V) (b : Block ℚ V) : Mem V × Ptr :=
  ({ heap := Function.update m.heap m.next b, next := m.next + 1 }, m.next)

/-- Mutation of a block through a pointer. Serves the model of voxblox/include/voxblox/core/layer.h:24-296. -/
def Mem.write {V : Type} (m : Mem V) (p : Ptr) (f : Block ℚ V → Block ℚ V) : Mem V :=
  { m with heap := Function.update m.heap p (f (m.heap p)) }

/-- A memory together with one layer's map.
Serves the model of voxblox/include/voxblox/core/layer.h:24-296. -/
structure St (V : Type) where
  mem : Mem V
  map : BlockMap

section ops
variable {V : Type}

/-- A freshly constructed layer (empty map) in an empty heap.
Serves the model of voxblox/include/voxblox/core/layer.h:24-296. -/
def St.empty (dflt : V) : St V := { mem := { heap := fun _ => Block.new dflt 0 0 0, next := 0 }, map := [] }

/-- voxblox/include/voxblox/core/layer.h:207-209 `hasBlock`. -/
def hasBlock (s : St V) (i : Idx) : Bool := (s.map.lookup i).isSome

/-- voxblox/include/voxblox/core/layer.h:205 `getNumberOfAllocatedBlocks`. -/
def numBlocks (s : St V) : ℕ := s.map.length

/-- voxblox/include/voxblox/core/layer.h:72-89 `getBlockPtrByIndex` (`none` is the null pointer). -/
def getBlockPtr (s : St V) (i : Idx) : Option Ptr := s.map.lookup i

/-- voxblox/include/voxblox/core/layer.h:56-70 `getBlockByIndex`. -/
def getBlock (s : St V) (i : Idx) : Outcome (Block ℚ V) :=
  match s.map.lookup i with
  | some p => .ok (s.mem.heap p)
  | none => .fatal

/-- voxblox/include/voxblox/core/layer.h:133-145 `allocateNewBlock`: `emplace` keeps an existing
entry; that this does not happen is only a `DCHECK` (active when `dbg`). -/
def allocateNewBlock (dbg : Bool) (cfg : Cfg) (dflt : V) (s : St V) (i : Idx) : Outcome (St V × Ptr) :=
  let (mem', p) := s.mem.alloc (Block.new dflt cfg.vps cfg.voxelSize (originPoint i cfg.blockSize))
  match s.map.lookup i with
  | some q => if dbg then .fatal else .ok (⟨mem', s.map⟩, q)
  | none => .ok (⟨mem', (i, p) :: s.map⟩, p)

/-- voxblox/include/voxblox/core/layer.h:95-103 `allocateBlockPtrByIndex`. -/
def allocateBlockPtr (dbg : Bool) (cfg : Cfg) (dflt : V) (s : St V) (i : Idx) : Outcome (St V × Ptr) :=
  match s.map.lookup i with
  | some p => .ok (s, p)
  | none => allocateNewBlock dbg cfg dflt s i

/-- voxblox/include/voxblox/core/layer.h:152-161 `insertBlock` of a pointer: `insert` keeps an existing
entry; that this does not happen is only a `DCHECK`. -/
def insertBlock (dbg : Bool) (s : St V) (i : Idx) (p : Ptr) : Outcome (St V) :=
  match s.map.lookup i with
  | some _ => if dbg then .fatal else .ok s
  | none => .ok { s with map := (i, p) :: s.map }

/-- `unordered_map::erase(key)`. Serves the model of voxblox/include/voxblox/core/layer.h:24-296. -/
def eraseKey (m : BlockMap) (i : Idx) : BlockMap := m.filter fun e => e.1 ≠ i

/-- voxblox/include/voxblox/core/layer.h:163 `removeBlock`. -/
def removeBlock (s : St V) (i : Idx) : St V := { s with map := eraseKey s.map i }

/-- voxblox/include/voxblox/core/layer.h:164 `removeAllBlocks`. -/
def removeAllBlocks (s : St V) : St V := { s with map := [] }

/-- Eigen's `squaredNorm()` (exact). Serves the model of voxblox/include/voxblox/core/layer.h:24-296. -/
def sqNorm (p : Pt) : ℚ := p.x * p.x + p.y * p.y + p.z * p.z

/-- voxblox/include/voxblox/core/layer.h:170-182 `removeDistantBlocks` (two loops: collect, erase). -/
def removeDistantBlocks (s : St V) (center : Pt) (d : ℚ) : St V :=
  let needsErasing := (s.map.filter fun e => sqNorm ((s.mem.heap e.2).origin - center) > d * d).map (·.1)
  { s with map := needsErasing.foldl eraseKey s.map }

/-- voxblox/include/voxblox/core/layer.h:184-192 `getAllAllocatedBlocks`. -/
def allBlocks (s : St V) : List Idx := s.map.map (·.1)

/-- voxblox/include/voxblox/core/layer.h:194-203 `getAllUpdatedBlocks`. -/
def allUpdatedBlocks (s : St V) (c : Consumer) : List Idx :=
  (s.map.filter fun e => (s.mem.heap e.2).updated.get c).map (·.1)

/-- The loop body of the deep copy, voxblox/include/voxblox/core/layer_inl.h:63-78: allocate a block in
the copy and assign the voxels one by one; an index beyond the new block's array is undefined. -/
def copyOne (dbg : Bool) (cfg : Cfg) (dflt : V) (s : St V) (e : Idx × Ptr) : Outcome (St V) := do
  let (s', p) ← allocateBlockPtr dbg cfg dflt s e.1
  let src := s'.mem.heap e.2
  let dst := s'.mem.heap p
  Outcome.require (decide (src.voxels.length ≤ dst.voxels.length))
  pure { s' with mem := s'.mem.write p fun b =>
    { b with voxels := src.voxels ++ b.voxels.drop src.voxels.length } }

/-- voxblox/include/voxblox/core/layer_inl.h:54-79, the deep copy constructor: the configuration is
copied, the new map starts empty, the source map is traversed. Returns memory and the copy's map. -/
def copyLayer (dbg : Bool) (cfg : Cfg) (dflt : V) (s : St V) : Outcome (St V) :=
  s.map.foldlM (copyOne dbg cfg dflt) { mem := s.mem, map := [] }

end ops

/-! ### Mesh layer -/

/-- What voxblox/include/voxblox/mesh/mesh_layer.h:132-142 touches of a mesh: its origin, content
(vertices etc., emptied by `Mesh::clear()`, mesh/mesh.h:76-81) and the updated flag. -/
structure MeshBlock (M : Type) where
  origin : Pt
  content : List M
  updated : Bool
deriving DecidableEq, Repr

/-- voxblox/include/voxblox/mesh/mesh_layer.h:132-142 `clearDistantMesh`. -/
def clearDistantMesh {M : Type} (m : List (Idx × MeshBlock M)) (center : Pt) (d : ℚ) :
    List (Idx × MeshBlock M) :=
  m.map fun e => if sqNorm (e.2.origin - center) > d * d
    then (e.1, { e.2 with content := [], updated := true }) else e

end Vox.Layer
