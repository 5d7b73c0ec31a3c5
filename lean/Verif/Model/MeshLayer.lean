/-
The mesh layer with its shared pointers, voxblox/include/voxblox/mesh/mesh_layer.h and mesh.h.
-/
import Verif.Model.ServerMesh

namespace Vox.MeshLayer

open Layer MC MeshInt

/-- A mesh object, voxblox/include/voxblox/mesh/mesh.h:152-160. -/
structure Body where
  mesh : Mesh
  blockSize : ℚ
  origin : Pt
deriving DecidableEq

/-- A mesh layer and the mesh objects it has made, voxblox/include/voxblox/mesh/mesh_layer.h:301-307. A pointer is a position in `heap`; shared pointers
keep the objects alive, so nothing is ever taken off the list. -/
structure State where
  blockSize : ℚ
  map : List (Idx × ℕ)
  heap : List Body

/-- voxblox/include/voxblox/mesh/mesh_layer.h:31-32, the constructor. -/
def new (blockSize : ℚ) : State := ⟨blockSize, [], []⟩

/-- voxblox/include/voxblox/mesh/mesh.h:50-53, the constructor of a mesh with a block size. -/
def newBody (blockSize : ℚ) (origin : Pt) : Outcome Body := do
  Outcome.check (decide (0 < blockSize))
  pure ⟨Mesh.empty, blockSize, origin⟩

/-- voxblox/include/voxblox/mesh/mesh_layer.h:54-73 `getMeshPtrByIndex`: `none` is the null pointer. -/
def getPtr (s : State) (i : Idx) : Option ℕ := s.map.lookup i

/-- voxblox/include/voxblox/mesh/mesh_layer.h:36-52 `getMeshByIndex`: the object referred to. -/
def getRef (s : State) (i : Idx) : Outcome ℕ :=
  match s.map.lookup i with
  | some h => .ok h
  | none => .fatal

/-- voxblox/include/voxblox/mesh/mesh_layer.h:110-119 `allocateNewBlock`: the new mesh is thrown away if there is one for this index already, and `DCHECK`
fails then in debug builds (`dbg`). -/
def allocateNew (dbg : Bool) (s : State) (i : Idx) : Outcome (State × ℕ) := do
  let b ← newBody s.blockSize (originPoint i s.blockSize)
  match s.map.lookup i with
  | some h => if dbg then .fatal else .ok (s, h)
  | none => .ok ({ s with map := (i, s.heap.length) :: s.map, heap := s.heap ++ [b] }, s.heap.length)

/-- voxblox/include/voxblox/mesh/mesh_layer.h:79-86 `allocateMeshPtrByIndex`. -/
def allocate (dbg : Bool) (s : State) (i : Idx) : Outcome (State × ℕ) :=
  match s.map.lookup i with
  | some h => .ok (s, h)
  | none => allocateNew dbg s i

/-- voxblox/include/voxblox/mesh/mesh_layer.h:105-108 `computeBlockIndexFromCoordinates`, in exact arithmetic. -/
def blockAt (s : State) (p : Pt) : Outcome Idx := gridIndex32 p (1 / s.blockSize)

/-- voxblox/include/voxblox/mesh/mesh_layer.h:88-95 `getMeshPtrByCoordinates`. -/
def getPtrAt (s : State) (p : Pt) : Outcome (Option ℕ) := do
  let i ← blockAt s p
  pure (getPtr s i)

/-- voxblox/include/voxblox/mesh/mesh_layer.h:101-103 `allocateMeshPtrByCoordinates`. -/
def allocateAt (dbg : Bool) (s : State) (p : Pt) : Outcome (State × ℕ) := do
  let i ← blockAt s p
  allocate dbg s i

/-- voxblox/include/voxblox/mesh/mesh_layer.h:122-124 `allocateNewBlockByCoordinates`. -/
def allocateNewAt (dbg : Bool) (s : State) (p : Pt) : Outcome (State × ℕ) := do
  let i ← blockAt s p
  allocateNew dbg s i

/-- voxblox/include/voxblox/mesh/mesh_layer.h:126 `removeMesh`. -/
def remove (s : State) (i : Idx) : State := { s with map := s.map.filter fun e => decide (e.1 ≠ i) }

/-- voxblox/include/voxblox/mesh/mesh_layer.h:128-130 `removeMeshByCoordinates`. -/
def removeAt (s : State) (p : Pt) : Outcome State := do
  let i ← blockAt s p
  pure (remove s i)

/-- A mesh as voxblox/include/voxblox/mesh/mesh_layer.h:136-140 leaves it. -/
def clearBody (center : Pt) (d : ℚ) (b : Body) : Body :=
  if d * d < sqNorm (b.origin - center) then { b with mesh := { clearMesh b.mesh with updated := true } } else b

/-- voxblox/include/voxblox/mesh/mesh_layer.h:132-142 `clearDistantMesh`, in exact arithmetic. -/
def clearDistant (s : State) (center : Pt) (d : ℚ) : State :=
  { s with heap := s.map.foldl (fun heap e => heap.modify e.2 (clearBody center d)) s.heap }

/-- voxblox/include/voxblox/mesh/mesh_layer.h:144-151 `getAllAllocatedMeshes`: the list handed in is cleared first. -/
def allocated (s : State) (_old : List Idx) : List Idx := s.map.map (·.1)

/-- `updated` of the mesh behind a pointer, voxblox/include/voxblox/mesh/mesh_layer.h:157. -/
def isUpdated (s : State) (h : ℕ) : Bool :=
  match s.heap[h]? with
  | some b => b.mesh.updated
  | none => false

/-- voxblox/include/voxblox/mesh/mesh_layer.h:153-161 `getAllUpdatedMeshes`: the list handed in is cleared first. -/
def updated (s : State) (_old : List Idx) : List Idx := (s.map.filter fun e => isUpdated s e.2).map (·.1)

/-- voxblox/include/voxblox/mesh/mesh_layer.h:277 `getNumberOfAllocatedMeshes`. -/
def count (s : State) : ℕ := s.map.length

/-- voxblox/include/voxblox/mesh/mesh_layer.h:295 `clear`. -/
def clear (s : State) : State := { s with map := [] }

/-- What a client of voxblox/include/voxblox/mesh/mesh_layer.h:65-86 does with a pointer: it replaces the content of the mesh. -/
def write (s : State) (h : ℕ) (m : Mesh) : State := { s with heap := s.heap.modify h fun b => { b with mesh := m } }

/-- voxblox/include/voxblox/mesh/mesh.h:62-74 `getMemorySize`, with the sizes of a 64-bit system: a vector 24 bytes, a point 12, a colour 4, an index 8; the
last three members 4, 12 and 1. The bytes of the colours are counted by the number of vertices. -/
def bodyBytes (m : Mesh) : ℕ :=
  (24 + m.vertices.length * 12) + (24 + m.normals.length * 12) + (24 + m.vertices.length * 4) + (24 + m.indices.length * 8) + 4 + 12 + 1

/-- The bytes of the mesh behind a pointer, voxblox/include/voxblox/mesh/mesh_layer.h:287-290. -/
def bytesAt (s : State) (h : ℕ) : Outcome ℕ :=
  match s.heap[h]? with
  | some b => .ok (bodyBytes b.mesh)
  | none => .fatal

/-- voxblox/include/voxblox/mesh/mesh_layer.h:279-292 `getMemorySize`. -/
def bytes (s : State) : Outcome ℕ := s.map.foldlM (fun n e => do
  let k ← bytesAt s e.2
  pure (n + k)) (4 + 4)

/-- What can be done with a layer and its meshes, voxblox/include/voxblox/mesh/mesh_layer.h:79-142, 295. -/
inductive Op where
  | allocate (i : Idx)
  | allocateNew (i : Idx)
  | remove (i : Idx)
  | clear
  | clearDistant (center : Pt) (d : ℚ)
  | write (h : ℕ) (m : Mesh)

/-- One operation, voxblox/include/voxblox/mesh/mesh_layer.h:79-142, 295. -/
def step (dbg : Bool) (s : State) : Op → Outcome State
  | .allocate i => do let r ← allocate dbg s i; pure r.1
  | .allocateNew i => do let r ← allocateNew dbg s i; pure r.1
  | .remove i => .ok (remove s i)
  | .clear => .ok (clear s)
  | .clearDistant c d => .ok (clearDistant s c d)
  | .write h m => .ok (write s h m)

/-- A sequence of operations, voxblox/include/voxblox/mesh/mesh_layer.h:79-142, 295. -/
def run (dbg : Bool) (s : State) (ops : List Op) : Outcome State := ops.foldlM (step dbg) s

end Vox.MeshLayer
