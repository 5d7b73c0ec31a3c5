/-
Meshing of a layer (voxblox/include/voxblox/mesh/mesh_integrator.h), exact coordinates.
-/
import Verif.Model.MarchingCubes
import Verif.Model.Grid
import Verif.Model.Voxel

namespace Vox.MeshInt

open Layer Grid MC

variable {V : Type}

/-- What the mesh integrator needs to know about a voxel type:
voxblox/include/voxblox/utils/meshing_utils.h:11-13 and :38-40. `none`: the function returns false. -/
structure VoxelFns (V : Type) where
  sdf : V → Option ℚ
  color : V → Option Color

/-- voxblox/include/voxblox/utils/meshing_utils.h:15-24 and :42-51, TSDF voxels. -/
def tsdfFns (minWeight : ℚ) : VoxelFns (TsdfVoxel ℚ) where
  sdf v := if v.weight ≤ minWeight then none else some v.distance
  color v := if v.weight ≤ minWeight then none else some v.color

/-- voxblox/include/voxblox/utils/meshing_utils.h:26-36 and :53-62, ESDF voxels (`Color(255, 255, 255)` has
alpha 255, voxblox/include/voxblox/core/common.h:96). -/
def esdfFns : VoxelFns (EsdfVoxel ℚ) where
  sdf v := if v.observed then some v.distance else none
  color v := if v.observed then some ⟨255, 255, 255, 255⟩ else none

/-- The loop over the corners, voxblox/include/voxblox/mesh/mesh_integrator.h:275-285 and :305-355: stops at
the first corner without a valid distance. -/
def readCorners (rd : Idx → Outcome (Option ℚ)) : List Idx → Outcome (Option (List ℚ))
  | [] => .ok (some [])
  | d :: ds => do
    match ← rd d with
    | none => pure none
    | some s => do
      let r ← readCorners rd ds
      pure (r.map (s :: ·))

/-- `corner_coords.col(k)`, voxblox/include/voxblox/mesh/mesh_integrator.h:269-270, 284. -/
def cubeCoords (s : ℚ) (p : Pt) (k : ℕ) : Vec3 Fl :=
  (p + (cubeOffsets[k]?.getD ⟨0, 0, 0⟩).map fun (c : ℤ) => (c : ℚ) * s).map .fin

/-- voxblox/include/voxblox/mesh/mesh_integrator.h:287-289 and :357-359: mesh the cube if all corners are
valid. -/
def meshCorners (sq : ℚ → Fl) (s : ℚ) (p : Pt) (r : Option (List ℚ)) (st : ℕ × Mesh) : Outcome (ℕ × Mesh) :=
  match r with
  | none => .ok st
  | some xs => meshCube (Arith.exact sq) (cubeCoords s p) (fun k => .fin (xs[k]?.getD 0)) st

/-- One corner in the block, voxblox/include/voxblox/mesh/mesh_integrator.h:276-282. -/
def insideCorner (fns : VoxelFns V) (b : Block ℚ V) (v d : Idx) : Outcome (Option ℚ) := do
  let x ← voxelByIndex b (v + d)
  pure (fns.sdf x)

/-- voxblox/include/voxblox/mesh/mesh_integrator.h:263-290 `extractMeshInsideBlock`; `s` is `voxel_size_`. -/
def extractInside (sq : ℚ → Fl) (fns : VoxelFns V) (s : ℚ) (b : Block ℚ V) (v : Idx) (st : ℕ × Mesh) :
    Outcome (ℕ × Mesh) := do
  let r ← readCorners (insideCorner fns b v) cubeOffsets
  meshCorners sq s (centerOf b v) r st

/-- The block offset and the corrected index along one axis,
voxblox/include/voxblox/mesh/mesh_integrator.h:323-330. -/
def borderAxis (vps : ℕ) (c : ℤ) : ℤ × ℤ :=
  if c < 0 then (-1, c + vps) else if c ≥ vps then (1, c - vps) else (0, c)

/-- `block.block_index()`, voxblox/include/voxblox/core/block.h:157-159. -/
def blockIndexOfBlock (b : Block ℚ V) : Outcome Idx :=
  toIdx32 (gridIndexFromOrigin b.origin (1 / (b.vps * b.voxelSize)))

/-- One corner in another block, voxblox/include/voxblox/mesh/mesh_integrator.h:320-353. -/
def otherBlockCorner (l : VLayer V) (fns : VoxelFns V) (b : Block ℚ V) (c : Idx) : Outcome (Option ℚ) := do
  let x := borderAxis l.cfg.vps c.x
  let y := borderAxis l.cfg.vps c.y
  let z := borderAxis l.cfg.vps c.z
  let bi ← blockIndexOfBlock b
  let ni ← toIdx32 (bi + ⟨x.1, y.1, z.1⟩)
  match block? l ni with
  | none => pure none
  | some nb => do
    Outcome.check (isValidVoxelIndex nb.vps ⟨x.2, y.2, z.2⟩)
    let vx ← voxelByIndex nb ⟨x.2, y.2, z.2⟩
    pure (fns.sdf vx)

/-- One corner, voxblox/include/voxblox/mesh/mesh_integrator.h:306-354. -/
def borderCorner (l : VLayer V) (fns : VoxelFns V) (b : Block ℚ V) (v d : Idx) : Outcome (Option ℚ) :=
  if isValidVoxelIndex b.vps (v + d) then insideCorner fns b v d else otherBlockCorner l fns b (v + d)

/-- voxblox/include/voxblox/mesh/mesh_integrator.h:292-360 `extractMeshOnBorder`. -/
def extractBorder (sq : ℚ → Fl) (l : VLayer V) (fns : VoxelFns V) (b : Block ℚ V) (v : Idx) (st : ℕ × Mesh) :
    Outcome (ℕ × Mesh) := do
  let r ← readCorners (borderCorner l fns b v) cubeOffsets
  meshCorners sq l.cfg.voxelSize (centerOf b v) r st

/-- The inner cubes in visiting order, voxblox/include/voxblox/mesh/mesh_integrator.h:195-204. -/
def insideOrder (vps : ℕ) : List Idx :=
  (List.range (vps - 1)).flatMap fun (x : ℕ) => (List.range (vps - 1)).flatMap fun (y : ℕ) =>
    (List.range (vps - 1)).map fun (z : ℕ) => (⟨x, y, z⟩ : Idx)

/-- The border cubes in visiting order, voxblox/include/voxblox/mesh/mesh_integrator.h:206-238. -/
def borderOrder (vps : ℕ) : List Idx :=
  ((List.range vps).flatMap fun (z : ℕ) => (List.range vps).map fun (y : ℕ) => (⟨(vps : ℤ) - 1, y, z⟩ : Idx)) ++
  ((List.range vps).flatMap fun (z : ℕ) => (List.range (vps - 1)).map fun (x : ℕ) => (⟨x, (vps : ℤ) - 1, z⟩ : Idx)) ++
  ((List.range (vps - 1)).flatMap fun (y : ℕ) => (List.range (vps - 1)).map fun (x : ℕ) => (⟨x, y, (vps : ℤ) - 1⟩ : Idx))

/-- voxblox/include/voxblox/mesh/mesh_integrator.h:186-239 `extractBlockMesh`; with side 0 the loop bound
`vps - 1` is negative and only the border loops (which are empty) remain. -/
def extractBlockMesh (sq : ℚ → Fl) (l : VLayer V) (fns : VoxelFns V) (b : Block ℚ V) (m : Mesh) : Outcome Mesh := do
  let st ← (insideOrder b.vps).foldlM (fun st v => extractInside sq fns l.cfg.voxelSize b v st) (0, m)
  let st ← (borderOrder b.vps).foldlM (fun st v => extractBorder sq l fns b v st) st
  pure st.2

/-- The finite coordinates of a vertex; converting anything else to an index is undefined
(voxblox/include/voxblox/core/common.h:153-159). -/
def finitePoint (p : Vec3 Fl) : Outcome Pt :=
  match p.x, p.y, p.z with
  | .fin x, .fin y, .fin z => .ok ⟨x, y, z⟩
  | _, _, _ => .ub

/-- The colour of one vertex, voxblox/include/voxblox/mesh/mesh_integrator.h:369-381 (a missing neighbour block
is dereferenced all the same; the colour stays the default when the voxel is not valid). -/
def colorVertex (l : VLayer V) (fns : VoxelFns V) (b : Block ℚ V) (q : Vec3 Fl) : Outcome Color := do
  let p ← finitePoint q
  let vi ← toIdx32 (voxelIndexFromCoordinates b.origin b.voxelSize p)
  if isValidVoxelIndex b.vps vi then do
    let x ← voxelByIndex b vi
    pure ((fns.color x).getD Color.default)
  else do
    match ← blockAtCoords l p with
    | none => .ub
    | some nb => do
      let x ← voxelByCoords nb p
      pure ((fns.color x).getD Color.default)

/-- voxblox/include/voxblox/mesh/mesh_integrator.h:362-382 `updateMeshColor`: one colour per index, written
per vertex. -/
def updateMeshColor (l : VLayer V) (fns : VoxelFns V) (b : Block ℚ V) (m : Mesh) : Outcome Mesh := do
  Outcome.require (decide (m.vertices.length ≤ m.indices.length))
  let cs ← m.vertices.mapM (colorVertex l fns b)
  pure { m with colors := cs ++ List.replicate (m.indices.length - cs.length) Color.default }

/-- voxblox/include/voxblox/mesh/mesh.h:76-81 `clear`. -/
def clearMesh (m : Mesh) : Mesh := { m with vertices := [], normals := [], colors := [], indices := [] }

/-- The mesh layer, voxblox/include/voxblox/mesh/mesh_layer.h:307: block index to mesh. -/
abbrev MeshMap := List (Idx × Mesh)

/-- Store a mesh through its pointer, voxblox/include/voxblox/mesh/mesh_layer.h:65-73. -/
def setMesh (ml : MeshMap) (i : Idx) (m : Mesh) : MeshMap := ml.map fun e => if e.1 = i then (e.1, m) else e

/-- voxblox/include/voxblox/mesh/mesh_layer.h:79-86 `allocateMeshPtrByIndex`. -/
def allocateMesh (ml : MeshMap) (i : Idx) : MeshMap :=
  match ml.lookup i with
  | some _ => ml
  | none => (i, Mesh.empty) :: ml

/-- The mesh of an existing block, voxblox/include/voxblox/mesh/mesh_integrator.h:243, 254-260. -/
def meshOfBlock (sq : ℚ → Fl) (useColor : Bool) (l : VLayer V) (fns : VoxelFns V) (b : Block ℚ V) (m : Mesh) :
    Outcome Mesh := do
  let m ← extractBlockMesh sq l fns b (clearMesh m)
  let m ← if useColor then updateMeshColor l fns b m else .ok m
  pure { m with updated := true }

/-- voxblox/include/voxblox/mesh/mesh_integrator.h:241-261 `updateMeshForBlock` (a missing mesh is
dereferenced). -/
def updateMeshForBlock (sq : ℚ → Fl) (useColor : Bool) (l : VLayer V) (fns : VoxelFns V) (ml : MeshMap) (i : Idx) :
    Outcome MeshMap :=
  match ml.lookup i with
  | none => .ub
  | some m =>
    match block? l i with
    | none => .ok (setMesh ml i (clearMesh m))
    | some b => do
      let m' ← meshOfBlock sq useColor l fns b m
      pure (setMesh ml i m')

/-- `block->updated().reset(Update::kMesh)`, voxblox/include/voxblox/mesh/mesh_integrator.h:178-182. -/
def resetMeshFlag (l : VLayer V) (i : Idx) : VLayer V :=
  { l with blocks := l.blocks.map fun e =>
      if e.1 = i then (e.1, { e.2 with updated := e.2.updated.put .mesh false }) else e }

/-- The work of all threads together, voxblox/include/voxblox/mesh/mesh_integrator.h:165-184: every list
position is handed out once (C28, C29); the order given here is that of the list, the meshes and flags of
different blocks are independent. -/
def meshBlocks (sq : ℚ → Fl) (useColor : Bool) (fns : VoxelFns V) (clear : Bool) :
    List Idx → VLayer V × MeshMap → Outcome (VLayer V × MeshMap)
  | [], s => .ok s
  | i :: is, (l, ml) => do
    let ml' ← updateMeshForBlock sq useColor l fns ml i
    if clear then
      match block? l i with
      | none => .ub
      | some _ => meshBlocks sq useColor fns clear is (resetMeshFlag l i, ml')
    else meshBlocks sq useColor fns clear is (l, ml')

/-- The blocks to mesh, voxblox/include/voxblox/mesh/mesh_integrator.h:138-143. -/
def blocksToMesh (onlyUpdated : Bool) (l : VLayer V) : List Idx :=
  if onlyUpdated then (l.blocks.filter fun e => e.2.updated.get .mesh).map (·.1) else l.blocks.map (·.1)

/-- voxblox/include/voxblox/mesh/mesh_integrator.h:133-163 `generateMesh`; `isMutable`: constructed with a
non-const layer. -/
def generateMesh (sq : ℚ → Fl) (useColor : Bool) (fns : VoxelFns V) (isMutable onlyUpdated clear : Bool)
    (s : VLayer V × MeshMap) : Outcome (VLayer V × MeshMap) := do
  Outcome.check (!clear || isMutable)
  let todo := blocksToMesh onlyUpdated s.1
  meshBlocks sq useColor fns clear todo (s.1, todo.foldl allocateMesh s.2)

end Vox.MeshInt
