/-
The mesh of a TSDF server, voxblox_ros/src/tsdf_server.cc: what the callbacks, the timer and the services do to the map and to the meshes.
Positions are exact; timing, logging and point clouds are left out.
-/
import Verif.Model.Export
import Verif.Model.MapServer
import Verif.Model.MeshMsg
import Verif.Model.FloatBits

namespace Vox.ServerMesh

open Layer Grid MC MeshInt LayerMsg

variable {V : Type}

/-- The members of the server, voxblox_ros/include/voxblox_ros/tsdf_server.h:232, :239: `tsdf_map_` and `mesh_layer_`. -/
structure State (V : Type) where
  map : VLayer V
  meshes : MeshMap

/-- What the operations depend on: the arithmetic of the connected mesh and the order of the hash map (`E`), the configuration of the mesh
integrator, the type of the voxels, the edges of the blocks of the mesh layer, the colour mode and the largest distance of a block. The configuration comes
from voxblox_ros/src/tsdf_server.cc:18-89 and :151-211. -/
structure Env (V : Type) where
  E : Export.Env
  useColor : Bool
  fns : VoxelFns V
  T : VoxelType V
  ar : Arith
  edge : Fl
  inv : Fl
  mode : MeshMsg.ColorMode
  maxDistance : ℚ
  thr : Fl

/-- A word as a number, if it stands for one: voxblox/src/core/block.cc:82-83. -/
def number (w : Word) : Option ℚ := match FloatBits.fl32 w with | .fin q => some q | _ => none

/-- `tsdfFns` on voxels as they come by message, voxblox/include/voxblox/utils/meshing_utils.h:15-24 and :42-51; voxels that do not hold finite numbers
are left out. -/
def wordFns (minWeight : ℚ) : VoxelFns (TsdfVoxel Word) where
  sdf v := (number v.weight).bind fun w => if w ≤ minWeight then none else number v.distance
  color v := (number v.weight).bind fun w => if w ≤ minWeight then none else some v.color

/-- voxblox/include/voxblox/core/layer.h:170-182 `removeDistantBlocks` on values (with pointers: `Layer.removeDistantBlocks`). -/
def removeDistant (l : VLayer V) (center : Pt) (d : ℚ) : VLayer V :=
  { l with blocks := l.blocks.filter fun e => decide (sqNorm (e.2.origin - center) ≤ d * d) }

/-- The origin of a mesh, voxblox/include/voxblox/mesh/mesh_layer.h:112-114. -/
def meshOrigin (cfg : Cfg) (i : Idx) : Pt := originPoint i cfg.blockSize

/-- voxblox/include/voxblox/mesh/mesh_layer.h:132-142 `clearDistantMesh`. -/
def clearDistant (cfg : Cfg) (ml : MeshMap) (center : Pt) (d : ℚ) : MeshMap :=
  ml.map fun e => if d * d < sqNorm (meshOrigin cfg e.1 - center) then (e.1, { clearMesh e.2 with updated := true }) else e

/-- The end of `processPointCloudMessageAndInsert`, voxblox_ros/src/tsdf_server.cc:314-319. -/
def prune (env : Env V) (center : Pt) (s : State V) : State V :=
  ⟨removeDistant s.map center env.maxDistance, clearDistant s.map.cfg s.meshes center env.maxDistance⟩

/-- voxblox_ros/src/tsdf_server.cc:493-520 `updateMesh`: the message and the state afterwards. -/
def updateMesh (env : Env V) (s : State V) : Outcome (MeshMsg.Msg × State V) := do
  let r ← MeshInt.generateMesh env.E.sq env.useColor env.fns true true true (s.map, s.meshes)
  let m ← MeshMsg.generateMsg env.edge env.inv env.mode r.2
  pure (m.1, ⟨r.1, m.2⟩)

/-- voxblox/src/io/mesh_ply.cc:40-60 `outputMeshLayerAsPly` with one argument: the mesh is connected. -/
def outputMeshes (env : Env V) (d : Ply.Disk) (ml : MeshMap) : Outcome (Bool × Option (List Char)) := do
  let r ← Export.meshLayerToMesh env.E true env.thr ml Mesh.empty
  Export.saveIf d r

/-- voxblox_ros/src/tsdf_server.cc:522-544: the meshing of `generateMesh`. The branch for updated blocks is never taken. -/
def remesh (env : Env V) (s : State V) : Outcome (MeshMsg.Msg × State V) := do
  let r ← MeshInt.generateMesh env.E.sq env.useColor env.fns true false true (s.map, s.meshes)
  let m ← MeshMsg.generateMsg env.edge env.inv env.mode r.2
  pure (m.1, ⟨r.1, m.2⟩)

/-- The file of `generateMesh`, voxblox_ros/src/tsdf_server.cc:546-555. -/
def meshFile (env : Env V) (d : Ply.Disk) (filename : String) (ml : MeshMap) : Outcome (Option (List Char)) :=
  if filename = "" then .ok none else do
    let r ← outputMeshes env d ml
    pure r.2

/-- voxblox_ros/src/tsdf_server.cc:522-559 `generateMesh`: the file, if there is one, and the state afterwards. -/
def generateMesh (env : Env V) (d : Ply.Disk) (filename : String) (s : State V) : Outcome (Option (List Char) × State V) := do
  let r ← remesh env s
  let f ← meshFile env d filename r.2.meshes
  pure (f, r.2)

/-- voxblox_ros/src/tsdf_server.cc:628-637 `clear` (the message about the map is that of C82). -/
def clear (s : State V) : State V := ⟨MapServer.removeAllBlocks s.map, []⟩

/-- voxblox_ros/src/tsdf_server.cc:639-653 `tsdfMapCallback`: the mesh layer is not touched. -/
def receive (env : Env V) (m : Msg) (s : State V) : Outcome (State V) := do
  let l ← MapServer.mapCallback env.T env.ar m s.map
  pure ⟨l, s.meshes⟩

/-- The operations: a change of the map (a load, voxblox_ros/src/tsdf_server.cc:566-578), a point cloud (its integration, then
voxblox_ros/src/tsdf_server.cc:314-319), the mesh timer (:620-622), the mesh service (:587-591), the clearing service (:580-585), a map message (:639-653).
What integrations and loads do to the map is left open here: `new` is the map afterwards. -/
inductive Event (V : Type) where
  | change (new : VLayer V)
  | cloud (new : VLayer V) (center : Pt)
  | update
  | generate
  | clear
  | receive (m : Msg)

/-- One operation, voxblox_ros/src/tsdf_server.cc:305-319, :493-559, :580-591, :620-653. -/
def step (env : Env V) (s : State V) : Event V → Outcome (State V)
  | .change new => .ok ⟨new, s.meshes⟩
  | .cloud new center => .ok (prune env center ⟨new, s.meshes⟩)
  | .update => do
    let r ← updateMesh env s
    pure r.2
  | .generate => do
    let r ← remesh env s
    pure r.2
  | .clear => .ok (clear s)
  | .receive m => receive env m s

end Vox.ServerMesh
