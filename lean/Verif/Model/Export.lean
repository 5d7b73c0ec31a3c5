/-
Exporting layers and mesh layers: voxblox/include/voxblox/io/sdf_ply.h, voxblox/src/io/mesh_ply.cc and voxblox_ros/include/voxblox_ros/mesh_pcl.h.
Voxels hold finite numbers and positions are exact; the conversion of the PCL cloud to its binary form is left out.
-/
import Verif.Model.MeshIntegrator
import Verif.Model.Mesh
import Verif.Model.Ply
import Verif.Model.PtCloud

namespace Vox.Export

open Layer Grid MC MeshInt MeshOps

variable {V : Type}

/-- What the calls depend on besides their arguments: `double` and `float` arithmetic of the connected mesh (voxblox/include/voxblox/mesh/mesh_utils.h:19-177),
the square root of the normals, and the order in which the hash map of meshes is traversed (voxblox/include/voxblox/mesh/mesh_layer.h:307). -/
structure Env where
  D : Arith
  F : Arith
  sq : ℚ → Fl
  iter : MeshMap → MeshMap

/-- voxblox/src/io/mesh_ply.cc:27-38 `convertMeshLayerToMesh`, with voxblox/include/voxblox/mesh/mesh_layer.h:167-251 and :260-275: the mesh after the call and
the returned flag; `c` is the mesh handed in. -/
def meshLayerToMesh (E : Env) (connected : Bool) (thr : Fl) (ml : MeshMap) (c : Mesh) : Outcome (Mesh × Bool) := do
  let m ← if connected then createConnectedMesh E.D E.F thr ((E.iter ml).map (·.2)) c else getMesh ((E.iter ml).map (·.2)) c
  pure (m, !m.vertices.isEmpty)

/-- voxblox/include/voxblox/io/sdf_ply.h:126-149 `convertLayerToMesh`; the integrator gets a constant layer, all blocks are meshed into an empty mesh layer. -/
def layerToMesh (E : Env) (useColor : Bool) (fns : VoxelFns V) (connected : Bool) (thr : Fl) (l : VLayer V) (c : Mesh) : Outcome (Mesh × Bool) := do
  let s ← generateMesh E.sq useColor fns false false false (l, [])
  meshLayerToMesh E connected thr s.2 c

/-- The points with colours as a mesh without triangles, voxblox/include/voxblox/io/sdf_ply.h:101-102, :174. -/
def cloudMesh (ps : List (Pt × Color)) : Mesh :=
  { Mesh.empty with vertices := ps.map fun p => p.1.map .fin, colors := ps.map (·.2) }

/-- The `if` before the call of `outputMeshAsPly`, voxblox/include/voxblox/io/sdf_ply.h:186-189; likewise :175-180 and :195-198. -/
def saveIf (d : Ply.Disk) (r : Mesh × Bool) : Outcome (Bool × Option (List Char)) :=
  if r.2 then Ply.outputMeshAsPly d r.1 else .ok (false, none)

/-- voxblox/include/voxblox/io/sdf_ply.h:166-205 `outputLayerAsPly`: the returned flag and the file, if there is one; meshes are made with the default configuration
(voxblox/include/voxblox/mesh/mesh_integrator.h:50, voxblox/include/voxblox/io/sdf_ply.h:150-158), so with colours. `color` is `getColorFromVoxel`, `thr` the default threshold. -/
def outputLayerAsPly (E : Env) (fns : VoxelFns V) (color : Fl → Fl → V → Outcome (Option Color)) (thr : Fl) (d : Ply.Disk) (filename : String) (type : ℤ)
    (range maxValue : Fl) (l : VLayer V) : Outcome (Bool × Option (List Char)) := do
  Outcome.check (filename != "")
  if type = 0 then do
    let r ← PtCloud.voxelGridToPointCloud color range maxValue l []
    saveIf d (cloudMesh r.1, r.2)
  else if type = 1 then do
    let r ← layerToMesh E true fns false thr l Mesh.empty
    saveIf d r
  else if type = 2 then do
    let r ← layerToMesh E true fns true thr l Mesh.empty
    saveIf d r
  else .fatal

/-- The parts of `pcl::PolygonMesh` that are filled, voxblox_ros/include/voxblox_ros/mesh_pcl.h:78-80. -/
structure PolygonMesh where
  frame : String
  cloud : List (Vec3 Fl)
  polygons : List (List ℕ)

/-- One index, voxblox_ros/include/voxblox_ros/mesh_pcl.h:65-72: the finished polygons and the one being filled. -/
def polygonStep (st : List (List ℕ) × List ℕ) (i : ℕ) : List (List ℕ) × List ℕ :=
  if (st.2 ++ [i]).length = 3 then (st.1 ++ [st.2 ++ [i]], []) else (st.1, st.2 ++ [i])

/-- voxblox_ros/include/voxblox_ros/mesh_pcl.h:40-81 `toPCLPolygonMesh`; coordinates are `float` already. -/
def toPolygonMesh (E : Env) (connected : Bool) (thr : Fl) (frame : String) (ml : MeshMap) : Outcome PolygonMesh := do
  let r ← meshLayerToMesh E connected thr ml Mesh.empty
  pure { frame := frame, cloud := r.1.vertices, polygons := (r.1.indices.foldl polygonStep ([], [])).1 }

end Vox.Export
