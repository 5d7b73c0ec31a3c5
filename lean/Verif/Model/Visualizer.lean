/-
The program voxblox_ros/src/visualize_tsdf.cc: a saved TSDF layer on five topics. Positions are exact; logging, time stamps and the binary form of the point
clouds are left out.
-/
import Verif.Model.PtCloud
import Verif.Model.MeshMarker
import Verif.Model.ServerMesh
import Verif.Model.ServerIO

namespace Vox.Visualizer

open Layer Grid MC MeshInt Ieee Vox.IO

/-- The ROS messages concerned; both kinds of PCL clouds are sent as `sensor_msgs/PointCloud2`. voxblox_ros/src/visualize_tsdf.cc:34-49. -/
inductive MsgType where
  | cloud
  | mesh
  | polygons
deriving DecidableEq, Repr

/-- What is sent, voxblox_ros/src/visualize_tsdf.cc:113, :125, :152, :158, :166. -/
inductive Payload where
  | distances (ps : List (Pt × Fl))
  | mesh (m : MeshMsg.Msg)
  | colors (ps : MeshMsg.RgbCloud)
  | polygons (m : Export.PolygonMesh)

/-- The type of a message, fixed by the C++ type given to `publish`. voxblox_ros/src/visualize_tsdf.cc:120, :129, :155, :161, :169. -/
def Payload.type : Payload → MsgType
  | .distances _ => .cloud
  | .mesh _ => .mesh
  | .colors _ => .cloud
  | .polygons _ => .polygons

/-- A call of `publish`, voxblox_ros/src/visualize_tsdf.cc:119-120, :128-129, :154-155, :160-161, :169. -/
structure Publication where
  topic : String
  frame : String
  payload : Payload

/-- The topics with their types, voxblox_ros/src/visualize_tsdf.cc:34-49. -/
def advertised : List (String × MsgType) :=
  [("tsdf_voxels_near_surface", .cloud), ("all_tsdf_voxels", .cloud), ("mesh", .mesh), ("mesh_as_pointcloud", .cloud), ("mesh_pcl", .polygons)]

/-- The parameters, voxblox_ros/src/visualize_tsdf.cc:53-63 with the defaults of :28-31. -/
structure Params where
  factor : Fl := .fin 2
  frame : String := "world"
  voxelPath : String := ""
  meshPath : String := ""
  colorMode : String := "color"

/-- voxblox_ros/src/visualize_tsdf.cc:62-77: the colour mode; `none` where ROS is shut down (the mode then stays `kColor`, :30). -/
def colorModeOf (s : String) : Option MeshMsg.ColorMode :=
  if s = "color" then some .color
  else if s = "height" then some .height
  else if s = "normals" then some .normals
  else if s = "lambert" then some .lambert
  else if s = "gray" then some .gray
  else none

/-- `min_weight` of the mesh integrator, a `float`: voxblox/include/voxblox/mesh/mesh_integrator.h:51. -/
def meshMinWeight : ℚ := rnd32 (1 / 10000)

/-- A finite number, as the meshes need it: voxblox/include/voxblox/utils/meshing_utils.h:19-23. -/
def finite : Fl → Option ℚ
  | .fin q => some q
  | _ => none

/-- voxblox/include/voxblox/utils/meshing_utils.h:15-24 and :42-51 on voxels of floats; voxels that do not hold finite numbers are left out. -/
def flFns (minWeight : ℚ) : VoxelFns (TsdfVoxel Fl) where
  sdf v := (finite v.weight).bind fun w => if w ≤ minWeight then none else finite v.distance
  color v := (finite v.weight).bind fun w => if w ≤ minWeight then none else some v.color

/-- voxblox_ros/src/visualize_tsdf.cc:114-115: a `double` product stored in a `float`. -/
def threshold (voxelSize : ℚ) (factor : Fl) : Fl := MeshMsg.toFloat (float64.mul (.fin voxelSize) factor)

/-- What a run depends on besides the layer and the parameters: the arithmetic of meshes and the order of the hash map, the block size of the mesh layer with its
inverse, the disk of the mesh file. voxblox_ros/src/visualize_tsdf.cc:141-145, :172. -/
structure Env where
  E : Export.Env
  edge : Fl
  inv : Fl
  disk : Ply.Disk

/-- What a run leaves: the messages in the order of `publish`, the points of the voxel file, the mesh file. voxblox_ros/src/visualize_tsdf.cc:101-177. -/
structure Products where
  sent : List Publication
  voxelFile : Option (List (Pt × Fl))
  meshFile : Option (List Char)

/-- The mesh part, voxblox_ros/src/visualize_tsdf.cc:138-161: the message, the cloud, and the mesh layer after both. -/
def meshes (env : Env) (mode : MeshMsg.ColorMode) (l : VLayer (TsdfVoxel Fl)) : Outcome (MeshMsg.Msg × MeshMsg.RgbCloud × MeshMap) := do
  let s ← generateMesh env.E.sq true (flFns meshMinWeight) false false false (l, [])
  let m ← MeshMsg.generateMsg env.edge env.inv mode s.2
  let c ← MeshMsg.fillCloud mode (env.E.iter m.2) []
  pure (m.1, c, m.2)

/-- The mesh file, voxblox_ros/src/visualize_tsdf.cc:171-175; the mesh is connected (voxblox/src/io/mesh_ply.cc:40-60). -/
def meshFile (env : Env) (path : String) (ml : MeshMap) : Outcome (Option (List Char)) :=
  if path = "" then .ok none else do
    let r ← Export.meshLayerToMesh env.E true MeshMsg.proximity ml Mesh.empty
    let f ← Export.saveIf env.disk r
    pure f.2

/-- voxblox_ros/src/visualize_tsdf.cc:101-177 `run`; the converted polygon mesh (:166-167) is not used. -/
def run (env : Env) (p : Params) (mode : MeshMsg.ColorMode) (l : VLayer (TsdfVoxel Fl)) : Outcome Products := do
  let near ← PtCloud.cloud (PtCloud.tsdfDistanceNear (threshold l.cfg.voxelSize p.factor)) l
  let all ← PtCloud.cloud PtCloud.tsdfDistance l
  let m ← meshes env mode l
  let _pcl ← Export.toPolygonMesh env.E true MeshMsg.proximity p.frame m.2.2
  let f ← meshFile env p.meshPath m.2.2
  pure { sent := [⟨"tsdf_voxels_near_surface", p.frame, .distances near⟩, ⟨"all_tsdf_voxels", p.frame, .distances all⟩, ⟨"mesh", p.frame, .mesh m.1⟩,
           ⟨"mesh_as_pointcloud", p.frame, .colors m.2.1⟩, ⟨"mesh_pcl", p.frame, .mesh m.1⟩]
         voxelFile := if p.voxelPath = "" then none else some all
         meshFile := f }

/-- The object: after `ros::shutdown` (voxblox_ros/src/visualize_tsdf.cc:76) the run goes on, but ROS sends nothing any more. -/
def visualize (env : Env) (p : Params) (l : VLayer (TsdfVoxel Fl)) : Outcome Products :=
  match colorModeOf p.colorMode with
  | some mode => run env p mode l
  | none => do
    let r ← run env p .color l
    pure { r with sent := [] }

/-- A voxel of words as floats, voxblox/src/core/block.cc:82-88. -/
def voxelOf (v : TsdfVoxel Word) : TsdfVoxel Fl := ⟨FloatBits.fl32 v.distance, FloatBits.fl32 v.weight, v.color⟩

/-- The number of a word; 0 stands for words without a number, see `readable`. voxblox/include/voxblox/core/block_inl.h:75-76. -/
def numberOf (w : Word) : ℚ := (ServerMesh.number w).getD 0

/-- A loaded block with exact positions, voxblox/include/voxblox/core/block_inl.h:73-88. -/
def blockOfFile (b : Block Word (TsdfVoxel Word)) : Block ℚ (TsdfVoxel Fl) :=
  { vps := b.vps, voxelSize := numberOf b.voxelSize, origin := b.origin.map numberOf, hasData := b.hasData, updated := b.updated, voxels := b.voxels.map voxelOf }

/-- A loaded layer with exact positions, voxblox/include/voxblox/core/layer_inl.h:24-40. -/
def layerOfFile (l : FLayer (TsdfVoxel Word)) : VLayer (TsdfVoxel Fl) :=
  ⟨⟨numberOf l.voxelSize, l.vps⟩, l.blocks.map fun e => (e.1, blockOfFile e.2)⟩

/-- Sizes and positions are numbers; other layers are not covered here. voxblox/include/voxblox/core/block_inl.h:75-76. -/
def readable (l : FLayer (TsdfVoxel Word)) : Bool :=
  let f (w : Word) : Bool := (ServerMesh.number w).isSome
  f l.voxelSize && l.blocks.all fun e => f e.2.voxelSize && f e.2.origin.x && f e.2.origin.y && f e.2.origin.z

/-- `io::LoadLayer` with two arguments, voxblox/include/voxblox/io/layer_io_inl.h:132-142 and :218-225. -/
def loadFile (io : IO.Env (TsdfVoxel Word)) (d : ServerIO.Disk) (path : String) : Outcome (Bool × Option (FLayer (TsdfVoxel Word))) := do
  Outcome.check (path ≠ "")
  match d.files path with
  | none => pure (false, none)
  | some file => loadLayer io false file

/-- voxblox_ros/src/visualize_tsdf.cc:181-219 `main`: the exit code and the products, if it comes to that. -/
def main (io : IO.Env (TsdfVoxel Word)) (d : ServerIO.Disk) (env : Env) (path : String) (p : Params) : Outcome (ℕ × Option Products) :=
  if path = "" then .ok (1, none) else do
    let r ← loadFile io d path
    if r.1 then
      match r.2 with
      | none => .fatal
      | some l => do
        Outcome.require (readable l)
        let x ← visualize env p (layerOfFile l)
        pure (0, some x)
    else pure (1, none)

end Vox.Visualizer
