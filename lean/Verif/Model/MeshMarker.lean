/-
Markers and point clouds of a mesh layer, voxblox_ros/include/voxblox_ros/mesh_vis.h:240-321.
-/
import Verif.Model.MeshMsg

namespace Vox.MeshMsg

open MC MeshInt

/-- The alpha channel of `getVertexColor`, voxblox_ros/include/voxblox_ros/mesh_vis.h:124-151: that of the colour (conversions.h:32), 255
for `rainbowColorMap` (voxblox/include/voxblox/core/color.h:16), one in the other modes. -/
def vertexAlpha (m : Mesh) (mode : ColorMode) (k : ℕ) : Outcome Fl :=
  match mode with
  | .color => do
    let c ← MeshOps.at_ m.colors k
    pure (channelToMsg c.a)
  | .height => .ok (channelToMsg 255)
  | _ => .ok (.fin 1)

/-- The lists of `visualization_msgs::Marker` that voxblox_ros/include/voxblox_ros/mesh_vis.h:276-277 fills; the conversion of the points to
`double` is exact. -/
structure Marker where
  points : List (Vec3 Fl)
  colors : List (ColorMsg × Fl)
deriving DecidableEq

/-- The checks before a mesh is coloured, voxblox_ros/include/voxblox_ros/mesh_vis.h:264-271 (and :296-303): there is a colour, there is a
normal, where the mode reads them. -/
def canColor (mode : ColorMode) (m : Mesh) : Outcome Unit := do
  Outcome.check (!(mode == .color || mode == .lambertColor) || !m.colors.isEmpty)
  Outcome.check (!(mode == .normals || mode == .lambert || mode == .lambertColor) || !m.normals.isEmpty)

/-- One vertex of a marker, voxblox_ros/include/voxblox_ros/mesh_vis.h:273-278. -/
def markerVertex (mode : ColorMode) (m : Mesh) (mk : Marker) (k : ℕ) : Outcome Marker := do
  let v ← MeshOps.at_ m.vertices k
  let c ← vertexColor m mode k
  let a ← vertexAlpha m mode k
  pure ⟨mk.points ++ [v], mk.colors ++ [(c, a)]⟩

/-- One mesh, voxblox_ros/include/voxblox_ros/mesh_vis.h:258-279 (and :290-319), where `add` handles a vertex: empty meshes are skipped. -/
def addMesh {α : Type} (mode : ColorMode) (add : Mesh → α → ℕ → Outcome α) (acc : α) (m : Mesh) : Outcome α :=
  if m.vertices.isEmpty then .ok acc
  else do
    canColor mode m
    (List.range m.vertices.length).foldlM (add m) acc

/-- voxblox_ros/include/voxblox_ros/mesh_vis.h:240-280 `fillMarkerWithMesh` on the lists of the marker, which are not cleared. -/
def fillMarker (mode : ColorMode) (ml : MeshMap) (mk : Marker) : Outcome Marker :=
  ml.foldlM (fun acc e => addMesh mode (markerVertex mode) acc e.2) mk

/-- The points of a `pcl::PointCloud<pcl::PointXYZRGB>`, filled in voxblox_ros/include/voxblox_ros/mesh_vis.h:306-318. -/
abbrev RgbCloud := List (Vec3 Fl × Vec3 (BitVec 8))

/-- One vertex of a point cloud, voxblox_ros/include/voxblox_ros/mesh_vis.h:305-318; the alpha channel, which is converted as well, is at
most one. -/
def cloudVertex (mode : ColorMode) (m : Mesh) (acc : RgbCloud) (k : ℕ) : Outcome RgbCloud := do
  let v ← MeshOps.at_ m.vertices k
  let c ← vertexColor m mode k
  let r ← channelFromMsg c.x
  let g ← channelFromMsg c.y
  let b ← channelFromMsg c.z
  pure (acc ++ [(v, ⟨r, g, b⟩)])

/-- voxblox_ros/include/voxblox_ros/mesh_vis.h:282-321 `fillPointcloudWithMesh`: the cloud is cleared first. -/
def fillCloud (mode : ColorMode) (ml : MeshMap) (_cloud : RgbCloud) : Outcome RgbCloud :=
  ml.foldlM (fun acc e => addMesh mode (cloudVertex mode) acc e.2) []

end Vox.MeshMsg
