/-
The intensity server, voxblox_ros/src/intensity_server.cc: its construction, its meshes and what its events do to its two maps.

Simplified: the publishers are left out of the construction; what an image does to the intensity layer is left open here (C67, C85), as is what clouds do
to the map (C93); the point clouds are those of C115.
-/
import Verif.Model.Setup
import Verif.Model.ServerMesh
import Verif.Model.IntensityVis
import Verif.Model.CloudMsg

namespace Vox.IntensityServer

open Layer Grid Ieee MeshMsg Setup

variable {V : Type}

/-! ### Construction -/

/-- The members after construction, voxblox_ros/include/voxblox_ros/intensity_server.h:39-52; the limits are those of the colour map, which hides
the one of the TSDF server (voxblox_ros/include/voxblox_ros/tsdf_server.h:200). -/
structure IntensitySetup where
  base : TsdfSetup
  cacheMesh : Bool
  geometry : Geometry
  focal : Fl
  factor : ℤ
  minValue : Fl
  maxValue : Fl
  maxDistance : Fl

/-- The members once both layers exist, voxblox_ros/src/intensity_server.cc:8-10, :18-34, :43-45; the default of the distance is that of
voxblox/src/integrator/intensity_integrator.cc:9. -/
def intensityMembers (P : Params) (base : TsdfSetup) (geometry : Geometry) : IntensitySetup where
  base := base
  cacheMesh := true
  geometry := geometry
  focal := P.getDouble "intensity_focal_length" (.fin 400)
  factor := P.getInt "subsample_factor" 12
  minValue := P.getFloat "intensity_min_value" (.fin 10)
  maxValue := P.getFloat "intensity_max_value" (.fin 40)
  maxDistance := P.getFloat "intensity_max_distance" (.fin 5)

/-- voxblox_ros/src/intensity_server.cc:5-50, the constructor. -/
def intensityServer (hw : ℕ) (P : Params) : Outcome IntensitySetup := do
  let base ← tsdfServer hw P
  let geometry ← makeLayer ⟨base.geometry.voxelSize, base.geometry.side⟩
  pure (intensityMembers P base geometry)

/-- The colours of the intensity mesh, voxblox_ros/src/intensity_server.cc:43-45, for finite limits; others are not modelled. -/
def IntensitySetup.look (s : IntensitySetup) : Option (Fl → Outcome Color) :=
  match s.minValue, s.maxValue with
  | .fin lo, .fin hi => some (CloudMsg.lookup float32 .ironbow lo hi)
  | _, _ => none

/-! ### Operation -/

/-- The members that change: those of the TSDF server, `intensity_layer_` and `cached_mesh_msg_`, voxblox_ros/include/voxblox_ros/intensity_server.h:48,
voxblox_ros/include/voxblox_ros/tsdf_server.h:242. -/
structure State (V : Type) where
  base : ServerMesh.State V
  intensity : VLayer (IntensityVoxel Fl)
  cached : Msg

/-- What the operations depend on: the TSDF server and the colour map, voxblox_ros/include/voxblox_ros/intensity_server.h:52. -/
structure Env (V : Type) where
  base : ServerMesh.Env V
  look : Fl → Outcome Color

/-- Mesh messages on the topics `mesh` (voxblox_ros/src/tsdf_server.cc:509, :545) and `intensity_mesh` (voxblox_ros/src/intensity_server.cc:59). -/
inductive Published where
  | mesh (m : Msg)
  | intensityMesh (m : Msg)

/-- voxblox_ros/src/intensity_server.cc:52-61 `updateMesh`; the message is cached by voxblox_ros/src/tsdf_server.cc:511-513, since `cache_mesh_` is set. -/
def updateMesh (env : Env V) (s : State V) : Outcome (List Published × State V) := do
  let r ← ServerMesh.updateMesh env.base s.base
  let m ← IntensityVis.recolor env.look s.intensity r.1
  pure ([.mesh r.1, .intensityMesh m], ⟨r.2, s.intensity, m⟩)

/-- voxblox_ros/src/tsdf_server.cc:522-559 `generateMesh`, which the intensity server does not override
(voxblox_ros/include/voxblox_ros/intensity_server.h:25-26): only the topic `mesh` is served and nothing is cached. -/
def generateMesh (env : Env V) (s : State V) : Outcome (List Published × State V) := do
  let r ← ServerMesh.remesh env.base s.base
  pure ([.mesh r.1], { s with base := r.2 })

/-- What happens to a server: the events of a TSDF server and images. `new` is the intensity layer after an image,
voxblox_ros/src/intensity_server.cc:76-126. -/
inductive Event (V : Type) where
  | base (e : ServerMesh.Event V)
  | image (new : VLayer (IntensityVoxel Fl))

/-- One event with the messages it sends, voxblox_ros/src/intensity_server.cc:52-61, :76-126 and voxblox_ros/src/tsdf_server.cc:305-319, :493-559, :580-591,
:620-653. The intensity layer is reached by none of the inherited functions. -/
def step (env : Env V) (s : State V) : Event V → Outcome (List Published × State V)
  | .base .update => updateMesh env s
  | .base .generate => generateMesh env s
  | .base e => do
    let b ← ServerMesh.step env.base s.base e
    pure ([], { s with base := b })
  | .image new => .ok ([], { s with intensity := new })

end Vox.IntensityServer
