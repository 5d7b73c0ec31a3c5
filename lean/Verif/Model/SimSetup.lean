/-
The construction of the simulation server (voxblox_ros/src/simulation_server.cc:22-160).

Simplified: publishers, the seed of the random numbers (:152) and the empty world (:90) are left out; the configurations of the integrators
are kept as values.
-/
import Verif.Model.Setup

namespace Vox.Setup

open Ieee MeshMsg

/-- The members of the simulation server after construction, voxblox_ros/include/voxblox_ros/simulation_server.h:74-111; the ray length and
the two distances of the occupancy integrators exist only with `generate_occupancy`. -/
structure SimSetup where
  tsdfTruth : Geometry
  esdfTruth : Geometry
  tsdfTest : Geometry
  esdfTest : Geometry
  occTest : Option Geometry
  integrator : TsdfConfig
  esdf : EsdfConfig
  occRange : Option Fl
  occEsdf : Option (Fl × Fl)
  truncation : Fl
  esdfMax : Fl
  worldFrame : String
  visualize : Bool
  sliceLevel : Fl
  generateMesh : Bool
  incremental : Bool
  addRobotPose : Bool
  attempts : ℕ
  resolution : ℤ × ℤ
  fov : Fl
  maxDist : Fl
  minDist : Fl
  viewpoints : ℤ

/-- Conversion of a `size_t` to `int`, voxblox_ros/src/simulation_server.cc:74. -/
def intOf (n : ℕ) : ℤ := (n + 2 ^ 31) % 2 ^ 32 - 2 ^ 31

/-- Equality of two floats, voxblox_ros/src/simulation_server.cc:91-92: none for NaN. -/
def sameFl (a b : Fl) : Bool := Fl.le a b && Fl.le b a

/-- The checks of voxblox_ros/src/simulation_server.cc:91-96 for a configuration. -/
def checkConfig (voxelSize : Fl) (side : ℤ) (c : MapConfig) : Outcome Unit := do
  Outcome.check (sameFl voxelSize c.voxelSize)
  Outcome.check (decide (sizeT side = c.side))

/-- voxblox_ros/src/simulation_server.cc:22-63 `getServerConfigFromRosParam` and :100-128, the rest of the constructor: the voxel size and the
side are read again, now unchecked. The copy of the ESDF configuration gets the minimum distance as the radius of the cleared sphere
(:109-110). -/
def simMembers (P : Params) (map : MapConfig) (tsdf : TsdfConfig) (esdf : EsdfConfig) : Outcome SimSetup := do
  let voxelSize := P.getFloat "tsdf_voxel_size" map.voxelSize
  let side := P.getInt "tsdf_voxels_per_side" (intOf map.side)
  let minDist := P.getFloat "min_dist" (float32.rnd (1 / 2))
  let attempts := P.getInt "max_attempts_to_generate_viewpoint" 50
  let occupancy := P.getFlag "generate_occupancy" false
  Outcome.check (decide (0 < attempts))
  let tsdfTruth ← makeLayer ⟨voxelSize, sizeT side⟩
  let esdfTruth ← makeLayer ⟨voxelSize, sizeT side⟩
  let tsdfTest ← makeLayer ⟨voxelSize, sizeT side⟩
  let esdfTest ← makeLayer ⟨voxelSize, sizeT side⟩
  checkLayers tsdfTest esdfTest
  let occTest ← if occupancy then do
      let g ← makeLayer ⟨voxelSize, sizeT side⟩
      pure (some g)
    else pure none
  pure {
    tsdfTruth := tsdfTruth
    esdfTruth := esdfTruth
    tsdfTest := tsdfTest
    esdfTest := esdfTest
    occTest := occTest
    integrator := tsdf.corrected
    esdf := { esdf with clearRadius := minDist }
    occRange := if occupancy then some tsdf.params.tsdf.maxRay else none
    occEsdf := if occupancy then some (esdf.maxDistance, esdf.maxDistance) else none
    truncation := P.getFloat "truncation_distance" tsdf.params.tsdf.truncation
    esdfMax := esdf.maxDistance
    worldFrame := P.getText "world_frame" "world"
    visualize := P.getFlag "visualize" true
    sliceLevel := P.getFloat "visualization_slice_level" (.fin 2)
    generateMesh := P.getFlag "generate_mesh" true
    incremental := P.getFlag "incremental" true
    addRobotPose := P.getFlag "add_robot_pose" false
    attempts := sizeT attempts
    resolution := (P.getInt "depth_camera_resolution_u" 320, P.getInt "depth_camera_resolution_v" 240)
    fov := P.getFloat "fov_h_rad" (float32.rnd (15708 / 10000))
    maxDist := P.getFloat "max_dist" (float32.rnd 10)
    minDist := minDist
    viewpoints := P.getInt "num_viewpoints" 50 }

/-- voxblox_ros/src/simulation_server.cc:65-153, the constructor with given configurations. -/
def simServerWith (P : Params) (emap : MapConfig) (esdf : EsdfConfig) (map : MapConfig) (tsdf : TsdfConfig) : Outcome SimSetup := do
  checkConfig map.voxelSize (intOf map.side) map
  checkConfig map.voxelSize (intOf map.side) emap
  simMembers P map tsdf esdf

/-- voxblox_ros/src/simulation_server.cc:155-160, the constructor that reads the configurations from the parameters. -/
def simServer (hw : ℕ) (P : Params) : Outcome SimSetup := do
  let emap ← esdfMapConfig P
  let esdf ← esdfConfig hw P
  let map ← tsdfMapConfig P
  let tsdf ← tsdfConfig hw P
  simServerWith P emap esdf map tsdf

end Vox.Setup
