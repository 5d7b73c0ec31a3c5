/-
How the servers are configured: the parameters read from the ROS parameter server (voxblox_ros/include/voxblox_ros/ros_params.h) and the
constructors of the TSDF and the ESDF server (voxblox_ros/src/tsdf_server.cc, voxblox_ros/src/esdf_server.cc).

Simplified: publishers are left out, as are the static transforms of the transformer (voxblox_ros/src/transformer.cc:41-65); durations are
kept as numbers of seconds.
-/
import Verif.Model.MeshMsg
import Verif.Model.TsdfScan
import Verif.Model.Index

namespace Vox.Setup

open Ieee MeshMsg

/-! ### The parameter server -/

/-- The private parameters of a node by type: what `ros::NodeHandle::getParam` finds under a name, as used by
voxblox_ros/include/voxblox_ros/ros_params.h:15-177. Numbers are stored as `double` or `int`. -/
structure Params where
  double : String → Option Fl
  int : String → Option ℤ
  flag : String → Option Bool
  text : String → Option String

/-- `nh_private.param(name, value, value)` for a `double`, e.g. voxblox_ros/include/voxblox_ros/ros_params.h:25. -/
def Params.getDouble (P : Params) (n : String) (d : Fl) : Fl := (P.double n).getD d

/-- The same for a `float`, e.g. voxblox_ros/include/voxblox_ros/ros_params.h:78-79: the value is read as a `double` and converted. -/
def Params.getFloat (P : Params) (n : String) (d : Fl) : Fl := ((P.double n).map toFloat).getD d

/-- The same for an `int`, e.g. voxblox_ros/include/voxblox_ros/ros_params.h:26. -/
def Params.getInt (P : Params) (n : String) (d : ℤ) : ℤ := (P.int n).getD d

/-- The same for a `bool`, e.g. voxblox_ros/include/voxblox_ros/ros_params.h:73-75. -/
def Params.getFlag (P : Params) (n : String) (d : Bool) : Bool := (P.flag n).getD d

/-- The same for a string, e.g. voxblox_ros/include/voxblox_ros/ros_params.h:104-106. -/
def Params.getText (P : Params) (n : String) (d : String) : String := (P.text n).getD d

/-- `std::numeric_limits<float>::max()`, voxblox/include/voxblox/integrator/tsdf_integrator.h:86. -/
def floatMax : Fl := .fin ((2 ^ 24 - 1) * 2 ^ 104)

/-! ### Configurations -/

/-- voxblox/include/voxblox/core/tsdf_map.h:26-31 `TsdfMap::Config` and voxblox/include/voxblox/core/esdf_map.h:27-32
`EsdfMap::Config`. -/
structure MapConfig where
  voxelSize : Fl
  side : ℕ
deriving DecidableEq

/-- The default values, voxblox/include/voxblox/core/tsdf_map.h:28-29. -/
def MapConfig.default : MapConfig := ⟨float32.rnd (1 / 5), 16⟩

/-- Conversion of an `int` to `size_t`, voxblox_ros/include/voxblox_ros/ros_params.h:33. -/
def sizeT (v : ℤ) : ℕ := (v % 2 ^ 64).toNat

/-- voxblox_ros/include/voxblox_ros/ros_params.h:15-36 `getTsdfMapConfigFromRosParam`. -/
def tsdfMapConfig (P : Params) : Outcome MapConfig := do
  let voxelSize := P.getDouble "tsdf_voxel_size" MapConfig.default.voxelSize
  let side := P.getInt "tsdf_voxels_per_side" MapConfig.default.side
  let ok ← isPowerOfTwo side
  pure ⟨toFloat voxelSize, sizeT (if ok then side else MapConfig.default.side)⟩

/-- voxblox/include/voxblox/alignment/icp.h:76-106 `ICP::Config` without the number of threads. -/
structure IcpConfig where
  minMatchRatio : Fl
  keepRatio : Fl
  batch : ℤ
  refineRollPitch : Bool
  translationWeight : Fl
  rotationWeight : Fl
deriving DecidableEq

/-- voxblox_ros/include/voxblox_ros/ros_params.h:38-57 `getICPConfigFromRosParam`; the defaults are those of
voxblox/include/voxblox/alignment/icp.h:78-104. -/
def icpConfig (P : Params) : IcpConfig where
  minMatchRatio := P.getFloat "icp_min_match_ratio" (float32.rnd (4 / 5))
  keepRatio := P.getFloat "icp_subsample_keep_ratio" (float32.rnd (1 / 2))
  batch := P.getInt "icp_mini_batch_size" 20
  refineRollPitch := P.getFlag "icp_refine_roll_pitch" false
  translationWeight := P.getFloat "icp_inital_translation_weighting" (float32.rnd 100)
  rotationWeight := P.getFloat "icp_inital_rotation_weighting" (float32.rnd 100)

/-- voxblox/include/voxblox/integrator/tsdf_integrator.h:56-89 `TsdfIntegratorBase::Config`: the parameters of the integrators and the
time limit of the fast one. -/
structure TsdfConfig where
  params : TsdfScan.Params
  maxTime : Fl

/-- The values of voxblox_ros/include/voxblox_ros/ros_params.h:61-112, given the configuration of the map; the defaults are those of
voxblox/include/voxblox/integrator/tsdf_integrator.h:59-86. `hw` is `std::thread::hardware_concurrency()`. -/
def tsdfConfigOf (hw : ℕ) (P : Params) (map : MapConfig) : TsdfConfig where
  params := {
    tsdf := {
      truncation := toFloat (P.getDouble "truncation_distance" (float32.mul map.voxelSize (.fin 4)))
      maxWeight := toFloat (P.getDouble "max_weight" (float32.rnd 10000))
      useConstWeight := P.getFlag "use_const_weight" false
      useWeightDropoff := P.getFlag "use_weight_dropoff" true
      useSparsity := P.getFlag "use_sparsity_compensation_factor" false
      sparsityFactor := P.getFloat "sparsity_compensation_factor" (.fin 1)
      minRay := P.getFloat "min_ray_length_m" (float32.rnd (1 / 10))
      maxRay := P.getFloat "max_ray_length_m" (float32.rnd 5)
      allowClear := P.getFlag "allow_clear" true }
    carving := P.getFlag "voxel_carving_enabled" true
    threads := hw
    mode := P.getText "integration_order_mode" "mixed"
    antiGrazing := P.getFlag "anti_grazing" false
    subsampling := P.getFloat "start_voxel_subsampling_factor" (.fin 2)
    maxCollisions := P.getInt "max_consecutive_ray_collisions" 2
    clearEvery := P.getInt "clear_checks_every_n_frames" 1 }
  maxTime := P.getFloat "max_integration_time_s" floatMax

/-- voxblox_ros/include/voxblox_ros/ros_params.h:59-113 `getTsdfIntegratorConfigFromRosParam`. -/
def tsdfConfig (hw : ℕ) (P : Params) : Outcome TsdfConfig := do
  let map ← tsdfMapConfig P
  pure (tsdfConfigOf hw P map)

/-- voxblox_ros/include/voxblox_ros/ros_params.h:115-124 `getEsdfMapConfigFromRosParam`. -/
def esdfMapConfig (P : Params) : Outcome MapConfig := do
  let map ← tsdfMapConfig P
  pure ⟨map.voxelSize, map.side⟩

/-- voxblox/include/voxblox/integrator/esdf_integrator.h:29-78 `EsdfIntegrator::Config`. -/
structure EsdfConfig where
  fullEuclidean : Bool
  maxDistance : Fl
  minDistance : Fl
  defaultDistance : Fl
  minDiff : Fl
  minWeight : Fl
  numBuckets : ℤ
  multiQueue : Bool
  addOccupiedCrust : Bool
  clearRadius : Fl
  occupiedRadius : Fl
deriving DecidableEq

/-- voxblox_ros/include/voxblox_ros/ros_params.h:158-162: the default distance is raised to the maximum distance. -/
def raisedDefault (default max : Fl) : Fl := if Fl.lt default max then max else default

/-- The values of voxblox_ros/include/voxblox_ros/ros_params.h:133-164, given the configuration of the TSDF integrator; the other
defaults are those of voxblox/include/voxblox/integrator/esdf_integrator.h:37-77. -/
def esdfConfigOf (P : Params) (tsdf : TsdfConfig) : EsdfConfig where
  fullEuclidean := P.getFlag "esdf_euclidean_distance" false
  maxDistance := P.getFloat "esdf_max_distance_m" (float32.rnd 2)
  minDistance := P.getFloat "esdf_min_distance_m" (toFloat (float64.div tsdf.params.tsdf.truncation (.fin 2)))
  defaultDistance :=
    raisedDefault (P.getFloat "esdf_default_distance_m" (float32.rnd 2)) (P.getFloat "esdf_max_distance_m" (float32.rnd 2))
  minDiff := P.getFloat "esdf_min_diff_m" (float32.rnd (1 / 1000))
  minWeight := float32.rnd (1 / 1000000)
  numBuckets := 20
  multiQueue := false
  addOccupiedCrust := P.getFlag "esdf_add_occupied_crust" false
  clearRadius := P.getFloat "clear_sphere_radius" (float32.rnd (3 / 2))
  occupiedRadius := P.getFloat "occupied_sphere_radius" (float32.rnd 5)

/-- voxblox_ros/include/voxblox_ros/ros_params.h:126-165 `getEsdfIntegratorConfigFromRosParam`. -/
def esdfConfig (hw : ℕ) (P : Params) : Outcome EsdfConfig := do
  let tsdf ← tsdfConfig hw P
  pure (esdfConfigOf P tsdf)

/-- voxblox/include/voxblox/mesh/mesh_integrator.h:47-53 `MeshIntegratorConfig`. -/
structure MeshConfig where
  useColor : Bool
  minWeight : Fl
  threads : ℕ
deriving DecidableEq

/-- voxblox_ros/include/voxblox_ros/ros_params.h:169-179 `getMeshIntegratorConfigFromRosParam`; the defaults are those of
voxblox/include/voxblox/mesh/mesh_integrator.h:50-53. -/
def meshConfig (hw : ℕ) (P : Params) : MeshConfig where
  minWeight := P.getFloat "mesh_min_weight" (float32.rnd (1 / 10000))
  useColor := P.getFlag "mesh_use_color" true
  threads := hw

/-- The constructor's correction of the number of threads, voxblox/include/voxblox/mesh/mesh_integrator.h:102-105. -/
def MeshConfig.corrected (c : MeshConfig) : MeshConfig := { c with threads := if c.threads = 0 then 1 else c.threads }

/-! ### Layers -/

/-- The numbers a layer computes with, voxblox/include/voxblox/core/layer.h:34-44. -/
structure Geometry where
  voxelSize : Fl
  side : ℕ
  voxelSizeInv : Fl
  blockSize : Fl
  blockSizeInv : Fl
deriving DecidableEq

/-- `block_size_ = voxel_size_ * voxels_per_side_`, voxblox/include/voxblox/core/layer.h:39. -/
def blockSizeFl (voxelSize : Fl) (side : ℕ) : Fl := float32.mul voxelSize (float32.rnd side)

/-- `1.0 / x` stored in a `float`, voxblox/include/voxblox/core/layer.h:37, :41. -/
def inverseFl (x : Fl) : Fl := toFloat (float64.div (.fin 1) x)

/-- voxblox/include/voxblox/core/layer.h:34-44, the constructor of a layer. -/
def makeLayer (c : MapConfig) : Outcome Geometry := do
  Outcome.check (Fl.lt (.fin 0) c.voxelSize)
  Outcome.check (Fl.lt (.fin 0) (blockSizeFl c.voxelSize c.side))
  Outcome.check (decide (0 < c.side))
  pure ⟨c.voxelSize, c.side, inverseFl c.voxelSize, blockSizeFl c.voxelSize c.side, inverseFl (blockSizeFl c.voxelSize c.side)⟩

/-! ### The TSDF server -/

/-- What the transformer is set to, voxblox_ros/src/transformer.cc:9-30. -/
structure TransformerSetup where
  worldFrame : String
  sensorFrame : String
  toleranceNs : ℤ
  useTf : Bool
deriving DecidableEq

/-- Conversion of a `double` to `int64_t`, voxblox_ros/src/transformer.cc:25-26: undefined if the value does not fit. -/
def toInt64 : Fl → Outcome ℤ
  | .fin q =>
    let t : ℤ := if 0 ≤ q then ⌊q⌋ else ⌈q⌉
    if IsI64 t then .ok t else .ub
  | _ => .ub

/-- voxblox_ros/src/transformer.cc:9-30, the constructor of the transformer; the default tolerance is divided by 1e9 and multiplied
again. -/
def makeTransformer (P : Params) : Outcome TransformerSetup := do
  let tolerance := P.getDouble "timestamp_tolerance_sec" (float64.div (.fin 1000000) (.fin 1000000000))
  let ns ← toInt64 (float64.mul tolerance (.fin 1000000000))
  pure ⟨P.getText "world_frame" "world", P.getText "sensor_frame" "", ns, P.getFlag "use_tf_transforms" true⟩

/-- voxblox_ros/include/voxblox_ros/mesh_vis.h:53-71 `getColorModeFromString`. -/
def colorModeOf (s : String) : ColorMode :=
  if s = "" then .color
  else if s = "color" ∨ s = "colors" then .color
  else if s = "height" then .height
  else if s = "normals" then .normals
  else if s = "lambert" then .lambert
  else if s = "lambert_color" then .lambertColor
  else .gray

/-- The colour maps for intensities, voxblox_ros/src/tsdf_server.cc:197-207. -/
inductive MapKind where
  | rainbow
  | inverseRainbow
  | grayscale
  | inverseGrayscale
  | ironbow
deriving DecidableEq, Repr

/-- voxblox_ros/src/tsdf_server.cc:197-209: an unknown name leaves the map of the constructor (:31), a rainbow. -/
def mapKindOf (s : String) : MapKind :=
  if s = "rainbow" then .rainbow
  else if s = "inverse_rainbow" then .inverseRainbow
  else if s = "grayscale" then .grayscale
  else if s = "inverse_grayscale" then .inverseGrayscale
  else if s = "ironbow" then .ironbow
  else .rainbow

/-- voxblox_ros/src/tsdf_server.cc:92-106: the integrator of a name; a name that is not known selects the simple one. -/
def methodOf (s : String) : TsdfScan.Kind :=
  if s = "simple" then .simple
  else if s = "merged" then .merged
  else if s = "fast" then .fast
  else .simple

/-- A timer is made if the period is positive, voxblox_ros/src/tsdf_server.cc:134-138. -/
def timerOf (period : Fl) : Option Fl := if Fl.lt (.fin 0) period then some period else none

/-- The members of the TSDF server after construction, voxblox_ros/include/voxblox_ros/tsdf_server.h:131-261. -/
structure TsdfSetup where
  geometry : Geometry
  kind : TsdfScan.Kind
  integrator : TsdfConfig
  mesh : MeshConfig
  icp : IcpConfig
  transformer : TransformerSetup
  minTime : Fl
  maxBlockDistance : Fl
  sliceLevel : Fl
  worldFrame : String
  publishOnUpdate : Bool
  publishSlices : Bool
  publishPointclouds : Bool
  publishMap : Bool
  useFreespace : Bool
  queueSize : ℤ
  enableIcp : Bool
  accumulateIcp : Bool
  icpFrame : String
  poseFrame : String
  verbose : Bool
  meshFile : String
  colorMode : ColorMode
  colorMap : MapKind
  maxIntensity : Fl
  meshTimer : Option Fl
  mapTimer : Option Fl

/-- The services, voxblox_ros/src/tsdf_server.cc:116-127; the ESDF server adds none (voxblox_ros/src/esdf_server.cc:40-79). -/
def services : List String :=
  ["generate_mesh", "clear_map", "save_map", "load_map", "publish_pointclouds", "publish_map"]

/-- The topics subscribed to, voxblox_ros/src/tsdf_server.cc:59-60, :68-69, :72-78 and voxblox_ros/src/transformer.cc:37-39. -/
def TsdfSetup.topics (s : TsdfSetup) : List String :=
  ["pointcloud", "tsdf_map_in"] ++ (if s.useFreespace then ["freespace_pointcloud"] else []) ++
    (if s.transformer.useTf then [] else ["transform"])

/-- The configuration the integrator keeps, voxblox/src/integrator/tsdf_integrator.cc:53-66. -/
def TsdfConfig.corrected (c : TsdfConfig) : TsdfConfig := { c with params := c.params.corrected }

/-- The members once the map exists, voxblox_ros/src/tsdf_server.cc:22-43, :57-71, :80-87, :92-148 and :151-211. -/
def tsdfMembers (P : Params) (transformer : TransformerSetup) (geometry : Geometry) (integrator : TsdfConfig) (mesh : MeshConfig) :
    TsdfSetup where
  geometry := geometry
  kind := methodOf (P.getText "method" "merged")
  integrator := integrator.corrected
  mesh := mesh.corrected
  icp := icpConfig P
  transformer := transformer
  minTime := P.getDouble "min_time_between_msgs_sec" (.fin 0)
  maxBlockDistance := P.getDouble "max_block_distance_from_body" floatMax
  sliceLevel := P.getDouble "slice_level" (.fin (1 / 2))
  worldFrame := P.getText "world_frame" "world"
  publishOnUpdate := P.getFlag "publish_pointclouds_on_update" false
  publishSlices := P.getFlag "publish_slices" false
  publishPointclouds := P.getFlag "publish_pointclouds" false
  publishMap := P.getFlag "publish_tsdf_map" false
  useFreespace := P.getFlag "use_freespace_pointcloud" false
  queueSize := P.getInt "pointcloud_queue_size" (P.getInt "pointcloud_queue_size" 1)
  enableIcp := P.getFlag "enable_icp" false
  accumulateIcp := P.getFlag "accumulate_icp_corrections" true
  icpFrame := if P.getFlag "enable_icp" false then P.getText "icp_corrected_frame" "icp_corrected" else "icp_corrected"
  poseFrame := if P.getFlag "enable_icp" false then P.getText "pose_corrected_frame" "pose_corrected" else "pose_corrected"
  verbose := P.getFlag "verbose" true
  meshFile := P.getText "mesh_filename" ""
  colorMode := colorModeOf (P.getText "color_mode" "")
  colorMap := mapKindOf (P.getText "intensity_colormap" "rainbow")
  maxIntensity := P.getFloat "intensity_max_value" (float32.rnd 100)
  meshTimer := timerOf (P.getDouble "update_mesh_every_n_sec" (.fin 1))
  mapTimer := timerOf (P.getDouble "publish_map_every_n_sec" (.fin 1))

/-- voxblox_ros/src/tsdf_server.cc:17-149, the constructor with given configurations. -/
def tsdfServerWith (P : Params) (config : MapConfig) (integrator : TsdfConfig) (mesh : MeshConfig) : Outcome TsdfSetup := do
  let transformer ← makeTransformer P
  let geometry ← makeLayer config
  pure (tsdfMembers P transformer geometry integrator mesh)

/-- voxblox_ros/src/tsdf_server.cc:11-15, the constructor that reads the configurations from the parameters. -/
def tsdfServer (hw : ℕ) (P : Params) : Outcome TsdfSetup := do
  let map ← tsdfMapConfig P
  let integrator ← tsdfConfig hw P
  tsdfServerWith P map integrator (meshConfig hw P)

/-! ### The ESDF server -/

/-- The members of the ESDF server after construction, voxblox_ros/include/voxblox_ros/esdf_server.h:98-107. -/
structure EsdfSetup where
  base : TsdfSetup
  geometry : Geometry
  config : EsdfConfig
  clearSphere : Bool
  publishMap : Bool
  publishTraversable : Bool
  traversabilityRadius : Fl
  esdfTimer : Option Fl
  incremental : Bool

/-- The topics of the ESDF server, voxblox_ros/src/esdf_server.cc:54-55. -/
def EsdfSetup.topics (s : EsdfSetup) : List String := s.base.topics ++ ["esdf_map_in"]

/-- `CHECK_NEAR` of glog with a margin of 1e-6, voxblox/src/integrator/esdf_integrator.cc:18: both comparisons are made in `double`. -/
def checkNear (a b : Fl) : Outcome Unit := do
  Outcome.check (Fl.le a (float64.add b (float64.rnd (1 / 1000000))))
  Outcome.check (Fl.le (float64.sub b (float64.rnd (1 / 1000000))) a)

/-- The checks of the constructor, voxblox/src/integrator/esdf_integrator.cc:7-21. -/
def checkLayers (tsdf esdf : Geometry) : Outcome Unit := do
  Outcome.check (decide (esdf.side = tsdf.side))
  checkNear esdf.voxelSize tsdf.voxelSize

/-- The members of the ESDF server, voxblox_ros/src/esdf_server.cc:23-30, :57-78. -/
def esdfMembers (P : Params) (base : TsdfSetup) (geometry : Geometry) (config : EsdfConfig) : EsdfSetup where
  base := base
  geometry := geometry
  config := config
  clearSphere := P.getFlag "clear_sphere_for_planning" false
  publishMap := P.getFlag "publish_esdf_map" false
  publishTraversable := P.getFlag "publish_traversable" false
  traversabilityRadius := P.getFloat "traversability_radius" (.fin 1)
  esdfTimer := timerOf (P.getDouble "update_esdf_every_n_sec" (.fin 1))
  incremental := true

/-- voxblox_ros/src/esdf_server.cc:8-79, both constructors and `setupRos`. -/
def esdfServer (hw : ℕ) (P : Params) : Outcome EsdfSetup := do
  let emap ← esdfMapConfig P
  let config ← esdfConfig hw P
  let base ← tsdfServer hw P
  let geometry ← makeLayer emap
  checkLayers base.geometry geometry
  pure (esdfMembers P base geometry config)

end Vox.Setup
