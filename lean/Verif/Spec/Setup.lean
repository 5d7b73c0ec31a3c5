/-
What the documentation of the servers says about their parameters (docs/pages/The-Voxblox-Node.rst:91-252), independently of how the
parameters are read.
-/
import Verif.Model.Setup

namespace Vox.Spec

open Setup Ieee MeshMsg

/-- A value of a parameter, with the type it is used in. -/
inductive Value where
  | single (x : Fl)
  | double (x : Fl)
  | int (n : ℤ)
  | flag (b : Bool)
  | text (s : String)
deriving DecidableEq

/-- The number a documented decimal stands for in single precision. -/
def decimal (q : ℚ) : Value := .single (float32.rnd q)

/-- Documented parameters with their defaults, docs/pages/The-Voxblox-Node.rst:102-252: those that are given as a plain value which is
used as it is. `3.40282e+38` is the largest `float`, printed with six digits. -/
def documented : List (String × Value) :=
  [ ("min_time_between_msgs_sec", .double (.fin 0)),
    ("pointcloud_queue_size", .int 1),
    ("verbose", .flag true),
    ("max_block_distance_from_body", .double (.fin (2 ^ 128 - 2 ^ 104))),
    ("tsdf_voxel_size", decimal (2 / 10)),
    ("voxel_carving_enabled", .flag true),
    ("max_ray_length_m", decimal 5),
    ("min_ray_length_m", decimal (1 / 10)),
    ("max_weight", decimal 10000),
    ("use_const_weight", .flag false),
    ("use_freespace_pointcloud", .flag false),
    ("start_voxel_subsampling_factor", decimal 2),
    ("max_consecutive_ray_collisions", .int 2),
    ("max_integration_time_s", .single (.fin (2 ^ 128 - 2 ^ 104))),
    ("clear_checks_every_n_frames", .int 1),
    ("esdf_max_distance_m", decimal 2),
    ("clear_sphere_for_planning", .flag false),
    ("clear_sphere_radius", decimal (15 / 10)),
    ("occupied_sphere_radius", decimal 5),
    ("enable_icp", .flag false),
    ("accumulate_icp_corrections", .flag true),
    ("icp_mini_batch_size", .int 20),
    ("icp_subsample_keep_ratio", decimal (5 / 10)),
    ("icp_min_match_ratio", decimal (8 / 10)),
    ("icp_inital_translation_weighting", decimal 100),
    ("icp_inital_rotation_weighting", decimal 100),
    ("use_tf_transforms", .flag true),
    ("world_frame", .text "world"),
    ("sensor_frame", .text ""),
    ("slice_level", .double (.fin (5 / 10))),
    ("mesh_filename", .text ""),
    ("mesh_min_weight", decimal (1 / 10000)),
    ("publish_tsdf_map", .flag false),
    ("publish_esdf_map", .flag false),
    ("publish_pointclouds", .flag false),
    ("publish_pointclouds_on_update", .flag false),
    ("intensity_max_value", decimal 100),
    ("publish_traversable", .flag false),
    ("traversability_radius", decimal 1) ]

/-- Where the server keeps a parameter. -/
def serverValue (s : EsdfSetup) : String → Option Value
  | "min_time_between_msgs_sec" => some (.double s.base.minTime)
  | "pointcloud_queue_size" => some (.int s.base.queueSize)
  | "verbose" => some (.flag s.base.verbose)
  | "max_block_distance_from_body" => some (.double s.base.maxBlockDistance)
  | "tsdf_voxel_size" => some (.single s.base.geometry.voxelSize)
  | "voxel_carving_enabled" => some (.flag s.base.integrator.params.carving)
  | "max_ray_length_m" => some (.single s.base.integrator.params.tsdf.maxRay)
  | "min_ray_length_m" => some (.single s.base.integrator.params.tsdf.minRay)
  | "max_weight" => some (.single s.base.integrator.params.tsdf.maxWeight)
  | "use_const_weight" => some (.flag s.base.integrator.params.tsdf.useConstWeight)
  | "use_freespace_pointcloud" => some (.flag s.base.useFreespace)
  | "start_voxel_subsampling_factor" => some (.single s.base.integrator.params.subsampling)
  | "max_consecutive_ray_collisions" => some (.int s.base.integrator.params.maxCollisions)
  | "max_integration_time_s" => some (.single s.base.integrator.maxTime)
  | "clear_checks_every_n_frames" => some (.int s.base.integrator.params.clearEvery)
  | "esdf_max_distance_m" => some (.single s.config.maxDistance)
  | "clear_sphere_for_planning" => some (.flag s.clearSphere)
  | "clear_sphere_radius" => some (.single s.config.clearRadius)
  | "occupied_sphere_radius" => some (.single s.config.occupiedRadius)
  | "enable_icp" => some (.flag s.base.enableIcp)
  | "icp_refine_roll_pitch" => some (.flag s.base.icp.refineRollPitch)
  | "accumulate_icp_corrections" => some (.flag s.base.accumulateIcp)
  | "icp_mini_batch_size" => some (.int s.base.icp.batch)
  | "icp_subsample_keep_ratio" => some (.single s.base.icp.keepRatio)
  | "icp_min_match_ratio" => some (.single s.base.icp.minMatchRatio)
  | "icp_inital_translation_weighting" => some (.single s.base.icp.translationWeight)
  | "icp_inital_rotation_weighting" => some (.single s.base.icp.rotationWeight)
  | "use_tf_transforms" => some (.flag s.base.transformer.useTf)
  | "world_frame" => some (.text s.base.worldFrame)
  | "sensor_frame" => some (.text s.base.transformer.sensorFrame)
  | "slice_level" => some (.double s.base.sliceLevel)
  | "mesh_filename" => some (.text s.base.meshFile)
  | "mesh_min_weight" => some (.single s.base.mesh.minWeight)
  | "publish_tsdf_map" => some (.flag s.base.publishMap)
  | "publish_esdf_map" => some (.flag s.publishMap)
  | "publish_pointclouds" => some (.flag s.base.publishPointclouds)
  | "publish_pointclouds_on_update" => some (.flag s.base.publishOnUpdate)
  | "intensity_max_value" => some (.single s.base.maxIntensity)
  | "publish_traversable" => some (.flag s.publishTraversable)
  | "traversability_radius" => some (.single s.traversabilityRadius)
  | "use_weight_dropoff" => some (.flag s.base.integrator.params.tsdf.useWeightDropoff)
  | "use_sparsity_compensation_factor" => some (.flag s.base.integrator.params.tsdf.useSparsity)
  | "sparsity_compensation_factor" => some (.single s.base.integrator.params.tsdf.sparsityFactor)
  | "integration_order_mode" => some (.text s.base.integrator.params.mode)
  | "anti_grazing" => some (.flag s.base.integrator.params.antiGrazing)
  | "esdf_euclidean_distance" => some (.flag s.config.fullEuclidean)
  | "esdf_min_diff_m" => some (.single s.config.minDiff)
  | "esdf_add_occupied_crust" => some (.flag s.config.addOccupiedCrust)
  | "mesh_use_color" => some (.flag s.base.mesh.useColor)
  | "publish_slices" => some (.flag s.base.publishSlices)
  | _ => none

/-- The value a parameter should have: the one on the parameter server if there is one of the type, else the default. -/
def expected (P : Params) (n : String) : Value → Value
  | .single d => match P.double n with
    | some x => .single (toFloat x)
    | none => .single d
  | .double d => match P.double n with
    | some x => .double x
    | none => .double d
  | .int d => match P.int n with
    | some x => .int x
    | none => .int d
  | .flag d => match P.flag n with
    | some x => .flag x
    | none => .flag d
  | .text d => match P.text n with
    | some x => .text x
    | none => .text d

/-- Documented parameters that are never read: docs/pages/The-Voxblox-Node.rst:223-226, :229-230. -/
def ignored : List String := ["output_mesh_as_pointcloud", "output_mesh_as_pcl_mesh", "color_ptcloud_by_weight"]

/-- The documented services, docs/pages/The-Voxblox-Node.rst:78-89. -/
def documentedServices : List String :=
  ["generate_mesh", "generate_esdf", "save_map", "load_map", "publish_map", "publish_pointclouds"]

/-- The other documented parameters that are read, docs/pages/The-Voxblox-Node.rst:110-252. -/
def documentedOther : List String :=
  ["update_esdf_every_n_sec", "method", "tsdf_voxels_per_side", "truncation_distance", "allow_clear", "esdf_default_distance_m",
    "icp_refine_roll_pitch", "icp_corrected_frame", "pose_corrected_frame", "update_mesh_every_n_sec", "publish_map_every_n_sec", "color_mode",
    "intensity_colormap"]

/-- Parameters that have an effect although the documentation does not list them, with the defaults that the headers declare:
voxblox/include/voxblox/integrator/tsdf_integrator.h:59-86, voxblox/include/voxblox/integrator/esdf_integrator.h:37-77,
voxblox/include/voxblox/mesh/mesh_integrator.h:50-53; `publish_slices` voxblox_ros/src/tsdf_server.cc:33. -/
def declared : List (String × Value) :=
  [ ("use_weight_dropoff", .flag true),
    ("use_sparsity_compensation_factor", .flag false),
    ("sparsity_compensation_factor", decimal 1),
    ("integration_order_mode", .text "mixed"),
    ("anti_grazing", .flag false),
    ("esdf_euclidean_distance", .flag false),
    ("esdf_min_diff_m", decimal (1 / 1000)),
    ("esdf_add_occupied_crust", .flag false),
    ("mesh_use_color", .flag true),
    ("publish_slices", .flag false) ]

/-- All parameters that have an effect although the documentation does not list them. -/
def undocumented : List String := declared.map (·.1) ++ ["esdf_min_distance_m", "timestamp_tolerance_sec"]

/-- All parameters of a server. -/
def parameters : List String := documented.map (·.1) ++ documentedOther ++ undocumented

/-- Two parameter servers that hold the same under the given names. -/
def SameOn (ns : List String) (P Q : Params) : Prop :=
  ∀ n ∈ ns, P.double n = Q.double n ∧ P.int n = Q.int n ∧ P.flag n = Q.flag n ∧ P.text n = Q.text n

/-- What a parameter server guarantees: an `int` has 32 bits. -/
def IntsFit (P : Params) : Prop := ∀ n v, P.int n = some v → -2 ^ 31 ≤ v ∧ v < 2 ^ 31

/-- A tolerance for the time stamps of transforms, if given, is a number of at most 285 years (in seconds). -/
def ToleranceFits (P : Params) : Prop :=
  ∀ t, P.double "timestamp_tolerance_sec" = some t → ∃ q : ℚ, t = .fin q ∧ |q| ≤ 9000000000

end Vox.Spec
