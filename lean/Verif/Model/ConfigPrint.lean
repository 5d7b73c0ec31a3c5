/-
How settings are printed: `Config::print` of the TSDF integrators, of the TSDF map and of the mesh integrator.
-/
import Verif.Model.Ply
import Verif.Model.MeshDisplay

namespace Vox.ConfigPrint

/-- A setting that is written to a `std::stringstream`: voxblox/src/integrator/tsdf_integrator.cc:597-614. -/
inductive Value where
  | bool (b : Bool)
  | nat (n : ℕ)
  | int (z : ℤ)
  | float (x : Fl)

/-- The text of a setting with the default flags of a stream: voxblox/src/integrator/tsdf_integrator.cc:597-614. A `bool` is written as `1` or
`0`, a `float` with six significant digits. -/
def Value.text : Value → List Char
  | .bool b => if b then ['1'] else ['0']
  | .nat n => Ply.natText n
  | .int z => MeshDisplay.intText z
  | .float x => Ply.floatText x

/-- One line with a setting, voxblox/src/integrator/tsdf_integrator.cc:597. -/
def item (label : String) (v : Value) : List Char := label.toList ++ (v.text ++ ['\n'])

/-- voxblox/include/voxblox/integrator/tsdf_integrator.h:56-89 `TsdfIntegratorBase::Config`. -/
structure TsdfConfig where
  defaultTruncationDistance : Fl
  maxWeight : Fl
  voxelCarvingEnabled : Bool
  minRayLengthM : Fl
  maxRayLengthM : Fl
  useConstWeight : Bool
  allowClear : Bool
  useWeightDropoff : Bool
  useSparsityCompensationFactor : Bool
  sparsityCompensationFactor : Fl
  integratorThreads : ℕ
  integrationOrderMode : String
  enableAntiGrazing : Bool
  startVoxelSubsamplingFactor : Fl
  maxConsecutiveRayCollisions : ℤ
  clearChecksEveryNFrames : ℤ
  maxIntegrationTimeS : Fl

/-- voxblox/src/integrator/tsdf_integrator.cc:592-618 `TsdfIntegratorBase::Config::print`. -/
def TsdfConfig.print (c : TsdfConfig) : List Char :=
  Ply.line "================== TSDF Integrator Config ====================" ++
  (Ply.line " General: " ++
  (item " - default_truncation_distance:               " (.float c.defaultTruncationDistance) ++
  (item " - max_weight:                                " (.float c.maxWeight) ++
  (item " - voxel_carving_enabled:                     " (.bool c.voxelCarvingEnabled) ++
  (item " - min_ray_length_m:                          " (.float c.minRayLengthM) ++
  (item " - max_ray_length_m:                          " (.float c.maxRayLengthM) ++
  (item " - use_const_weight:                          " (.bool c.useConstWeight) ++
  (item " - allow_clear:                               " (.bool c.allowClear) ++
  (item " - use_weight_dropoff:                        " (.bool c.useWeightDropoff) ++
  (item " - use_sparsity_compensation_factor:          " (.bool c.useSparsityCompensationFactor) ++
  (item " - sparsity_compensation_factor:              " (.float c.sparsityCompensationFactor) ++
  (item " - integrator_threads:                        " (.nat c.integratorThreads) ++
  (Ply.line " MergedTsdfIntegrator: " ++
  (item " - enable_anti_grazing:                       " (.bool c.enableAntiGrazing) ++
  (Ply.line " FastTsdfIntegrator: " ++
  (item " - start_voxel_subsampling_factor:            " (.float c.startVoxelSubsamplingFactor) ++
  (item " - max_consecutive_ray_collisions:            " (.int c.maxConsecutiveRayCollisions) ++
  (item " - clear_checks_every_n_frames:               " (.int c.clearChecksEveryNFrames) ++
  (item " - max_integration_time_s:                    " (.float c.maxIntegrationTimeS) ++
  (Ply.line "=============================================================="))))))))))))))))))))

/-- voxblox/include/voxblox/core/tsdf_map.h:26-33 `TsdfMap::Config`. -/
structure MapConfig where
  tsdfVoxelSize : Fl
  tsdfVoxelsPerSide : ℕ

/-- voxblox/src/core/tsdf_map.cc:99-108 `TsdfMap::Config::print`. -/
def MapConfig.print (c : MapConfig) : List Char :=
  Ply.line "====================== TSDF Map Config ========================" ++
  (item " - tsdf_voxel_size:               " (.float c.tsdfVoxelSize) ++
  (item " - tsdf_voxels_per_side:          " (.nat c.tsdfVoxelsPerSide) ++
  (Ply.line "==============================================================")))

/-- voxblox/include/voxblox/mesh/mesh_integrator.h:47-66 `MeshIntegratorConfig`. -/
structure MeshConfig where
  useColor : Bool
  minWeight : Fl
  integratorThreads : ℕ

/-- voxblox/include/voxblox/mesh/mesh_integrator.h:55-65 `MeshIntegratorConfig::print`. -/
def MeshConfig.print (c : MeshConfig) : List Char :=
  Ply.line "================== Mesh Integrator Config ====================" ++
  (item " - use_color:                 " (.bool c.useColor) ++
  (item " - min_weight:                " (.float c.minWeight) ++
  (item " - integrator_threads:        " (.nat c.integratorThreads) ++
  (Ply.line "=============================================================="))))

end Vox.ConfigPrint
