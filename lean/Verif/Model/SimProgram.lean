/-
The simulation program (voxblox_ros/src/simulation_eval.cc) around the simulation server (voxblox_ros/src/simulation_server.cc:279-361): the world, the ground truth,
the numbers and what is shown. Positions are exact; the log and the table of timers (C128) are left out.
-/
import Verif.Model.SimServer
import Verif.Model.SimWorld
import Verif.Model.Evaluation
import Verif.Model.EvalProgram
import Verif.Model.PtCloud

namespace Vox.SimProgram

open Layer Grid Geo Sim MC MeshInt Ieee

variable {F : Type} [Field F] [LinearOrder F]

/-- `Color::Red()`, voxblox/include/voxblox/core/common.h:131. -/
def red : Color := ⟨255, 0, 0, 255⟩

/-- `Color::Green()`, voxblox/include/voxblox/core/common.h:132. -/
def green : Color := ⟨0, 255, 0, 255⟩

/-- `Color::Pink()`, voxblox/include/voxblox/core/common.h:138. -/
def pink : Color := ⟨255, 0, 127, 255⟩

/-- voxblox_ros/src/simulation_eval.cc:14-28: the objects after `prepareWorld` has added its own; the height of the ground is the decimal number. -/
def prepareObjects (w : List (Obj F)) : List (Obj F) :=
  addGroundLevel (3 / 100) (w ++ [⟨.sphere ⟨0, 0, 2⟩ 2, red⟩, ⟨.plane ⟨-2, -4, 2⟩ ⟨0, 1, 0⟩, white⟩, ⟨.plane ⟨4, 0, 0⟩ ⟨-1, 0, 0⟩, pink⟩,
    ⟨.cube ⟨-4, 4, 2⟩ ⟨4, 4, 4⟩, green⟩])

/-- The world of the program: its constructor (voxblox/src/simulation/simulation_world.cc:5-6) and voxblox_ros/src/simulation_eval.cc:16-28. -/
def room : SimServer.World F := ⟨prepareObjects [], ⟨-5, -5, -1⟩, ⟨5, 5, 9⟩⟩

/-- The objects as `generateSdfFromWorld` sees them, voxblox/include/voxblox/simulation/simulation_world_inl.h:54-63. -/
def things (sqrt : ℚ → ℚ) (w : SimServer.World ℚ) : List Thing := w.objects.map fun o => ⟨distance sqrt o.shape, o.color⟩

/-- The four layers, voxblox_ros/include/voxblox_ros/simulation_server.h:98-103. -/
structure Maps where
  tsdfTruth : VLayer (TsdfVoxel ℚ)
  esdfTruth : VLayer (EsdfVoxel ℚ)
  tsdfTest : VLayer (TsdfVoxel ℚ)
  esdfTest : VLayer (EsdfVoxel ℚ)

/-- The ground truth, voxblox_ros/src/simulation_eval.cc:30-31, in layers as the constructor leaves them. -/
def groundTruth (sqrt : ℚ → ℚ) (w : SimServer.World ℚ) (truncation esdfMax : ℚ) (m : Maps) : Outcome Maps := do
  let t ← generateSdf ⟨0, 0, Color.default⟩ setTsdf (things sqrt w) w.minBound w.maxBound truncation m.tsdfTruth
  let e ← generateSdf ⟨0, false, false, false, false, 0⟩ setEsdf (things sqrt w) w.minBound w.maxBound esdfMax m.esdfTruth
  pure { m with tsdfTruth := t, esdfTruth := e }

/-- voxblox_ros/src/simulation_server.cc:279-289 `evaluate` with voxblox/include/voxblox/utils/evaluation_utils.h:191-196: the two numbers printed. -/
def evaluate (N : Eval.Num) (m : Maps) : Outcome (ℚ × ℚ) := do
  let t ← Eval.evaluateLayersRmse N Eval.tsdf m.tsdfTruth m.tsdfTest .behindTest none
  let e ← Eval.evaluateLayersRmse N Eval.esdf m.esdfTruth m.esdfTest .behindTest none
  pure (t.1.rmse, e.1.rmse)

/-- A voxel with its numbers as floats, voxblox/include/voxblox/core/voxel.h:12-16. -/
def floatTsdf (v : TsdfVoxel ℚ) : TsdfVoxel Fl := ⟨.fin v.distance, .fin v.weight, v.color⟩

/-- The same for ESDF voxels, voxblox/include/voxblox/core/voxel.h:18-37. -/
def floatEsdf (v : EsdfVoxel ℚ) : EsdfVoxel Fl := ⟨.fin v.distance, v.observed, v.hallucinated, v.inQueue, v.fixed, v.parent⟩

/-- A slice of a TSDF layer, voxblox_ros/src/simulation_server.cc:299-300, :311-312 with voxblox_ros/include/voxblox_ros/ptcloud_vis.h:393-410. -/
def tsdfCloud (level : ℚ) (l : VLayer (TsdfVoxel ℚ)) : Outcome (List (Pt × Fl)) :=
  PtCloud.cloud (fun v c => PtCloud.tsdfSlice 2 (PtCloud.slicePlane l.cfg.voxelSize level) l.cfg.voxelSize (floatTsdf v) c) l

/-- A slice of an ESDF layer, voxblox_ros/src/simulation_server.cc:305-306, :318-319 with voxblox_ros/include/voxblox_ros/ptcloud_vis.h:412-429. -/
def esdfCloud (level : ℚ) (l : VLayer (EsdfVoxel ℚ)) : Outcome (List (Pt × Fl)) :=
  PtCloud.cloud (fun v c => PtCloud.esdfSlice 2 (PtCloud.slicePlane l.cfg.voxelSize level) l.cfg.voxelSize (floatEsdf v) c) l

/-- The marker of a mesh, voxblox_ros/src/simulation_server.cc:325-337 (and :342-349); the marker is new both times. -/
def meshMarker (E : Export.Env) (l : VLayer (TsdfVoxel ℚ)) : Outcome MeshMsg.Marker := do
  let s ← MeshInt.generateMesh E.sq true (tsdfFns Visualizer.meshMinWeight) true false true (l, [])
  MeshMsg.fillMarker .normals (E.iter s.2) ⟨[], []⟩

/-- What a message holds, voxblox_ros/src/simulation_server.cc:297-302, :334-339. -/
inductive Content where
  | points (E : List (Pt × Fl))
  | marker (m : MeshMsg.Marker)

/-- A call of `publish`, voxblox_ros/src/simulation_server.cc:302, :308, :315, :321, :339, :351, on the topics of :133-146. -/
structure Message where
  topic : String
  frame : String
  content : Content

/-- The parameters read below, voxblox_ros/include/voxblox_ros/simulation_server.h:76-80. -/
structure Options where
  visualize : Bool
  level : ℚ
  mesh : Bool
  frame : String

/-- The meshes, voxblox_ros/src/simulation_server.cc:323-352. -/
def meshes (E : Export.Env) (o : Options) (m : Maps) : Outcome (List Message) :=
  if o.mesh then do
    let a ← meshMarker E m.tsdfTruth
    let b ← meshMarker E m.tsdfTest
    pure [⟨"tsdf_gt_mesh", o.frame, .marker a⟩, ⟨"tsdf_test_mesh", o.frame, .marker b⟩]
  else pure []

/-- voxblox_ros/src/simulation_server.cc:291-354 `visualize`; one cloud is used four times, `clear` keeps its header. The flags of the blocks that the
mesh integrators clear are left out. -/
def visualize (E : Export.Env) (o : Options) (m : Maps) : Outcome (List Message) :=
  if o.visualize then do
    let a ← tsdfCloud o.level m.tsdfTruth
    let b ← esdfCloud o.level m.esdfTruth
    let c ← tsdfCloud o.level m.tsdfTest
    let d ← esdfCloud o.level m.esdfTest
    let ms ← meshes E o m
    pure ([⟨"tsdf_gt", o.frame, .points a⟩, ⟨"esdf_gt", o.frame, .points b⟩, ⟨"tsdf_test", o.frame, .points c⟩, ⟨"esdf_test", o.frame, .points d⟩] ++ ms)
  else pure []

/-- voxblox_ros/src/simulation_server.cc:356-361 `run`: the numbers, what is shown, the layers. `build` is what `generateSDF` (`SimServer.generateSdf`) makes of the test
layers. -/
def run (sqrt : ℚ → ℚ) (N : Eval.Num) (E : Export.Env) (o : Options) (truncation esdfMax : ℚ) (build : Maps → Outcome Maps) (m : Maps) :
    Outcome ((ℚ × ℚ) × List Message × Maps) := do
  let m ← groundTruth sqrt room truncation esdfMax m
  let m ← build m
  let r ← evaluate N m
  let ms ← visualize E o m
  pure (r, ms, m)

end Vox.SimProgram
