/-
The ESDF server over its operations (voxblox_ros/src/esdf_server.cc).
-/
import Verif.Model.Esdf
import Verif.Model.ServerMesh

namespace Vox.EsdfServer

open Layer Grid Esdf

/-- Parameters of the server, voxblox_ros/include/voxblox_ros/esdf_server.h:98 (not changed by `setClearSphere` here) and
voxblox_ros/include/voxblox_ros/tsdf_server.h:183. `order` and
`set` are the iteration orders of the hash maps, `fuel` bounds the iterations of each loop. -/
structure Env where
  A : Flt
  order : Sphere.VoxelMap → Sphere.VoxelMap
  set : List Idx → List Idx
  fuel : ℕ
  clearSphere : Bool
  maxDistance : ℚ

/-- The TSDF map, the configuration of the ESDF integrator and the ESDF map with the queues of the integrator: voxblox_ros/include/voxblox_ros/esdf_server.h:106-107
and voxblox_ros/include/voxblox_ros/tsdf_server.h:232. -/
structure State where
  tsdf : VLayer (TsdfVoxel ℚ)
  cfg : Config
  esdf : Esdf.State

/-- The robot position, voxblox_ros/src/esdf_server.cc:223-225. -/
def addRobot (env : Env) (p : Pt) (s : State) : Outcome Esdf.State :=
  if env.clearSphere then addRobotPosition s.cfg env.order p s.esdf else pure s.esdf

/-- Removing the distant blocks of the ESDF, voxblox_ros/src/esdf_server.cc:228-229: the queues of the integrator stay as they are. -/
def pruneEsdf (env : Env) (p : Pt) (e : Esdf.State) : Esdf.State := { e with layer := ServerMesh.removeDistant e.layer p env.maxDistance }

/-- voxblox_ros/src/esdf_server.cc:222-231 `newPoseCallback`. -/
def newPose (env : Env) (p : Pt) (s : State) : Outcome State := do
  let e ← addRobot env p s
  pure { s with esdf := pruneEsdf env p e }

/-- A point cloud, voxblox_ros/src/tsdf_server.cc:306-323: `t` is the TSDF layer after the integration. -/
def scan (env : Env) (t : VLayer (TsdfVoxel ℚ)) (p : Pt) (s : State) : Outcome State :=
  newPose env p { s with tsdf := ServerMesh.removeDistant t p env.maxDistance }

/-- voxblox_ros/src/esdf_server.cc:192-197 `updateEsdf`, also the timer of :119-121. -/
def updateEsdf (env : Env) (s : State) : Outcome (Option State) :=
  if s.tsdf.blocks.length > 0 then do
    let r ← updateIncremental env.A s.cfg env.fuel env.set true s.tsdf s.esdf
    pure (r.map fun x => ⟨x.2, s.cfg, x.1⟩)
  else pure (some s)

/-- voxblox_ros/src/esdf_server.cc:104-117 `generateEsdfCallback`. -/
def generateEsdf (env : Env) (s : State) : Outcome (Option State) := do
  let r ← updateBatch env.A s.cfg env.fuel env.set s.tsdf s.esdf
  pure (r.map fun e => { s with esdf := e })

/-- `setFullEuclidean`, voxblox/include/voxblox/integrator/esdf_integrator.h:152-154. -/
def setFullEuclidean (cfg : Config) (full : Bool) : Config := { cfg with fullEuclidean := full }

/-- voxblox_ros/src/esdf_server.cc:199-204 `updateEsdfBatch`. -/
def updateEsdfBatch (env : Env) (full : Bool) (s : State) : Outcome (Option State) :=
  if s.tsdf.blocks.length > 0 then generateEsdf env { s with cfg := setFullEuclidean s.cfg full } else pure (some s)

/-- voxblox_ros/src/esdf_server.cc:210-212 `setEsdfMaxDistance`. -/
def setEsdfMaxDistance (m : ℚ) (s : State) : State := { s with cfg := setMaxDistance s.cfg m }

/-- voxblox_ros/src/esdf_server.cc:249-259 `clear` and voxblox_ros/src/tsdf_server.cc:629 (messages: C82, meshes: C103). -/
def clear (s : State) : Outcome State := do
  let e ← Esdf.clear { s.esdf with layer := MapServer.removeAllBlocks s.esdf.layer }
  Outcome.check (e.layer.blocks.length == 0)
  pure { s with tsdf := MapServer.removeAllBlocks s.tsdf, esdf := e }

/-- What a server reacts to: point clouds, timers, services, messages and calls, voxblox_ros/src/esdf_server.cc:104-259. A message with a map is
given by the layer it results in (C82): voxblox_ros/src/tsdf_server.cc:642-643 and voxblox_ros/src/esdf_server.cc:236-237. -/
inductive Event where
  | scan (t : VLayer (TsdfVoxel ℚ)) (p : Pt)
  | update
  | generate
  | batch (full : Bool)
  | maxDistance (m : ℚ)
  | tsdfMap (t : VLayer (TsdfVoxel ℚ))
  | esdfMap (l : VLayer EVoxel)
  | clear

/-- One event, voxblox_ros/src/esdf_server.cc:104-259; `none` if a loop takes more than `fuel` iterations. -/
def step (env : Env) (s : State) : Event → Outcome (Option State)
  | .scan t p => do let s ← scan env t p s; pure (some s)
  | .update => updateEsdf env s
  | .generate => generateEsdf env s
  | .batch full => updateEsdfBatch env full s
  | .maxDistance m => .ok (some (setEsdfMaxDistance m s))
  | .tsdfMap t => .ok (some { s with tsdf := t })
  | .esdfMap l => .ok (some { s with esdf := { s.esdf with layer := l } })
  | .clear => do let s ← clear s; pure (some s)

/-- A sequence of events, voxblox_ros/src/esdf_server.cc:104-259. -/
def run (env : Env) : State → List Event → Outcome (Option State)
  | s, [] => .ok (some s)
  | s, e :: es => do
    let r ← step env s e
    match r with
    | none => pure none
    | some s => run env s es

end Vox.EsdfServer
