/-
The simulation server (voxblox_ros/src/simulation_server.cc): random viewpoints and the calls of the integrators.
Exact arithmetic over an ordered field; the random vectors are a sequence.
-/
import Verif.Model.SimCloud
import Verif.Model.Esdf

namespace Vox.SimServer

open Geo Sim

variable {F : Type} [Field F] [LinearOrder F]

/-- The objects and bounds of a world, voxblox/include/voxblox/simulation/simulation_world.h:100-106. -/
structure World (F : Type) where
  objects : List (Obj F)
  minBound : Vec3 F
  maxBound : Vec3 F

/-- voxblox_ros/src/simulation_server.cc:172 `space_min`. -/
def spaceMin (w : World F) : Vec3 F := w.minBound.map (· / 2)

/-- voxblox_ros/src/simulation_server.cc:173 `space_size`. -/
def spaceSize (w : World F) : Vec3 F := w.maxBound - (spaceMin w).map (· / 2)

/-- A position from a random vector with components from -1 to 1, voxblox_ros/src/simulation_server.cc:181-182. -/
def candidate (w : World F) (r : Vec3 F) : Vec3 F :=
  let s := spaceSize w
  ⟨s.x * (r.x + 1) / 2, s.y * (r.y + 1) / 2, s.z * (r.z + 1) / 2⟩ + spaceMin w

/-- The loop of voxblox_ros/src/simulation_server.cc:178-188 with `attempts` left; `random k` is the `k`-th vector drawn. The result is the position, if
one was found, and the number of vectors drawn. -/
def search (sqrt : F → F) (w : World F) (minDistance : F) (random : ℕ → Vec3 F) : ℕ → ℕ → Option (Vec3 F) × ℕ
  | 0, k => (none, k)
  | attempts + 1, k =>
    if minDistance ≤ worldDistance sqrt w.objects (candidate w (random k)) (minDistance * 2) then (some (candidate w (random k)), k + 1)
    else search sqrt w minDistance random attempts (k + 1)

/-- voxblox_ros/src/simulation_server.cc:162-198 `generatePlausibleViewpoint`: origin and direction. -/
def plausibleViewpoint (sqrt : F → F) (w : World F) (minDistance : F) (attempts : ℕ) (random : ℕ → Vec3 F) (k : ℕ) :
    Option (Vec3 F × Vec3 F) × ℕ :=
  match search sqrt w minDistance random attempts k with
  | (none, k) => (none, k)
  | (some p, k) => (some (p, normalized sqrt (random k)), k + 1)

/-- The settings of the server, voxblox_ros/include/voxblox_ros/simulation_server.h:77-92; `tanHalf` is the tangent of half of `fov_h_rad_`. -/
structure Settings (F : Type) where
  occupancy : Bool
  incremental : Bool
  addRobotPose : Bool
  attempts : ℕ
  resX : ℤ
  resY : ℤ
  tanHalf : F
  maxDist : F
  minDist : F
  numViewpoints : ℕ

/-- What `generateSDF` asks of the integrators, voxblox_ros/src/simulation_server.cc:236, :239, :243, :248, :268, :271. -/
inductive Call (F : Type) where
  | tsdf (pose : Pose F) (points : List (Vec3 F)) (colors : List Color)
  | occupancy (pose : Pose F) (points : List (Vec3 F))
  | robot (p : Vec3 F)
  | update
  | occupancyBatch
  | batch

/-- The pose of the camera, voxblox_ros/src/simulation_server.cc:227-229; `align` as in `Sim.viewpointCloud`. -/
def cameraPose (align : Vec3 F → Vec3 F → Pose F) (origin dir : Vec3 F) : Pose F := { align ⟨0, 0, 1⟩ dir with t := origin }

/-- voxblox/include/voxblox/core/common.h:270-279 `transformPointcloud`. -/
def transformPoints (T : Pose F) (points : List (Vec3 F)) : List (Vec3 F) := points.map T.apply

/-- One viewpoint, voxblox_ros/src/simulation_server.cc:218-249. -/
def view (sqrt : F → F) (align : Vec3 F → Vec3 F → Pose F) (w : World F) (c : Settings F) (origin dir : Vec3 F) : List (Call F) :=
  let cloud := viewpointCloud sqrt align (w.objects.map (Obj.target sqrt)) origin dir c.resX c.resY c.tanHalf c.maxDist ([], [])
  let pose := cameraPose align origin dir
  let points := transformPoints pose.inverse cloud.1
  [.tsdf pose points cloud.2] ++ (if c.occupancy then [.occupancy pose points] else []) ++ (if c.addRobotPose then [.robot origin] else []) ++
    (if c.incremental then [.update] else [])

/-- The loop of voxblox_ros/src/simulation_server.cc:210-263 with `n` viewpoints left. -/
def views (sqrt : F → F) (align : Vec3 F → Vec3 F → Pose F) (w : World F) (c : Settings F) (random : ℕ → Vec3 F) : ℕ → ℕ → List (Call F)
  | 0, _ => []
  | n + 1, k => match plausibleViewpoint sqrt w c.minDist c.attempts random k with
    | (none, _) => []
    | (some (origin, dir), k) => view sqrt align w c origin dir ++ views sqrt align w c random n k

/-- voxblox_ros/src/simulation_server.cc:265-276. -/
def finish (c : Settings F) : List (Call F) :=
  if c.incremental then [] else (if c.occupancy then [.occupancyBatch] else []) ++ [.batch]

/-- voxblox_ros/src/simulation_server.cc:200-277 `generateSDF`. -/
def generateSdf (sqrt : F → F) (align : Vec3 F → Vec3 F → Pose F) (w : World F) (c : Settings F) (random : ℕ → Vec3 F) : List (Call F) :=
  views sqrt align w c random c.numViewpoints 0 ++ finish c

/-- What the ESDF depends on besides the calls: rounding, configuration and the orders of C45, the conversion of positions, the TSDF after each number of
scans and what the occupancy integrator makes of the ESDF layer (voxblox/src/integrator/esdf_occ_integrator.cc:19-24). -/
structure Setting (F : Type) where
  A : Esdf.Flt
  cfg : Esdf.Config
  order : Sphere.VoxelMap → Sphere.VoxelMap
  set : List Idx → List Idx
  fuel : ℕ
  point : Vec3 F → Pt
  tsdf : ℕ → Grid.VLayer (TsdfVoxel ℚ)
  occupancy : Grid.VLayer (EsdfVoxel ℚ) → Grid.VLayer (EsdfVoxel ℚ)

/-- A call as the ESDF integrator sees it after `n` scans, voxblox_ros/src/simulation_server.cc:236-248, :266-271. -/
def exec (e : Setting F) (n : ℕ) (s : Esdf.State) : Call F → Outcome (Option (ℕ × Esdf.State))
  | .tsdf _ _ _ => .ok (some (n + 1, s))
  | .occupancy _ _ => .ok (some (n, s))
  | .robot p => (Esdf.addRobotPosition e.cfg e.order (e.point p) s).bind fun s => .ok (some (n, s))
  | .update => (Esdf.updateIncremental e.A e.cfg e.fuel e.set true (e.tsdf n) s).bind fun r => .ok (r.map fun r => (n, r.1))
  | .occupancyBatch => .ok (some (n, { s with layer := e.occupancy s.layer }))
  | .batch => (Esdf.updateBatch e.A e.cfg e.fuel e.set (e.tsdf n) s).bind fun r => .ok (r.map fun s => (n, s))

/-- All calls, voxblox_ros/src/simulation_server.cc:200-277; `none` if a loop takes more than `fuel` iterations. -/
def run (e : Setting F) : ℕ → Esdf.State → List (Call F) → Outcome (Option (ℕ × Esdf.State))
  | n, s, [] => .ok (some (n, s))
  | n, s, c :: cs => (exec e n s c).bind fun
    | none => .ok none
    | some (n, s) => run e n s cs

end Vox.SimServer
