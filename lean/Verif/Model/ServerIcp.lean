/-
The pose correction of a TSDF server (voxblox_ros/src/tsdf_server.cc:253-323): each point cloud is aligned with the map before it is integrated.
Coordinates are exact; logging and timing are left out.
-/
import Verif.Model.Icp
import Verif.Model.ServerMesh

namespace Vox.ServerIcp

open Geo Grid Icp

/-- The settings, voxblox_ros/include/voxblox_ros/tsdf_server.h:183, :219, :225; `shuffle` is voxblox/src/alignment/icp.cc:231-235 and `integrate` the
integration of a cloud with a pose, voxblox_ros/src/tsdf_server.cc:407-414. -/
structure Settings where
  enable : Bool
  accumulate : Bool
  icp : Icp.Config
  maxDistance : ℚ
  lib : Lib ℚ
  shuffle : List Pt → List Pt
  integrate : Pose ℚ → List Pt → VLayer (TsdfVoxel ℚ) → Outcome (VLayer (TsdfVoxel ℚ))

/-- The correction so far, voxblox_ros/include/voxblox_ros/tsdf_server.h:261, and the map. -/
structure State where
  correction : Pose ℚ
  map : VLayer (TsdfVoxel ℚ)

/-- A point cloud, the pose looked up for it, and the schedule of the threads that align it; voxblox_ros/src/tsdf_server.cc:213-215. -/
structure Cloud where
  pose : Pose ℚ
  points : List Pt
  schedule : List ℕ

/-- What a point cloud leads to: the pose it is integrated with, the correction kept, the two transforms published, and the pose given to
`newPoseCallback`; voxblox_ros/src/tsdf_server.cc:306, :267-276, :282-292, :322. -/
structure Result where
  used : Pose ℚ
  correction : Pose ℚ
  frames : Option (Pose ℚ × Pose ℚ)
  reported : Pose ℚ

/-- Where the alignment starts, voxblox_ros/src/tsdf_server.cc:256-258, :262. -/
def guess (c : Settings) (correction T : Pose ℚ) : Pose ℚ := (if c.accumulate then correction else Pose.id).mul T

/-- The alignment of a cloud with the map, voxblox_ros/src/tsdf_server.cc:253-299. -/
def refine (c : Settings) (s : State) (cl : Cloud) : Outcome Result :=
  if c.enable then do
    let r ← run c.lib c.icp s.map (c.shuffle cl.points) cl.schedule (start c.icp (guess c s.correction cl.pose))
    let k := correction c.lib c.icp.refineRollPitch r.shared.pose cl.pose
    pure ⟨r.shared.pose, k, some (k, cl.pose), cl.pose⟩
  else pure ⟨cl.pose, s.correction, none, cl.pose⟩

/-- A point cloud, voxblox_ros/src/tsdf_server.cc:253-323. -/
def scan (c : Settings) (s : State) (cl : Cloud) : Outcome (Result × State) := do
  let r ← refine c s cl
  let m ← c.integrate r.used cl.points s.map
  pure (r, ⟨r.correction, ServerMesh.removeDistant m cl.pose.t c.maxDistance⟩)

/-- Several point clouds, voxblox_ros/src/tsdf_server.cc:364-371. -/
def scans (c : Settings) : State → List Cloud → Outcome (List Result × State)
  | s, [] => .ok ([], s)
  | s, cl :: cls => do
    let r ← scan c s cl
    let rs ← scans c r.2 cls
    pure (r.1 :: rs.1, rs.2)

end Vox.ServerIcp
