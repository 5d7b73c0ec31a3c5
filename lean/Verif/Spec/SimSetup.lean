/-
What the simulation server reads from the parameter server, independently of how.
-/
import Verif.Model.SimSetup
import Verif.Spec.Setup

namespace Vox.Spec

open Setup Ieee MeshMsg

/-- Parameters that are used as they are, with the defaults of the constructor, voxblox_ros/src/simulation_server.cc:75-89. -/
def simParameters : List (String × Value) :=
  [ ("world_frame", .text "world"),
    ("visualize", .flag true),
    ("visualization_slice_level", decimal 2),
    ("generate_mesh", .flag true),
    ("incremental", .flag true),
    ("add_robot_pose", .flag false),
    ("depth_camera_resolution_u", .int 320),
    ("depth_camera_resolution_v", .int 240),
    ("fov_h_rad", decimal (15708 / 10000)),
    ("max_dist", decimal 10),
    ("min_dist", decimal (5 / 10)),
    ("num_viewpoints", .int 50) ]

/-- Where the server keeps a parameter. -/
def simValue (s : SimSetup) : String → Option Value
  | "world_frame" => some (.text s.worldFrame)
  | "visualize" => some (.flag s.visualize)
  | "visualization_slice_level" => some (.single s.sliceLevel)
  | "generate_mesh" => some (.flag s.generateMesh)
  | "incremental" => some (.flag s.incremental)
  | "add_robot_pose" => some (.flag s.addRobotPose)
  | "depth_camera_resolution_u" => some (.int s.resolution.1)
  | "depth_camera_resolution_v" => some (.int s.resolution.2)
  | "fov_h_rad" => some (.single s.fov)
  | "max_dist" => some (.single s.maxDist)
  | "min_dist" => some (.single s.minDist)
  | "num_viewpoints" => some (.int s.viewpoints)
  | _ => none

/-- The side that a parameter asks for. -/
def askedSide (P : Params) : ℤ := (P.int "tsdf_voxels_per_side").getD 16

end Vox.Spec
