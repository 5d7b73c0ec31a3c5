/-
Simulated views of a world (voxblox/src/simulation/simulation_world.cc) in exact arithmetic over an ordered field.
-/
import Verif.Model.Objects

namespace Vox.Sim

open Geo

variable {F : Type} [Field F] [LinearOrder F]

/-- An object as the views use it: `getRayIntersection` and `getColor`, voxblox/include/voxblox/simulation/objects.h:35-43. -/
structure Target (F : Type) where
  ray : Vec3 F → Vec3 F → F → Ray F
  color : Color

/-- The objects of voxblox/include/voxblox/simulation/objects.h:19-400 and their ray tests. -/
def Obj.target (sqrt : F → F) (o : Obj F) : Target F := ⟨Sim.ray sqrt o.shape, o.color⟩

/-- The variables of the loop over the objects, voxblox/src/simulation/simulation_world.cc:87-90; `none` stands for values that are not a
number. -/
structure Best (F : Type) where
  valid : Bool
  dist : Option F
  point : Option (Vec3 F)
  color : Color

/-- `!ray_valid || object_dist < ray_dist`, voxblox/src/simulation/simulation_world.cc:98. -/
def Best.improvedBy (b : Best F) (d : Option F) : Bool :=
  !b.valid || match d, b.dist with
    | some d, some e => decide (d < e)
    | _, _ => false

/-- One object, voxblox/src/simulation/simulation_world.cc:91-105. -/
def castStep (origin dir : Vec3 F) (maxDist : F) (b : Best F) (o : Target F) : Best F :=
  match o.ray origin dir maxDist with
  | .miss => b
  | .hit p d => if b.improvedBy (some d) then ⟨true, some d, some p, o.color⟩ else b
  | .nan => if b.improvedBy none then ⟨true, none, none, o.color⟩ else b

/-- All objects, voxblox/src/simulation/simulation_world.cc:86-105. -/
def cast (w : List (Target F)) (origin dir : Vec3 F) (maxDist : F) : Best F :=
  w.foldl (castStep origin dir maxDist) ⟨false, some maxDist, some 0, Color.default⟩

/-- `for (int u = -res / 2; u < res / 2; ++u)`, voxblox/src/simulation/simulation_world.cc:79-80: integer division truncates. -/
def pixels (res : ℤ) : List ℤ :=
  let first := (-res).tdiv 2
  (List.range (res.tdiv 2 - first).toNat).map fun (k : ℕ) => first + k

/-- The focal length, voxblox/src/simulation/simulation_world.cc:66-67; `tanHalf` is the tangent of half the field of view. -/
def focalLength (resX : ℤ) (tanHalf : F) : F := resX / (2 * tanHalf)

/-- Eigen `normalized`, voxblox/src/simulation/simulation_world.cc:84. -/
def normalized (sqrt : F → F) (a : Vec3 F) : Vec3 F :=
  let z := sqNorm a
  if 0 < z then ⟨a.x / sqrt z, a.y / sqrt z, a.z / sqrt z⟩ else a

/-- The direction of the ray of a pixel, voxblox/src/simulation/simulation_world.cc:81-84. -/
def pixelDirection (sqrt : F → F) (rotation : Pose F) (focal : F) (u v : ℤ) : Vec3 F :=
  rotation.rotate (normalized sqrt ⟨1, u / focal, v / focal⟩)

/-- The pixels in the order of the loops, voxblox/src/simulation/simulation_world.cc:79-80. -/
def pixelPairs (resX resY : ℤ) : List (ℤ × ℤ) := (pixels resX).flatMap fun u => (pixels resY).map fun v => (u, v)

/-- What a pixel adds to the point cloud and the colours, voxblox/src/simulation/simulation_world.cc:106-114. -/
def push (cloud : List (Vec3 F) × List Color) (b : Best F) : List (Vec3 F) × List Color :=
  if b.valid then
    match b.point with
    | none => cloud
    | some p => (cloud.1 ++ [p], cloud.2 ++ [b.color])
  else cloud

/-- voxblox/src/simulation/simulation_world.cc:61-117 `getPointcloudFromViewpoint`. `align a b` is the rotation of
`Quaternion::FromTwoVectors(a, b)`, a unit quaternion, so that `normalize()` does nothing. -/
def viewpointCloud (sqrt : F → F) (align : Vec3 F → Vec3 F → Pose F) (w : List (Target F)) (origin dir : Vec3 F) (resX resY : ℤ)
    (tanHalf maxDist : F) (cloud : List (Vec3 F) × List Color) : List (Vec3 F) × List Color :=
  let focal := focalLength resX tanHalf
  let rotation := align ⟨1, 0, 0⟩ dir
  (pixelPairs resX resY).foldl (fun c p => push c (cast w origin (pixelDirection sqrt rotation focal p.1 p.2) maxDist)) cloud

/-- voxblox/src/simulation/simulation_world.cc:49-59 `getPointcloudFromTransform`. -/
def transformCloud (sqrt : F → F) (align : Vec3 F → Vec3 F → Pose F) (w : List (Target F)) (pose : Pose F) (resX resY : ℤ)
    (tanHalf maxDist : F) (cloud : List (Vec3 F) × List Color) : List (Vec3 F) × List Color :=
  viewpointCloud sqrt align w pose.t (pose.rotate ⟨1, 0, 0⟩) resX resY tanHalf maxDist cloud

/-- A noisy cloud under construction: the cloud and the number of values drawn from the generator,
voxblox/src/simulation/simulation_world.cc:182, :196-201. -/
structure Noisy (F : Type) where
  points : List (Vec3 F)
  colors : List Color
  drawn : ℕ

/-- What a pixel adds to the noisy cloud, voxblox/src/simulation/simulation_world.cc:175-191; `noise k` is the `k`-th value drawn. The
distance of a valid point is a number. -/
def pushNoisy (noise : ℕ → F) (origin dir : Vec3 F) (c : Noisy F) (b : Best F) : Noisy F :=
  if b.valid then
    match b.point, b.dist with
    | some _, some d =>
      let d := d + noise c.drawn
      let d := if d < 0 then 0 else d
      ⟨c.points ++ [origin + smul d dir], c.colors ++ [b.color], c.drawn + 1⟩
    | _, _ => c
  else c

/-- voxblox/src/simulation/simulation_world.cc:132-194 `getNoisyPointcloudFromViewpoint`. -/
def noisyViewpointCloud (sqrt : F → F) (align : Vec3 F → Vec3 F → Pose F) (noise : ℕ → F) (w : List (Target F)) (origin dir : Vec3 F)
    (resX resY : ℤ) (tanHalf maxDist : F) (cloud : Noisy F) : Noisy F :=
  let focal := focalLength resX tanHalf
  let rotation := align ⟨1, 0, 0⟩ dir
  (pixelPairs resX resY).foldl (fun c p =>
    let d := pixelDirection sqrt rotation focal p.1 p.2
    pushNoisy noise origin d c (cast w origin d maxDist)) cloud

/-- voxblox/src/simulation/simulation_world.cc:119-130 `getNoisyPointcloudFromTransform`: the view direction is that of the z axis. -/
def noisyTransformCloud (sqrt : F → F) (align : Vec3 F → Vec3 F → Pose F) (noise : ℕ → F) (w : List (Target F)) (pose : Pose F)
    (resX resY : ℤ) (tanHalf maxDist : F) (cloud : Noisy F) : Noisy F :=
  noisyViewpointCloud sqrt align noise w pose.t (pose.rotate ⟨0, 0, 1⟩) resX resY tanHalf maxDist cloud

end Vox.Sim
