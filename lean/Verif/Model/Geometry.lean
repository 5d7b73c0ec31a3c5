/-
Exact vector geometry over an arbitrary ordered field, for the camera model and the simulated world: lengths and normalised vectors are
irrational in general, so these parts are modelled over a field that may be the reals.
-/
import Verif.Model.Basic
import Mathlib.Algebra.Order.Field.Basic
import Mathlib.Tactic.Ring
import Mathlib.Tactic.Linarith

namespace Vox.Geo

variable {F : Type} [Field F] [LinearOrder F]

/-- Eigen `dot`; as used in voxblox/src/utils/camera_model.cc:11, :23. -/
def dot (a b : Vec3 F) : F := a.x * b.x + a.y * b.y + a.z * b.z

/-- Eigen `cross`; as used in voxblox/src/utils/camera_model.cc:9. -/
def cross (a b : Vec3 F) : Vec3 F := ⟨a.y * b.z - a.z * b.y, a.z * b.x - a.x * b.z, a.x * b.y - a.y * b.x⟩

/-- Scalar times vector; as used in voxblox/include/voxblox/simulation/objects.h:95. -/
def smul (k : F) (a : Vec3 F) : Vec3 F := ⟨k * a.x, k * a.y, k * a.z⟩

/-- Eigen `squaredNorm`; as used in voxblox/include/voxblox/simulation/objects.h:75. -/
def sqNorm (a : Vec3 F) : F := dot a a

/-- A transformation (`kindr::minimal::QuatTransformation`) by the rows of its rotation matrix and its translation;
voxblox/include/voxblox/core/common.h:77-78. -/
structure Pose (F : Type) where
  r0 : Vec3 F
  r1 : Vec3 F
  r2 : Vec3 F
  t : Vec3 F
deriving DecidableEq

/-- The rotation matrix times a vector; as used in voxblox/src/simulation/simulation_world.cc:84. -/
def Pose.rotate (T : Pose F) (p : Vec3 F) : Vec3 F := ⟨dot T.r0 p, dot T.r1 p, dot T.r2 p⟩

/-- `T * p`; as used in voxblox/src/utils/camera_model.cc:118. -/
def Pose.apply (T : Pose F) (p : Vec3 F) : Vec3 F := T.rotate p + T.t

/-- `Transformation()`: the identity, as in the members of voxblox/include/voxblox/utils/camera_model.h:96-98. -/
def Pose.id : Pose F := ⟨⟨1, 0, 0⟩, ⟨0, 1, 0⟩, ⟨0, 0, 1⟩, 0⟩

/-- The rows of the transposed matrix; serves `inverse()` in voxblox/src/utils/camera_model.cc:100. -/
def Pose.cols (T : Pose F) : Vec3 F × Vec3 F × Vec3 F :=
  (⟨T.r0.x, T.r1.x, T.r2.x⟩, ⟨T.r0.y, T.r1.y, T.r2.y⟩, ⟨T.r0.z, T.r1.z, T.r2.z⟩)

/-- `S * T` of transformations; as used in voxblox/src/utils/camera_model.cc:91, :100. -/
def Pose.mul (S T : Pose F) : Pose F :=
  let c := T.cols
  let row (r : Vec3 F) : Vec3 F := ⟨dot r c.1, dot r c.2.1, dot r c.2.2⟩
  ⟨row S.r0, row S.r1, row S.r2, S.apply T.t⟩

/-- `T.inverse()`; as used in voxblox/src/utils/camera_model.cc:100. -/
def Pose.inverse (T : Pose F) : Pose F :=
  let c := T.cols
  ⟨c.1, c.2.1, c.2.2, -(Vec3.mk (dot c.1 T.t) (dot c.2.1 T.t) (dot c.2.2 T.t))⟩

end Vox.Geo
