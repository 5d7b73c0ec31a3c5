/-
The camera model (voxblox/include/voxblox/utils/camera_model.h, voxblox/src/utils/camera_model.cc) in exact arithmetic over an ordered
field. `normalize` is Eigen's `normalized()`, `tan` and `atan` the library functions.
-/
import Verif.Model.Geometry

namespace Vox.Camera

open Geo

variable {F : Type} [Field F] [LinearOrder F]

/-- `Plane`, voxblox/include/voxblox/utils/camera_model.h:18-37. -/
structure Plane (F : Type) where
  normal : Vec3 F
  distance : F

/-- voxblox/src/utils/camera_model.cc:5-12 `Plane::setFromPoints`. -/
def Plane.fromPoints (normalize : Vec3 F → Vec3 F) (p1 p2 p3 : Vec3 F) : Plane F :=
  let p1p2 := p2 - p1
  let p1p3 := p3 - p1
  let normal := normalize (cross p1p2 p1p3)
  ⟨normal, dot normal p1⟩

/-- voxblox/src/utils/camera_model.cc:19-27 `Plane::isPointInside`. -/
def Plane.isPointInside (P : Plane F) (point : Vec3 F) : Bool := decide (P.distance ≤ dot point P.normal)

/-- `CameraModel`, voxblox/include/voxblox/utils/camera_model.h:93-112. `aabb` is `none` while the two members are uninitialised. -/
structure State (F : Type) where
  initialized : Bool
  T_C_B : Pose F
  T_G_C : Pose F
  corners : List (Vec3 F)
  planes : List (Plane F)
  aabb : Option (Vec3 F × Vec3 F)

/-- voxblox/include/voxblox/utils/camera_model.h:46, the constructor. -/
def new : State F := ⟨false, Pose.id, Pose.id, [], [], none⟩

/-- voxblox/src/utils/camera_model.cc:55-80, the corners; `h`, `v` are the tangents of the half angles. -/
def frustumCorners (h v near far : F) : List (Vec3 F) :=
  [⟨near, near * h, near * v⟩, ⟨near, near * h, -near * v⟩, ⟨near, -near * h, -near * v⟩, ⟨near, -near * h, near * v⟩,
   ⟨far, far * h, far * v⟩, ⟨far, far * h, -far * v⟩, ⟨far, -far * h, -far * v⟩, ⟨far, -far * h, far * v⟩]

/-- voxblox/src/utils/camera_model.cc:41-83 `setIntrinsicsFromFoV`; planes and box are left alone. -/
def setIntrinsicsFromFoV (tan : F → F) (fovH fovV near far : F) (c : State F) : State F :=
  { c with corners := frustumCorners (tan (fovH / 2)) (tan (fovV / 2)) near far, initialized := true }

/-- voxblox/src/utils/camera_model.cc:30-39 `setIntrinsicsFromFocalLength`. -/
def setIntrinsicsFromFocalLength (tan atan : F → F) (resX resY focal near far : F) (c : State F) : State F :=
  setIntrinsicsFromFoV tan (2 * atan (resX / (2 * focal))) (2 * atan (resY / (2 * focal))) near far c

/-- voxblox/src/utils/camera_model.cc:85 `setExtrinsics`. -/
def setExtrinsics (T : Pose F) (c : State F) : State F := { c with T_C_B := T }

/-- voxblox/src/utils/camera_model.cc:121-149, the planes by the eight corners. -/
def boundingPlanes (normalize : Vec3 F → Vec3 F) (c0 c1 c2 c3 c4 c5 c6 c7 : Vec3 F) : List (Plane F) :=
  [Plane.fromPoints normalize c0 c2 c1, Plane.fromPoints normalize c4 c5 c6, Plane.fromPoints normalize c3 c6 c2,
   Plane.fromPoints normalize c0 c5 c4, Plane.fromPoints normalize c3 c4 c7, Plane.fromPoints normalize c2 c6 c5]

/-- voxblox/src/utils/camera_model.cc:151-160, the box; the loop starts from the largest and lowest double, here from the first corner. -/
def boundingBox (c : Vec3 F) (cs : List (Vec3 F)) : Vec3 F × Vec3 F :=
  (cs.foldl (Vec3.map₂ min) c, cs.foldl (Vec3.map₂ max) c)

/-- voxblox/src/utils/camera_model.cc:103-165 `calculateBoundingPlanes`. -/
def calculateBoundingPlanes (normalize : Vec3 F → Vec3 F) (c : State F) : Outcome (State F) :=
  if !c.initialized then .ok c
  else match c.corners.map c.T_G_C.apply with
    | [c0, c1, c2, c3, c4, c5, c6, c7] =>
      .ok { c with planes := boundingPlanes normalize c0 c1 c2 c3 c4 c5 c6 c7,
                   aabb := some (boundingBox c0 [c1, c2, c3, c4, c5, c6, c7]) }
    | _ => .fatal

/-- voxblox/src/utils/camera_model.cc:93-97 `setCameraPose`. -/
def setCameraPose (normalize : Vec3 F → Vec3 F) (T : Pose F) (c : State F) : Outcome (State F) :=
  calculateBoundingPlanes normalize { c with T_G_C := T }

/-- voxblox/src/utils/camera_model.cc:99-101 `setBodyPose`. -/
def setBodyPose (normalize : Vec3 F → Vec3 F) (T : Pose F) (c : State F) : Outcome (State F) :=
  setCameraPose normalize (T.mul c.T_C_B.inverse) c

/-- voxblox/src/utils/camera_model.cc:91 `getBodyPose`. -/
def getBodyPose (c : State F) : Pose F := c.T_G_C.mul c.T_C_B

/-- voxblox/src/utils/camera_model.cc:172-180 `isPointInView`. -/
def isPointInView (c : State F) (point : Vec3 F) : Bool := c.planes.all fun P => P.isPointInside point

/-- voxblox/src/utils/camera_model.cc:167-170 `getAabb`: reading uninitialised members is undefined. -/
def getAabb (c : State F) : Outcome (Vec3 F × Vec3 F) :=
  match c.aabb with
  | some b => .ok b
  | none => .ub

/-- voxblox/src/utils/camera_model.cc:182-234 `getBoundingLines`: consecutive points are the ends of a line. The corners are indexed
unchecked. -/
def getBoundingLines (c : State F) : Outcome (List (Vec3 F)) :=
  match c.corners.map c.T_G_C.apply with
  | [c0, c1, c2, c3, c4, c5, c6, c7] =>
    .ok [c0, c1, c1, c2, c2, c3, c3, c0, c4, c5, c5, c6, c6, c7, c7, c4, c0, c4, c1, c5, c3, c7, c2, c6]
  | _ => .ub

/-- voxblox/src/utils/camera_model.cc:236-244 `getFarPlanePoints`, unchecked indexing. -/
def getFarPlanePoints (c : State F) : Outcome (List (Vec3 F)) :=
  match c.corners[4]?, c.corners[5]?, c.corners[6]? with
  | some a, some b, some d => .ok [c.T_G_C.apply a, c.T_G_C.apply b, c.T_G_C.apply d]
  | _, _, _ => .ub

end Vox.Camera
