/-
What a camera with given opening angles, range and pose sees.
-/
import Verif.Model.Geometry
import Mathlib.Algebra.Order.AbsoluteValue.Basic

namespace Vox.Spec

open Geo

variable {F : Type} [Field F] [LinearOrder F]

/-- A rotation matrix: orthonormal rows, right-handed. -/
structure IsRotation (T : Pose F) : Prop where
  n0 : T.r0.x * T.r0.x + T.r0.y * T.r0.y + T.r0.z * T.r0.z = 1
  n1 : T.r1.x * T.r1.x + T.r1.y * T.r1.y + T.r1.z * T.r1.z = 1
  n2 : T.r2.x * T.r2.x + T.r2.y * T.r2.y + T.r2.z * T.r2.z = 1
  o01 : T.r0.x * T.r1.x + T.r0.y * T.r1.y + T.r0.z * T.r1.z = 0
  o02 : T.r0.x * T.r2.x + T.r0.y * T.r2.y + T.r0.z * T.r2.z = 0
  o12 : T.r1.x * T.r2.x + T.r1.y * T.r2.y + T.r1.z * T.r2.z = 0
  det : T.r0.x * (T.r1.y * T.r2.z - T.r1.z * T.r2.y) - T.r0.y * (T.r1.x * T.r2.z - T.r1.z * T.r2.x) +
    T.r0.z * (T.r1.x * T.r2.y - T.r1.y * T.r2.x) = 1

/-- The image of `p` under the pose. -/
def moved (T : Pose F) (p : Vec3 F) : Vec3 F :=
  ⟨T.r0.x * p.x + T.r0.y * p.y + T.r0.z * p.z + T.t.x, T.r1.x * p.x + T.r1.y * p.y + T.r1.z * p.z + T.t.y,
   T.r2.x * p.x + T.r2.y * p.y + T.r2.z * p.z + T.t.z⟩

/-- Camera coordinates of the visible region: depth along x between the near and far distance, and within both opening angles, given by
the tangents of half their size. -/
structure InFrustum (h v near far : F) (q : Vec3 F) : Prop where
  near : near ≤ q.x
  far : q.x ≤ far
  horizontal : |q.y| ≤ h * q.x
  vertical : |q.z| ≤ v * q.x

/-- The visible region of a posed camera. -/
def Visible (T : Pose F) (h v near far : F) (p : Vec3 F) : Prop := ∃ q, moved T q = p ∧ InFrustum h v near far q

/-- `normalize` scales a vector by a positive factor (which leaves the zero vector alone). -/
def ScalesPositively (normalize : Vec3 F → Vec3 F) : Prop := ∀ a, ∃ k > 0, normalize a = ⟨k * a.x, k * a.y, k * a.z⟩

/-- The corner of the frustum at the far (or near) distance with the given signs of y and z. -/
def frustumCorner (h v near far : F) (atFar plusY plusZ : Bool) : Vec3 F :=
  let d := if atFar then far else near
  ⟨d, if plusY then d * h else -(d * h), if plusZ then d * v else -(d * v)⟩

/-- A list read as consecutive pairs contains the pair, in either order. -/
inductive HasLine (a b : Vec3 F) : List (Vec3 F) → Prop
  | here (l) : HasLine a b (a :: b :: l)
  | swapped (l) : HasLine a b (b :: a :: l)
  | later (x y l) : HasLine a b l → HasLine a b (x :: y :: l)

/-- Component-wise order. -/
def BoxLe (a b : Vec3 F) : Prop := a.x ≤ b.x ∧ a.y ≤ b.y ∧ a.z ≤ b.z

end Vox.Spec
