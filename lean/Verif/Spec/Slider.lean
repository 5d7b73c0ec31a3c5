/-
How interactive markers are moved, by the conventions of ROS: a control moves along the first of its axes, or in the plane of the other two; its axes are
turned by its orientation, which is normalised first.
-/
import Verif.Model.Slider
import Mathlib.Data.Fin.VecNotation

namespace Vox.SliderSpec

open Slider

/-- A vector turned by a quaternion of any length but zero: `q v q* / |q|^2`. -/
def turned (q : Quat) (v : Pt) : Pt :=
  let n := q.w * q.w + q.x * q.x + q.y * q.y + q.z * q.z
  let s := q.w * q.w - (q.x * q.x + q.y * q.y + q.z * q.z)
  let d := 2 * (q.x * v.x + q.y * v.y + q.z * v.z)
  ⟨(s * v.x + d * q.x + 2 * q.w * (q.y * v.z - q.z * v.y)) / n, (s * v.y + d * q.y + 2 * q.w * (q.z * v.x - q.x * v.z)) / n,
    (s * v.z + d * q.z + 2 * q.w * (q.x * v.y - q.y * v.x)) / n⟩

/-- A point moved by a multiple of a vector. -/
def along (p : Pt) (t : ℚ) (v : Pt) : Pt := ⟨p.x + t * v.x, p.y + t * v.y, p.z + t * v.z⟩

/-- Where a user can drag the marker by a control from a position. -/
inductive Drags (c : Control) (p : Pt) : Pt → Prop where
  | axis (t : ℚ) : c.mode = .moveAxis → Drags c p (along p t (turned c.orientation ⟨1, 0, 0⟩))
  | plane (s t : ℚ) : c.mode = .movePlane → Drags c p (along (along p s (turned c.orientation ⟨0, 1, 0⟩)) t (turned c.orientation ⟨0, 0, 1⟩))

/-- A coordinate. -/
def coord (k : Fin 3) (p : Pt) : ℚ := ![p.x, p.y, p.z] k

end Vox.SliderSpec
