/-
What the rounding error of the fusion is measured against: lengths and signed distances along a ray as real numbers.
-/
import Verif.Model.Basic
import Mathlib.Analysis.Real.Sqrt

namespace Vox.Spec

/-- The length of the segment from `a` to `b`. -/
noncomputable def segLength (a b : Vec3 ℚ) : ℝ :=
  Real.sqrt (((b.x - a.x) * (b.x - a.x) + (b.y - a.y) * (b.y - a.y) + (b.z - a.z) * (b.z - a.z) : ℚ) : ℝ)

/-- The signed distance of `c` from the surface point `p` along the ray from `o` to `p`: the component of `p - c` in the direction of
the ray, positive in front of the surface. -/
noncomputable def rayDistance (o p c : Vec3 ℚ) : ℝ :=
  (((p.x - c.x) * (p.x - o.x) + (p.y - c.y) * (p.y - o.y) + (p.z - c.z) * (p.z - o.z) : ℚ) : ℝ) / segLength o p

/-- All coordinates are at most `m` in absolute value. -/
def CoordsWithin (m : ℚ) (v : Vec3 ℚ) : Prop := |v.x| ≤ m ∧ |v.y| ≤ m ∧ |v.z| ≤ m

/-- The mean of the real numbers `s` with the weights `w`. -/
noncomputable def realMean {α : Type} (w : α → ℚ) (s : α → ℝ) (l : List α) : ℝ := (l.map fun a => (w a : ℝ) * s a).sum / (l.map fun a => (w a : ℝ)).sum

end Vox.Spec
