/-
Rigid transformations.
-/
import Verif.Model.Merge

namespace Vox.Spec

open Layer Interp

/-- The rows of the rotation are orthonormal. -/
def Orthonormal (T : Merge.Rigid) : Prop :=
  dot T.r0 T.r0 = 1 ∧ dot T.r1 T.r1 = 1 ∧ dot T.r2 T.r2 = 1 ∧ dot T.r0 T.r1 = 0 ∧ dot T.r0 T.r2 = 0 ∧ dot T.r1 T.r2 = 0

/-- The squared distance of two points. -/
def squareDist (x y : Pt) : ℚ := (x.x - y.x) ^ 2 + (x.y - y.y) ^ 2 + (x.z - y.z) ^ 2

end Vox.Spec
