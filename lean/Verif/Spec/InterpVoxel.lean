/-
What the nearest-neighbour queries of the interpolator and the interpolated colour are measured against.
-/
import Verif.Spec.InterpFloat

namespace Vox.Spec

/-- `p` lies in the cube of voxel `g`, up to `tol` voxels. -/
def NearVoxel (s tol : ℚ) (g : Idx) (p : Pt) : Prop := Vec3.All₂ (fun (c : ℤ) (q : ℚ) => (c : ℚ) - tol ≤ q / s ∧ q / s ≤ c + 1 + tol) g p

/-- The four components of a colour. -/
def colorChannels : List (Color → BitVec 8) := [Color.r, Color.g, Color.b, Color.a]

/-- The number of a finite value. -/
def num : Fl → ℚ
  | .fin q => q
  | _ => 0

end Vox.Spec
