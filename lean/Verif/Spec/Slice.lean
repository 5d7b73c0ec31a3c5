/-
Which voxels lie on a slice.
-/
import Verif.Spec.Grid

namespace Vox.Spec

open Layer Grid

/-- The component of a vector along an axis. -/
def axial {α : Type} (a : Fin 3) (v : Vec3 α) : α :=
  match a with
  | 0 => v.x
  | 1 => v.y
  | 2 => v.z

/-- The centre of voxel `g` is within one voxel size of the plane. -/
def OnSlice (s : ℚ) (a : Fin 3) (val : ℚ) (g : Idx) : Prop := |axial a (voxelCenter s g) - val| ≤ s

/-- The plane is at most on the upper face of the block of voxel `g`. -/
def NotAboveBlock (s : ℚ) (n : ℕ) (a : Fin 3) (val : ℚ) (g : Idx) : Prop :=
  val ≤ ((axial a (blockOf n g) : ℤ) + 1) * (s * n)

end Vox.Spec
