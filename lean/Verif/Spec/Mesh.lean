/-
Specification of meshing: which cubes have all their corners observed, where the surface is.
-/
import Verif.Spec.Grid
import Verif.Spec.Surface
import Verif.Spec.Interp

namespace Vox.Spec

open Grid

variable {V : Type}

/-- The valid distance at global voxel index `g`, if there is one. -/
def sdfAt (l : VLayer V) (sdf : V → Option ℚ) (g : Idx) : Option ℚ := (content l g).bind sdf

/-- All eight corners of the cube with lower corner `c` have a valid distance. -/
def CubeObserved (l : VLayer V) (sdf : V → Option ℚ) (c : Idx) : Prop :=
  ∀ d, IsCorner d → (sdfAt l sdf (c + d)).isSome = true

/-- The distance field of a layer (0 where there is no valid distance). -/
def fieldOf (l : VLayer V) (sdf : V → Option ℚ) (g : Idx) : ℚ := (sdfAt l sdf g).getD 0

/-- The sign field of a layer. -/
def negAt (l : VLayer V) (sdf : V → Option ℚ) (g : Idx) : Bool := decide (fieldOf l sdf g < 0)

/-- The point of the surface on a grid edge (grid points are voxel centres). -/
def surfacePoint (l : VLayer V) (sdf : V → Option ℚ) (e : GridEdge) : Pt :=
  crossing ⟨l.cfg.voxelSize / 2, l.cfg.voxelSize / 2, l.cfg.voxelSize / 2⟩ l.cfg.voxelSize (fieldOf l sdf) e

/-- The block index `i` and its upper neighbours have no overflowing voxel indices. -/
def BlockInRange (l : VLayer V) (i : Idx) : Prop :=
  i.All fun (c : ℤ) => -2 ^ 30 ≤ c * l.cfg.vps ∧ (c + 2) * l.cfg.vps ≤ 2 ^ 30

end Vox.Spec
