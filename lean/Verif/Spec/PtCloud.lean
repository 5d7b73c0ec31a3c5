/-
Point clouds of a layer, stated by global voxel index.
-/
import Verif.Spec.Slice

namespace Vox.Spec

open Layer Grid

variable {V R : Type}

/-- The points are, once each, the centres of the voxels for which `f` reports something, with what it reports. -/
def Shows (f : V → Option R) (l : VLayer V) (E : List (Pt × R)) : Prop :=
  (E.map (·.1)).Nodup ∧ ∀ e, e ∈ E ↔ ∃ g v r, content l g = some v ∧ f v = some r ∧ e = (voxelCenter l.cfg.voxelSize g, r)

/-- The same for the voxels `g` with `P g` only. -/
def ShowsOn (P : Idx → Prop) (f : V → Option R) (l : VLayer V) (E : List (Pt × R)) : Prop :=
  (E.map (·.1)).Nodup ∧ ∀ e, e ∈ E ↔ ∃ g v r, P g ∧ content l g = some v ∧ f v = some r ∧ e = (voxelCenter l.cfg.voxelSize g, r)

/-- The plane passes through voxel `g` (whose lower face belongs to it). -/
def PassesThrough (s : ℚ) (a : Fin 3) (val : ℚ) (g : Idx) : Prop := (axial a g : ℤ) * s ≤ val ∧ val < ((axial a g : ℤ) + 1) * s

/-- How far the plane lies above the lower face of the voxels it passes through. -/
def above (s val : ℚ) : ℚ := val - ⌊val / s⌋ * s

end Vox.Spec
