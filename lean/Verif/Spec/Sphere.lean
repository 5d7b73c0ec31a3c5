/-
Specification of spheres of voxels.
-/
import Verif.Spec.Grid
import Verif.Spec.Index
import Verif.Model.Voxel

namespace Vox.Spec

open Grid

/-- How far the sampling points of the loops lie above the grid points. -/
def sphereShift (r : ℚ) : ℚ := ⌈r⌉ - r

/-- The offset `o`, moved by the shift along each axis, is within radius `r`. -/
def InSphere (r : ℚ) (o : Idx) : Prop :=
  0 ≤ r ∧ (o.x + sphereShift r) ^ 2 + (o.y + sphereShift r) ^ 2 + (o.z + sphereShift r) ^ 2 ≤ r ^ 2

instance (r : ℚ) (o : Idx) : Decidable (InSphere r o) := inferInstanceAs (Decidable (_ ∧ _))

/-- The voxels listed for a block. -/
def listed (m : List (Idx × List Idx)) (i : Idx) : List Idx := (m.lookup i).getD []

/-- A voxel takes the value `d` of a sphere: it was not observed or the value is better than its distance. -/
def Improves (better : ℚ → ℚ → Bool) (d : ℚ) (x : EsdfVoxel ℚ) : Prop := x.observed = false ∨ better d x.distance = true

instance (better : ℚ → ℚ → Bool) (d : ℚ) (x : EsdfVoxel ℚ) : Decidable (Improves better d x) :=
  inferInstanceAs (Decidable (_ ∨ _))

/-- How a voxel changes when a sphere with value `d` is written over it: it becomes an observed, fixed, hallucinated
voxel with that distance if it was not observed or the value is better. -/
def overwritten (better : ℚ → ℚ → Bool) (d : ℚ) (x : EsdfVoxel ℚ) : EsdfVoxel ℚ :=
  if Improves better d x then ⟨d, true, true, x.inQueue, true, x.parent⟩ else x

end Vox.Spec
