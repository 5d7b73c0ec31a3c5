/-
Specification vocabulary for index arithmetic: what a user of the API expects, stated without the
model's functions.
-/
import Verif.Model.Basic

namespace Vox.Spec

/-- A voxel index addresses one of the `side^3` voxels of a block. -/
def InBlock (side : ℕ) (v : Idx) : Prop := v.All fun c => 0 ≤ c ∧ c < (side : ℤ)

instance (side : ℕ) (v : Idx) : Decidable (InBlock side v) :=
  inferInstanceAs (Decidable (_ ∧ _ ∧ _))

/-- The voxel `v` of block `b` sits at global position `g`. -/
def SitsAt (side : ℕ) (b v g : Idx) : Prop :=
  g.x = b.x * side + v.x ∧ g.y = b.y * side + v.y ∧ g.z = b.z * side + v.z

/-- The point `p` lies in the half-open cell `i` of a grid with cell size `s`, where the cell is
extended downward by `tol` along each axis. -/
def InCell (s tol : ℚ) (i : Idx) (p : Pt) : Prop :=
  Vec3.All₂ (fun (c : ℤ) (q : ℚ) => (c : ℚ) * s - tol ≤ q ∧ q < ((c : ℚ) + 1) * s) i p

/-- Squared Euclidean length of an integer offset. -/
def sqLen (d : Idx) : ℤ := d.x * d.x + d.y * d.y + d.z * d.z

/-- Membership in `{-1,0,1}^3` without the origin. -/
def IsNeighborOffset (d : Idx) : Prop :=
  (d.All fun c => -1 ≤ c ∧ c ≤ 1) ∧ d ≠ ⟨0, 0, 0⟩

end Vox.Spec
