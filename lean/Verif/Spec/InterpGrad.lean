/-
What a gradient query is measured against: voxels that sample a plane.
-/
import Verif.Spec.InterpVoxel

namespace Vox.Spec

open Layer Grid Ieee

/-- The centre of voxel `g` is at most `r` voxels from `p` along each axis. -/
def Around (s r : ℚ) (p : Pt) (g : Idx) : Prop := Vec3.All₂ (fun (c : ℤ) (q : ℚ) => |q / s - ((c : ℚ) + 1 / 2)| ≤ r) g p

/-- All voxels with centres at most `r` voxels from `p` are observed and hold `float`s of at most `D` that differ by at most `e` from the
affine function with gradient `a`. -/
def PlaneAround {V : Type} (l : VLayer V) (obs : V → Bool) (sdf : V → Fl) (a : Pt) (k e D r : ℚ) (p : Pt) : Prop :=
  ∀ g, Around l.cfg.voxelSize r p g → ∃ x d, content l g = some x ∧ obs x = true ∧ sdf x = .fin d ∧ rnd32 d = d ∧ |d| ≤ D ∧
    |d - affine a k (voxelCenter l.cfg.voxelSize g)| ≤ e

/-- All voxels with centres at most `r` voxels from `p` that are observed hold `float`s of at most `D` that differ by at most `e` from the affine
function with gradient `a`. -/
def PlaneData {V : Type} (l : VLayer V) (obs : V → Bool) (sdf : V → Fl) (a : Pt) (k e D r : ℚ) (p : Pt) : Prop :=
  ∀ g, Around l.cfg.voxelSize r p g → ∀ x, content l g = some x → obs x = true → ∃ d, sdf x = .fin d ∧ rnd32 d = d ∧ |d| ≤ D ∧
    |d - affine a k (voxelCenter l.cfg.voxelSize g)| ≤ e

/-- The sum of the absolute components. -/
def sumAbs (a : Pt) : ℚ := |a.x| + |a.y| + |a.z|

/-- What can be read in voxel `g`: its value if it exists and is observed. -/
def reading {V : Type} (l : VLayer V) (obs : V → Bool) (sdf : V → Fl) (g : Idx) : Option Fl :=
  match content l g with
  | none => none
  | some x => if obs x then some (sdf x) else none

/-- The unit step along axis `i`. -/
def axisStep (i : Fin 3) : Idx :=
  match i with
  | 0 => ⟨1, 0, 0⟩
  | 1 => ⟨0, 1, 0⟩
  | 2 => ⟨0, 0, 1⟩

/-- Component `i` of a vector. -/
def component {α : Type} (v : Vec3 α) (i : Fin 3) : α :=
  match i with
  | 0 => v.x
  | 1 => v.y
  | 2 => v.z

end Vox.Spec
