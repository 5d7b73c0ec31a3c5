/-
What interpolation in `float` is measured against.
-/
import Verif.Spec.Grid
import Verif.Spec.Interp
import Verif.Model.InterpFloat

namespace Vox.Spec

open Layer Grid

variable {V : Type}

/-- All blocks of the layer have the layer's side and a full voxel array; nothing is said about their coordinates. -/
structure Shaped (l : VLayer V) : Prop where
  side_pos : 0 < l.cfg.vps
  side_le : l.cfg.vps ≤ 1290
  block : ∀ i b, l.blocks.lookup i = some b → b.vps = l.cfg.vps ∧ b.voxels.length = l.cfg.vps * l.cfg.vps * l.cfg.vps

/-- `p` lies in the cell spanned by the centres of voxel `g` and of its upper neighbours, up to `tol` voxels. -/
def NearDualCell (s tol : ℚ) (g : Idx) (p : Pt) : Prop :=
  Vec3.All₂ (fun (c : ℤ) (q : ℚ) => -tol ≤ q / s - ((c : ℚ) + 1 / 2) ∧ q / s - ((c : ℚ) + 1 / 2) ≤ 1 + tol) g p

/-- The position of `p` relative to the centre of voxel `g`, in voxels. -/
def relativeTo (s : ℚ) (g : Idx) (p : Pt) : Pt := ⟨p.x / s - (g.x + 1 / 2), p.y / s - (g.y + 1 / 2), p.z / s - (g.z + 1 / 2)⟩

/-- The coordinates are at most `m` voxels in absolute value. -/
def WithinVoxels (s m : ℚ) (p : Pt) : Prop := p.All fun c => |c / s| ≤ m

/-- An order of addition in which each of the eight terms is added once. -/
def Complete (o : InterpF.Order) : Prop := o.terms.Perm (List.range 8)

end Vox.Spec
