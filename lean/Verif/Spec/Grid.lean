/-
What a layer contains, stated by global voxel index and without the accessors of the model.
-/
import Verif.Model.Grid

namespace Vox.Spec

open Layer Grid

variable {V : Type}

/-- The voxel at global index `g`: in block `⌊g / side⌋`, at local position `g mod side` (x fastest). -/
def content (l : VLayer V) (g : Idx) : Option V :=
  (l.blocks.lookup (g.map (· / (l.cfg.vps : ℤ)))).bind fun b =>
    b.voxels[((g.x % (l.cfg.vps : ℤ)) + l.cfg.vps * ((g.y % (l.cfg.vps : ℤ)) +
      l.cfg.vps * (g.z % (l.cfg.vps : ℤ)))).toNat]?

/-- The status of an allocated block: whether it has data, and its update flags. -/
def status (l : VLayer V) (i : Idx) : Option (Bool × Flags) :=
  (l.blocks.lookup i).map fun b => (b.hasData, b.updated)

/-- Whether a block is allocated. -/
def Allocated (l : VLayer V) (i : Idx) : Prop := (l.blocks.lookup i).isSome = true

/-- The block that voxel `g` belongs to. -/
def blockOf (n : ℕ) (g : Idx) : Idx := g.map (· / (n : ℤ))

/-- The position of voxel `g` in its block. -/
def localOf (n : ℕ) (g : Idx) : Idx := g.map (· % (n : ℤ))

/-- All blocks of the layer have the layer's configuration, lie on its block grid, and the side is
positive and within the range of the `int` arithmetic. Every layer built through the public interface
is like this (C12). -/
structure WellFormed (l : VLayer V) : Prop where
  size_pos : 0 < l.cfg.voxelSize
  side_pos : 0 < l.cfg.vps
  side_le : l.cfg.vps ≤ 1290
  block : ∀ i b, l.blocks.lookup i = some b → b.vps = l.cfg.vps ∧ b.voxelSize = l.cfg.voxelSize ∧
    b.origin = ⟨i.x * (l.cfg.voxelSize * l.cfg.vps), i.y * (l.cfg.voxelSize * l.cfg.vps),
      i.z * (l.cfg.voxelSize * l.cfg.vps)⟩ ∧ b.voxels.length = l.cfg.vps * l.cfg.vps * l.cfg.vps

/-- Coordinates for which no index computation overflows 32 bits. -/
def Addressable (l : VLayer V) (p : Pt) : Prop :=
  p.All fun c => -2 ^ 30 * l.cfg.voxelSize ≤ c ∧ c ≤ 2 ^ 30 * l.cfg.voxelSize

/-- The centre of the voxel with global index `g`. -/
def voxelCenter (s : ℚ) (g : Idx) : Pt := ⟨(g.x + 1 / 2) * s, (g.y + 1 / 2) * s, (g.z + 1 / 2) * s⟩

/-- `p` lies in the cell spanned by the centres of voxel `g` and of its upper neighbours. -/
def InDualCell (s : ℚ) (g : Idx) (p : Pt) : Prop :=
  Vec3.All₂ (fun (c : ℤ) (q : ℚ) => ((c : ℚ) + 1 / 2) * s ≤ q ∧ q < ((c : ℚ) + 3 / 2) * s) g p

/-- The value of the affine field with gradient `a` and offset `d`. -/
def affine (a : Pt) (d : ℚ) (p : Pt) : ℚ := a.x * p.x + a.y * p.y + a.z * p.z + d

end Vox.Spec
