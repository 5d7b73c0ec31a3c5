/-
A list of voxels sorted by block.
-/
import Verif.Spec.Sphere
import Verif.Spec.Index

namespace Vox.Spec

/-- The cube of `n`³ voxels with block index `i` contains voxel `g`. -/
def Covers (n : ℕ) (i g : Idx) : Prop :=
  (i.x * n ≤ g.x ∧ g.x < (i.x + 1) * n) ∧ (i.y * n ≤ g.y ∧ g.y < (i.y + 1) * n) ∧ (i.z * n ≤ g.z ∧ g.z < (i.z + 1) * n)

instance (n : ℕ) (i g : Idx) : Decidable (Covers n i g) := inferInstanceAs (Decidable (_ ∧ _ ∧ _))

/-- `m` holds the voxels `gs` sorted by block: every block that contains one of them has exactly one entry, with the local indices of its
voxels in the order of the list. -/
structure SortedByBlock (n : ℕ) (gs : List Idx) (m : List (Idx × List Idx)) : Prop where
  keys : (m.map (·.1)).Nodup
  blocks : ∀ i, i ∈ m.map (·.1) ↔ ∃ g ∈ gs, Covers n i g
  inside : ∀ i, ∀ v ∈ listed m i, InBlock n v
  order : ∀ i, (listed m i).map (fun v => (⟨i.x * n + v.x, i.y * n + v.y, i.z * n + v.z⟩ : Idx)) = gs.filter fun g => decide (Covers n i g)

end Vox.Spec
