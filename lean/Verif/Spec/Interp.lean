/-
Trilinear interpolation as a sum of eight weighted corner values.
-/
import Verif.Model.Basic

namespace Vox.Spec

/-- The eight corners of the unit cube. -/
def IsCorner (c : Idx) : Prop := c.All fun k => k = 0 ∨ k = 1

instance (c : Idx) : Decidable (IsCorner c) := inferInstanceAs (Decidable (_ ∧ _ ∧ _))

/-- Weight of the value at corner coordinate `k` for the relative position `t` along one axis. -/
def linWeight (k : ℤ) (t : ℚ) : ℚ := if k = 0 then 1 - t else t

/-- Weight of corner `c` for the relative position `o` in the unit cube. -/
def triWeight (c : Idx) (o : Pt) : ℚ := linWeight c.x o.x * linWeight c.y o.y * linWeight c.z o.z

/-- Trilinear interpolation of the corner values `f`. -/
def trilinear (f : Idx → ℚ) (o : Pt) : ℚ :=
  triWeight ⟨0, 0, 0⟩ o * f ⟨0, 0, 0⟩ + triWeight ⟨0, 0, 1⟩ o * f ⟨0, 0, 1⟩ +
  triWeight ⟨0, 1, 0⟩ o * f ⟨0, 1, 0⟩ + triWeight ⟨0, 1, 1⟩ o * f ⟨0, 1, 1⟩ +
  triWeight ⟨1, 0, 0⟩ o * f ⟨1, 0, 0⟩ + triWeight ⟨1, 0, 1⟩ o * f ⟨1, 0, 1⟩ +
  triWeight ⟨1, 1, 0⟩ o * f ⟨1, 1, 0⟩ + triWeight ⟨1, 1, 1⟩ o * f ⟨1, 1, 1⟩

end Vox.Spec
