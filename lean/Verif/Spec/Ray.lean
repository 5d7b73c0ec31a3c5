/-
Specification of grid traversal: unit steps, closed cells, points of a segment.
-/
import Verif.Model.Basic
import Mathlib.Algebra.Order.Ring.Rat

namespace Vox.Spec

/-- `b` is reached from `a` by one step along exactly one axis in direction `d` (componentwise ±1). -/
def UnitStep (d a b : Idx) : Prop :=
  b = ⟨a.x + d.x, a.y, a.z⟩ ∨ b = ⟨a.x, a.y + d.y, a.z⟩ ∨ b = ⟨a.x, a.y, a.z + d.z⟩

instance (d a b : Idx) : Decidable (UnitStep d a b) := inferInstanceAs (Decidable (_ ∨ _ ∨ _))

/-- The closed unit cell with lower corner `c` contains `p`. -/
def InUnitCell (c : Idx) (p : Pt) : Prop :=
  ((c.x : ℚ) ≤ p.x ∧ p.x ≤ c.x + 1) ∧ ((c.y : ℚ) ≤ p.y ∧ p.y ≤ c.y + 1) ∧ ((c.z : ℚ) ≤ p.z ∧ p.z ≤ c.z + 1)

/-- The point at parameter `t` of the segment from `s` to `e`. -/
def segPoint (s e : Pt) (t : ℚ) : Pt :=
  ⟨s.x + t * (e.x - s.x), s.y + t * (e.y - s.y), s.z + t * (e.z - s.z)⟩

/-- `p` lies in the cell of `c`, not on its boundary and not in the last 1e-6 before the upper boundary. -/
def ClearlyInside (c : Idx) (p : Pt) : Prop :=
  ((c.x : ℚ) < p.x ∧ p.x + 1 / 1000000 < c.x + 1) ∧ ((c.y : ℚ) < p.y ∧ p.y + 1 / 1000000 < c.y + 1) ∧
    ((c.z : ℚ) < p.z ∧ p.z + 1 / 1000000 < c.z + 1)

/-- `p` lies in the half-open cell of `c`, not in the last 1e-6 before the upper boundary. -/
def InsideLow (c : Idx) (p : Pt) : Prop :=
  ((c.x : ℚ) ≤ p.x ∧ p.x + 1 / 1000000 < c.x + 1) ∧ ((c.y : ℚ) ≤ p.y ∧ p.y + 1 / 1000000 < c.y + 1) ∧
    ((c.z : ℚ) ≤ p.z ∧ p.z + 1 / 1000000 < c.z + 1)

/-- L1 distance of two voxels. -/
def l1dist (a b : Idx) : ℕ := (b.x - a.x).natAbs + (b.y - a.y).natAbs + (b.z - a.z).natAbs

end Vox.Spec
