/-
Specification for marching cubes: edges of the voxel grid, the crossing point on an edge, closed surfaces.
-/
import Verif.Model.Basic
import Mathlib.Algebra.Order.Ring.Rat

namespace Vox.Spec

/-- An edge of the grid: it starts at `base` and goes one step along `axis` (0, 1, 2). -/
structure GridEdge where
  base : Idx
  axis : ℕ
deriving DecidableEq, Repr

/-- The unit step along an axis. -/
def unitStep (ax : ℕ) : Idx := if ax = 0 then ⟨1, 0, 0⟩ else if ax = 1 then ⟨0, 1, 0⟩ else ⟨0, 0, 1⟩

/-- The other end of a grid edge. -/
def GridEdge.tip (e : GridEdge) : Idx := e.base + unitStep e.axis

/-- The grid edge between two neighbouring grid points. -/
def edgeBetween (p q : Idx) : GridEdge :=
  { base := ⟨min p.x q.x, min p.y q.y, min p.z q.z⟩,
    axis := if p.x ≠ q.x then 0 else if p.y ≠ q.y then 1 else 2 }

/-- The edge has different signs at its ends (`neg g`: the distance at `g` is negative). -/
def SignChange (neg : Idx → Bool) (e : GridEdge) : Prop := neg e.base ≠ neg e.tip

/-- `e` is one of the twelve edges of the unit cube with lower corner `c`. -/
def EdgeOfCube (c : Idx) (e : GridEdge) : Prop :=
  e.axis < 3 ∧ (e.base.x = c.x ∨ (e.base.x = c.x + 1 ∧ e.axis ≠ 0)) ∧
    (e.base.y = c.y ∨ (e.base.y = c.y + 1 ∧ e.axis ≠ 1)) ∧
    (e.base.z = c.z ∨ (e.base.z = c.z + 1 ∧ e.axis ≠ 2))

/-- Twice the midpoint of a grid edge. -/
def mid2 (e : GridEdge) : Idx := e.base + e.tip

/-- The component along an axis. -/
def along (v : Idx) (ax : ℕ) : ℤ := if ax = 0 then v.x else if ax = 1 then v.y else v.z

/-- Inner and cross product of integer vectors. -/
def idot (u v : Idx) : ℤ := u.x * v.x + u.y * v.y + u.z * v.z

@[inherit_doc idot]
def icross (u v : Idx) : Idx := ⟨u.y * v.z - u.z * v.y, u.z * v.x - u.x * v.z, u.x * v.y - u.y * v.x⟩

/-- The directed edges of a triangle. -/
def triSegments {α : Type} (t : α × α × α) : List (α × α) := [(t.1, t.2.1), (t.2.1, t.2.2), (t.2.2, t.1)]

/-- The position of grid point `g` for lower corner `o` and spacing `s`. -/
def gridPoint (o : Pt) (s : ℚ) (g : Idx) : Pt := ⟨o.x + s * g.x, o.y + s * g.y, o.z + s * g.z⟩

/-- The point of the segment from `p` to `q` at parameter `t`. -/
def lerp (p q : Pt) (t : ℚ) : Pt := ⟨p.x + t * (q.x - p.x), p.y + t * (q.y - p.y), p.z + t * (q.z - p.z)⟩

/-- The parameter of the zero of the linear function with values `a` and `b` at the ends; the middle if the
values differ by less than 1e-6. -/
def zeroParam (a b : ℚ) : ℚ := if 1 / 1000000 ≤ |a - b| then a / (a - b) else 1 / 2

/-- The point of a grid edge where the linearly interpolated field `f` vanishes. -/
def crossing (o : Pt) (s : ℚ) (f : Idx → ℚ) (e : GridEdge) : Pt :=
  lerp (gridPoint o s e.base) (gridPoint o s e.tip) (zeroParam (f e.base) (f e.tip))

end Vox.Spec
