/-
Grid traversal up to a tolerance.
-/
import Verif.Spec.Ray
import Verif.Spec.TsdfRounding

namespace Vox.Spec

/-- The unit cell with lower corner `c`, enlarged by `tol` on all sides, contains `p`. -/
def NearUnitCell (tol : ℚ) (c : Idx) (p : Pt) : Prop :=
  ((c.x : ℚ) - tol ≤ p.x ∧ p.x ≤ c.x + 1 + tol) ∧ ((c.y : ℚ) - tol ≤ p.y ∧ p.y ≤ c.y + 1 + tol) ∧
    ((c.z : ℚ) - tol ≤ p.z ∧ p.z ≤ c.z + 1 + tol)

/-- `p` lies in the unit cell of `c`, farther than `m` from its faces. -/
def InsideBy (m : ℚ) (c : Idx) (p : Pt) : Prop :=
  ((c.x : ℚ) + m < p.x ∧ p.x < c.x + 1 - m) ∧ ((c.y : ℚ) + m < p.y ∧ p.y < c.y + 1 - m) ∧ ((c.z : ℚ) + m < p.z ∧ p.z < c.z + 1 - m)

/-- No two coordinates differ by less than `d`. -/
def ApartBy (d : ℚ) (s e : Pt) : Prop := d ≤ |e.x - s.x| ∧ d ≤ |e.y - s.y| ∧ d ≤ |e.z - s.z|

/-- Tolerance of a traversal of at most `N` steps with coordinates up to `X` (in voxels): the 1e-6 of the index, the rounding of the
coordinates, and the accumulated rounding of `N` additions. -/
def rayTol (X : ℚ) (N : ℕ) : ℚ := 1 / 1000000 + (X + (N : ℚ) ^ 2 / 2 + 5 * N + 7) / 2 ^ 24

/-- The length of the segment, measured along the axes. -/
def l1length (s e : Pt) : ℚ := |e.x - s.x| + |e.y - s.y| + |e.z - s.z|

/-- Along every axis the end points agree or differ by at least `d`. -/
def EqualOrApart (d : ℚ) (s e : Pt) : Prop := (e.x = s.x ∨ d ≤ |e.x - s.x|) ∧ (e.y = s.y ∨ d ≤ |e.y - s.y|) ∧ (e.z = s.z ∨ d ≤ |e.z - s.z|)

/-- The segment does not change along some axis on which it lies at least `d` above the lower faces of the voxel `a`. -/
def FlatAbove (d : ℚ) (a : Idx) (s e : Pt) : Prop :=
  (e.x = s.x ∧ a.x + d ≤ s.x) ∨ (e.y = s.y ∧ a.y + d ≤ s.y) ∨ (e.z = s.z ∧ a.z + d ≤ s.z)

/-- Tolerance of a ray through a measured point: that of the traversal, and the rounding of the ends of the ray (eight rounding units of a
coordinate). -/
def fusedTol (X : ℚ) (N : ℕ) : ℚ := rayTol X N + X / 2 ^ 21

/-- Bound of the length, measured along the axes, of the ray through a point `p` measured from `o`: from the sensor or from the truncation
distance `T` before the point, to the truncation distance behind it. -/
def rayReach (carving : Bool) (T : ℚ) (o p : Pt) : ℚ := if carving then l1length o p + 4 * T else 7 * T

end Vox.Spec
