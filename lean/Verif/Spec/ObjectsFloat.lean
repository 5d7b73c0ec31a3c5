/-
What the rounding error of distances to simulated objects is measured against: the signed Euclidean distance as a real number.
-/
import Verif.Spec.Objects
import Verif.Spec.TsdfRounding
import Verif.Model.Float

namespace Vox.ObjSpec

open Sim Spec

/-- `δ` is the signed Euclidean distance of `p` to the surface of the solid `o`. -/
structure SignedDistance (o : Shape ℝ) (p : Vec3 ℝ) (δ : ℝ) : Prop where
  sign : HasSign o p δ
  euclid : IsDistance (OnSurface o) p |δ|

/-- A point with rational coordinates as a point with real ones. -/
noncomputable def realPoint (v : Vec3 ℚ) : Vec3 ℝ := ⟨v.x, v.y, v.z⟩

/-- The length of a vector. -/
noncomputable def length (v : Vec3 ℚ) : ℝ := Real.sqrt ((v.x : ℝ) ^ 2 + (v.y : ℝ) ^ 2 + (v.z : ℝ) ^ 2)

/-- The unit vector in the direction of `v`. -/
noncomputable def direction (v : Vec3 ℚ) : Vec3 ℝ := ⟨v.x / length v, v.y / length v, v.z / length v⟩

/-- The solid an object with rational parameters stands for; only the direction of the normal of a plane counts. -/
noncomputable def realShape : Shape ℚ → Shape ℝ
  | .sphere c r => .sphere (realPoint c) r
  | .cube c s => .cube (realPoint c) (realPoint s)
  | .plane c n => .plane (realPoint c) (direction n)
  | .cylinder c r h => .cylinder (realPoint c) r h

/-- The object with its parameters as floating-point numbers. -/
def floatShape : Shape ℚ → Shape Fl
  | .sphere c r => .sphere (c.map Fl.fin) (Fl.fin r)
  | .cube c s => .cube (c.map Fl.fin) (s.map Fl.fin)
  | .plane c n => .plane (c.map Fl.fin) (n.map Fl.fin)
  | .cylinder c r h => .cylinder (c.map Fl.fin) (Fl.fin r) (Fl.fin h)

/-- Spheres, boxes and planes with all lengths up to `M` and normals whose length is 1 up to `τ`. -/
def WellFormed (M τ : ℚ) : Shape ℚ → Prop
  | .sphere c r => CoordsWithin M c ∧ 0 < r ∧ r ≤ M
  | .cube c s => CoordsWithin M c ∧ CoordsWithin M s ∧ 0 < s.x ∧ 0 < s.y ∧ 0 < s.z
  | .plane c n => CoordsWithin M c ∧ |length n - 1| ≤ τ
  | .cylinder _ _ _ => False

/-- `m` is the least of `M` and the numbers related to the elements of `l`. -/
def LeastOf {α : Type} (R : α → ℝ → Prop) (l : List α) (M m : ℝ) : Prop :=
  (m = M ∨ ∃ a ∈ l, R a m) ∧ m ≤ M ∧ ∀ a ∈ l, ∀ δ, R a δ → m ≤ δ

end Vox.ObjSpec
