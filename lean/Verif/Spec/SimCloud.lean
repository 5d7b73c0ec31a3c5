/-
Views of a world: pixels, their rays and what they see.
-/
import Verif.Spec.Objects
import Verif.Spec.Camera
import Verif.Model.SimCloud

namespace Vox.Spec

open Sim Geo

variable {F : Type} [Field F] [LinearOrder F]

/-- The pixels of an image of `2 a` by `2 b` pixels around its centre, column by column. -/
def imagePixels (a b : ℕ) : List (ℤ × ℤ) :=
  (List.range (2 * a)).flatMap fun (i : ℕ) => (List.range (2 * b)).map fun (j : ℕ) => ((i : ℤ) - a, (j : ℤ) - b)

/-- `d` is the unit vector through pixel `(u, v)` of a camera turned by `R` that looks along x, with `t` the tangent of half the horizontal
field of view and `2 a` pixels per row. -/
def IsPixelRay (R : Pose F) (t : F) (a : ℕ) (u v : ℤ) (d : Vec3 F) : Prop :=
  d.x ^ 2 + d.y ^ 2 + d.z ^ 2 = 1 ∧ ∃ k > 0, d = R.rotate ⟨k, k * (t * (u / a)), k * (t * (v / a))⟩

/-- What is seen along a ray: nothing if all objects are missed, otherwise the nearest hit, of the first object at equal distances. -/
def Nearest (w : List (Target F)) (origin dir : Vec3 F) (M : F) : Option (Vec3 F × F × Color) → Prop
  | none => ∀ o ∈ w, o.ray origin dir M = .miss
  | some (p, d, c) => ∃ before o after, w = before ++ o :: after ∧ o.ray origin dir M = .hit p d ∧ o.color = c ∧
      (∀ q ∈ before, ∀ p' d', q.ray origin dir M = .hit p' d' → d < d') ∧
      ∀ q ∈ after, ∀ p' d', q.ray origin dir M = .hit p' d' → d ≤ d'

end Vox.Spec
