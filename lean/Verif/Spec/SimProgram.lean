/-
What the simulation program should do: its room, its ground truth, its numbers.
-/
import Verif.Spec.SimServer
import Verif.Spec.SimWorld
import Verif.Spec.Grid
import Verif.Spec.EvalProgram

namespace Vox.Spec

open Sim Geo Layer Grid

variable {F : Type} [Field F] [LinearOrder F]

/-- At least `m` above the ground, from the two walls, from the ball on the ground and from every point of the box in the corner. -/
structure InRoom (m : F) (p : Vec3 F) : Prop where
  ground : 3 / 100 + m ≤ p.z
  wallX : p.x ≤ 4 - m
  wallY : -4 + m ≤ p.y
  ball : (2 + m) ^ 2 ≤ p.x ^ 2 + p.y ^ 2 + (p.z - 2) ^ 2
  box : ∀ q : Vec3 F, (-6 ≤ q.x ∧ q.x ≤ -2) → (2 ≤ q.y ∧ q.y ≤ 6) → (0 ≤ q.z ∧ q.z ≤ 4) →
    m ^ 2 ≤ (p.x - q.x) ^ 2 + (p.y - q.y) ^ 2 + (p.z - q.z) ^ 2

/-- The signed distance from the box in the corner; near its surface and inside, the distance from the nearest face. -/
def boxDistance (sqrt : ℚ → ℚ) (p : Pt) : ℚ :=
  let d := sqrt (max (|p.x + 4| - 2) 0 ^ 2 + max (|p.y - 4| - 2) 0 ^ 2 + max (|p.z - 2| - 2) 0 ^ 2)
  if d < 1 / 1000000 then max (max (|p.x + 4| - 2) (|p.y - 4| - 2)) (|p.z - 2| - 2) else d

/-- A red ball, a white and a pink wall, a green box, the white ground. -/
def roomThings (sqrt : ℚ → ℚ) : List Thing :=
  [⟨fun p => sqrt (p.x ^ 2 + p.y ^ 2 + (p.z - 2) ^ 2) - 2, ⟨255, 0, 0, 255⟩⟩, ⟨fun p => p.y + 4, ⟨255, 255, 255, 255⟩⟩, ⟨fun p => 4 - p.x, ⟨255, 0, 127, 255⟩⟩,
    ⟨boxDistance sqrt, ⟨0, 255, 0, 255⟩⟩, ⟨fun p => p.z - 3 / 100, ⟨255, 255, 255, 255⟩⟩]

/-- The error of a map at a voxel: where both maps know a distance and that of the tested map is not negative. -/
def errorIn {V : Type} (known : V → Option ℚ) (gt test : VLayer V) (g : Idx) : Option ℚ :=
  match (content gt g).bind known, (content test g).bind known with
  | some a, some b => if 0 ≤ b then some (b - a) else none
  | _, _ => none

/-- The distance of an observed voxel. -/
def observedEsdf (v : EsdfVoxel ℚ) : Option ℚ := if v.observed then some v.distance else none

/-- The root of the mean of the squares of a list, zero for the empty list; differences and squares are rounded by `rnd`, and so is the root. -/
def rootMeanSquare (rnd sqrt : ℚ → ℚ) (es : List ℚ) : ℚ :=
  if es = [] then 0 else rnd (sqrt ((es.map fun e => rnd (rnd e * rnd e)).sum / es.length))

end Vox.Spec
