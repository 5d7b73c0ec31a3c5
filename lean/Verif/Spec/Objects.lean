/-
Solids, their surfaces and signed distances, and first hits of rays.
-/
import Verif.Model.Objects

namespace Vox.Spec

open Sim

variable {F : Type} [Field F] [LinearOrder F]

/-- A square root. -/
def IsSqrt (sqrt : F → F) : Prop := ∀ x, 0 ≤ x → 0 ≤ sqrt x ∧ sqrt x * sqrt x = x

/-- The squared distance of two points. -/
def sqDist (a b : Vec3 F) : F := (a.x - b.x) ^ 2 + (a.y - b.y) ^ 2 + (a.z - b.z) ^ 2

/-- The squared distance from the vertical axis through `c`. -/
def sqAxial (c p : Vec3 F) : F := (p.x - c.x) ^ 2 + (p.y - c.y) ^ 2

/-- `δ` is the Euclidean distance of `p` to the set `S`. -/
structure IsDistance (S : Vec3 F → Prop) (p : Vec3 F) (δ : F) : Prop where
  nonneg : 0 ≤ δ
  attained : ∃ s, S s ∧ sqDist p s = δ ^ 2
  least : ∀ s, S s → δ ^ 2 ≤ sqDist p s

/-- The closed solid. -/
def Solid : Shape F → Vec3 F → Prop
  | .sphere c r, p => sqDist p c ≤ r ^ 2
  | .cube c s, p => |p.x - c.x| ≤ s.x / 2 ∧ |p.y - c.y| ≤ s.y / 2 ∧ |p.z - c.z| ≤ s.z / 2
  | .plane c n, p => n.x * (p.x - c.x) + n.y * (p.y - c.y) + n.z * (p.z - c.z) ≤ 0
  | .cylinder c r h, p => sqAxial c p ≤ r ^ 2 ∧ |p.z - c.z| ≤ h / 2

/-- Its inner points. -/
def Inner : Shape F → Vec3 F → Prop
  | .sphere c r, p => sqDist p c < r ^ 2
  | .cube c s, p => |p.x - c.x| < s.x / 2 ∧ |p.y - c.y| < s.y / 2 ∧ |p.z - c.z| < s.z / 2
  | .plane c n, p => n.x * (p.x - c.x) + n.y * (p.y - c.y) + n.z * (p.z - c.z) < 0
  | .cylinder c r h, p => sqAxial c p < r ^ 2 ∧ |p.z - c.z| < h / 2

/-- Its surface. -/
def OnSurface (o : Shape F) (p : Vec3 F) : Prop := Solid o p ∧ ¬ Inner o p

/-- `δ` has the sign of a signed distance: negative inside, zero on the surface, positive outside. -/
structure HasSign (o : Shape F) (p : Vec3 F) (δ : F) : Prop where
  inner : Inner o p → δ < 0
  surface : OnSurface o p → δ = 0
  outer : ¬ Solid o p → 0 < δ

/-- Proper sizes. -/
def Proper : Shape F → Prop
  | .sphere _ r => 0 < r
  | .cube _ s => 0 < s.x ∧ 0 < s.y ∧ 0 < s.z
  | .plane _ n => n.x ^ 2 + n.y ^ 2 + n.z ^ 2 = 1
  | .cylinder _ r h => 0 < r ∧ 0 < h

/-- The point of the ray at parameter `t`. -/
def rayPoint (origin dir : Vec3 F) (t : F) : Vec3 F := ⟨origin.x + t * dir.x, origin.y + t * dir.y, origin.z + t * dir.z⟩

/-- A hit is a point of the surface on the ray within the range. -/
def SoundHit (o : Shape F) (origin dir : Vec3 F) (maxDist : F) : Ray F → Prop
  | .miss => True
  | .hit p t => p = rayPoint origin dir t ∧ 0 ≤ t ∧ t ≤ maxDist ∧ OnSurface o p
  | .nan => False

/-- The first point of the surface on the ray, if there is one within the range; `strict` excludes the end of the range. -/
def FirstHit (o : Shape F) (origin dir : Vec3 F) (maxDist : F) (strict : Bool) : Ray F → Prop
  | .miss => ∀ s, 0 ≤ s → (if strict then s < maxDist else s ≤ maxDist) → ¬ OnSurface o (rayPoint origin dir s)
  | .hit p t => p = rayPoint origin dir t ∧ 0 ≤ t ∧ (if strict then t < maxDist else t ≤ maxDist) ∧ OnSurface o p ∧
      ∀ s, 0 ≤ s → s < t → ¬ OnSurface o (rayPoint origin dir s)
  | .nan => False

end Vox.Spec
