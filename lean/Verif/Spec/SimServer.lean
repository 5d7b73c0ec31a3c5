/-
Viewpoints away from all objects.
-/
import Verif.Spec.SimCloud
import Verif.Model.SimServer

namespace Vox.Spec

open Sim Geo

variable {F : Type} [Field F] [LinearOrder F]

/-- Not inside any object, and at least `m` from every point of every surface. -/
def KeepsAway (objects : List (Obj F)) (m : F) (p : Vec3 F) : Prop :=
  ∀ o ∈ objects, ¬ Inner o.shape p ∧ ∀ q, OnSurface o.shape q → m ^ 2 ≤ sqDist p q

/-- Componentwise between the corners of a box. -/
def WithinBox (lo hi p : Vec3 F) : Prop := (lo.x ≤ p.x ∧ p.x ≤ hi.x) ∧ (lo.y ≤ p.y ∧ p.y ≤ hi.y) ∧ (lo.z ≤ p.z ∧ p.z ≤ hi.z)

/-- The objects that report exact distances: no cylinders. -/
def Exact : Shape F → Prop
  | .cylinder _ _ _ => False
  | s => Proper s

end Vox.Spec
