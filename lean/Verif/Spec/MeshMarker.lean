/-
Specification for the markers and point clouds of a mesh layer.
-/
import Verif.Spec.ColorMap
import Verif.Spec.MeshMsg
import Verif.Spec.MeshOps

namespace Vox.Spec

open MC MeshMsg MeshInt

/-- A channel between `lo` and 1. -/
def Channel (lo : ℚ) (x : Fl) : Prop := ∃ q, x = .fin q ∧ lo ≤ q ∧ q ≤ 1

/-- What the colour (with its alpha channel) of a vertex may be in each mode: its own colour, its normal moved to the unit cube, grey, or a
shading no darker than the ambient light. -/
def Tint (m : Mesh) (k : ℕ) (c : Vec3 Fl × Fl) : ColorMode → Prop
  | .color => ∃ o, m.colors[k]? = some o ∧ FloatNear c.1.x ((o.r.toNat : ℚ) / 255) (1 / 2 ^ 25) ∧
      FloatNear c.1.y ((o.g.toNat : ℚ) / 255) (1 / 2 ^ 25) ∧ FloatNear c.1.z ((o.b.toNat : ℚ) / 255) (1 / 2 ^ 25) ∧
      FloatNear c.2 ((o.a.toNat : ℚ) / 255) (1 / 2 ^ 25)
  | .normals => ∃ n : Vec3 ℚ, m.normals[k]? = some (n.map .fin) ∧ FloatNear c.1.x (n.x / 2 + 1 / 2) (1 / 2 ^ 23) ∧
      FloatNear c.1.y (n.y / 2 + 1 / 2) (1 / 2 ^ 23) ∧ FloatNear c.1.z (n.z / 2 + 1 / 2) (1 / 2 ^ 23) ∧ c.2 = .fin 1
  | .gray => c = (⟨.fin (1 / 2), .fin (1 / 2), .fin (1 / 2)⟩, .fin 1)
  | .height => ∃ v z, m.vertices[k]? = some v ∧ v.z = .fin z ∧ FloatNear c.1.x (hueRed (clamp01 ((z + 1) / 11))) (1 / 254) ∧
      FloatNear c.1.y (hueGreen (clamp01 ((z + 1) / 11))) (1 / 254) ∧ FloatNear c.1.z (hueBlue (clamp01 ((z + 1) / 11))) (1 / 254) ∧ c.2 = .fin 1
  | .lambert | .lambertColor => Channel (1 / 5) c.1.x ∧ Channel (1 / 5) c.1.y ∧ Channel (1 / 5) c.1.z ∧ c.2 = .fin 1

/-- The components of a normal, up to rounding. -/
def NearUnit (n : Vec3 Fl) : Prop := ∃ w : Vec3 ℚ, n = w.map .fin ∧ |w.x| ≤ 257 / 256 ∧ |w.y| ≤ 257 / 256 ∧ |w.z| ≤ 257 / 256

/-- A mesh that has what a colour mode reads: finite heights, a colour and a normal for every vertex. -/
structure Markable (mode : ColorMode) (m : Mesh) : Prop where
  heights : mode = .height → ∀ v ∈ m.vertices, ∃ z, v.z = .fin z
  colors : mode = .color ∨ mode = .lambertColor → m.vertices.length ≤ m.colors.length
  normals : mode = .normals ∨ mode = .lambert ∨ mode = .lambertColor →
    m.vertices.length ≤ m.normals.length ∧ ∀ n ∈ m.normals, NearUnit n

/-- The vertices of a mesh layer by mesh and number. -/
def cornersOf (ml : MeshMap) : List (Mesh × ℕ) := ml.flatMap fun e => (List.range e.2.vertices.length).map fun k => (e.2, k)

/-- The triangles of a mesh layer: the corners its indices name. -/
def facesOf (ml : MeshMap) : List (Option (Vec3 Fl) × Option (Vec3 Fl) × Option (Vec3 Fl)) := ml.flatMap fun e => triples (positions e.2)

end Vox.Spec
