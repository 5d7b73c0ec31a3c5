/-
Specification for combining meshes.
-/
import Verif.Model.MarchingCubes
import Verif.Model.Arith

namespace Vox.Spec

open MC

/-- The positions that the triangle indices refer to, three per triangle (`none`: index without vertex). -/
def positions (m : Mesh) : List (Option (Vec3 Fl)) := m.indices.map fun i => m.vertices[i]?

/-- All indices refer to vertices and come in threes. -/
def ValidIndices (m : Mesh) : Prop := m.indices.length % 3 = 0 ∧ ∀ i ∈ m.indices, i < m.vertices.length

/-- A mesh as a block meshing produces it: consecutive indices, three per triangle, a normal for every vertex, a
colour for every vertex if there are colours at all. -/
structure TriangleSoup (colored : Bool) (m : Mesh) : Prop where
  three : m.vertices.length % 3 = 0
  indices : m.indices = List.range m.vertices.length
  normals : m.normals.length = m.vertices.length
  colors : m.colors.length = if colored then m.vertices.length else 0

/-- Consecutive triples. -/
def triples {α : Type} : List α → List (α × α × α)
  | a :: b :: c :: r => (a, b, c) :: triples r
  | _ => []

/-- Three different things. -/
def Distinct3 {α : Type} (t : α × α × α) : Prop := t.1 ≠ t.2.1 ∧ t.2.1 ≠ t.2.2 ∧ t.1 ≠ t.2.2

instance {α : Type} [DecidableEq α] (t : α × α × α) : Decidable (Distinct3 t) := inferInstanceAs (Decidable (_ ∧ _ ∧ _))

/-- The elements in order of first occurrence. -/
def firstSeen {α : Type} [DecidableEq α] (l : List α) : List α :=
  l.foldl (fun acc a => if a ∈ acc then acc else acc ++ [a]) []

/-- The cells of the corners of the triangles of a mesh, where `cell` gives the cell of a vertex. -/
def cellTriangles (cell : Vec3 Fl → Idx) (m : Mesh) : List (Option Idx × Option Idx × Option Idx) :=
  triples (m.indices.map fun i => (m.vertices[i]?).map cell)

/-- The data of the first vertex in a cell. -/
def firstIn {α : Type} (cell : Vec3 Fl → Idx) (c : Idx) (l : List (Vec3 Fl × α)) : Option α :=
  (l.find? fun p => decide (cell p.1 = c)).map (·.2)

/-- A vector scaled to length one; the z axis if its length is at most 1e-6 (or unknown). -/
def unitNormal (F : Arith) (n : Vec3 Fl) : Vec3 Fl :=
  if Fl.lt (.fin (1 / 1000000)) (F.norm n) then ⟨F.div n.x (F.norm n), F.div n.y (F.norm n), F.div n.z (F.norm n)⟩
  else ⟨.fin 0, .fin 0, .fin 1⟩

/-- A sum that may have no terms yet. -/
def plusNormal (F : Arith) (acc : Option (Vec3 Fl)) (n : Vec3 Fl) : Option (Vec3 Fl) :=
  match acc with
  | none => some n
  | some a => some ⟨F.add a.x n.x, F.add a.y n.y, F.add a.z n.z⟩

/-- The normals of the vertices of a mesh in a cell. -/
def normalsIn (cell : Vec3 Fl → Idx) (c : Idx) (m : Mesh) : List (Vec3 Fl) :=
  ((m.vertices.zip m.normals).filter fun p => decide (cell p.1 = c)).map (·.2)

/-- The combined normal of a cell: the normals of each mesh are added to what the meshes before it gave, and the
sum is scaled to length one after each mesh (that has vertices). -/
def cellNormal (F : Arith) (cell : Vec3 Fl → Idx) (c : Idx) (ms : List Mesh) : Option (Vec3 Fl) :=
  ms.foldl (fun acc m => if m.vertices = [] then acc
    else ((normalsIn cell c m).foldl (plusNormal F) acc).map (unitNormal F)) none

end Vox.Spec
