/-
A mesh layer as a finite map (C111).
-/
import Verif.Model.MeshLayer

namespace Vox.Spec

open Layer MC MeshInt

/-- The meshes of a layer as a map from block indices. -/
def meshAt (s : MeshLayer.State) (i : Idx) : Option Mesh := (s.map.lookup i).bind fun h => (s.heap[h]?).map (·.mesh)

/-- A layer with its meshes by value, as the other models have it. -/
def meshValues (s : MeshLayer.State) : MeshMap := s.map.map fun e => (e.1, ((s.heap[e.2]?).map (·.mesh)).getD Mesh.empty)

/-- The bytes of a mesh: those of its four vectors with their elements, and of its other members. -/
def trueBytes (m : Mesh) : ℕ :=
  4 * 24 + m.vertices.length * 12 + m.normals.length * 12 + m.colors.length * 4 + m.indices.length * 8 + (4 + 12 + 1)

end Vox.Spec
