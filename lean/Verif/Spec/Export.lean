/-
Specification of exported layers: what a file with the surface of a layer has to contain.
-/
import Verif.Lemmas.MeshIntegrator
import Verif.Spec.MeshMsg

namespace Vox.Spec

open Grid MC MeshInt

variable {V : Type}

/-- The cubes of a layer, once each: every allocated voxel is the lower corner of one. -/
def EachCubeOnce (l : VLayer V) (cs : List Idx) : Prop := cs.Nodup ∧ ∀ c, c ∈ cs ↔ (content l c).isSome = true

/-- The surface of a layer in the given cubes: the corners of the triangles of each, three by three. -/
noncomputable def surfaceIn (l : VLayer V) (sdf : V → Option ℚ) (cs : List Idx) : List Pt :=
  cs.flatMap fun c => (layerTriangles l sdf c).flatMap fun t => [surfacePoint l sdf t.1, surfacePoint l sdf t.2.1, surfacePoint l sdf t.2.2]

/-- The layer has a surface: one of its cubes has a triangle. -/
def HasSurface (l : VLayer V) (sdf : V → Option ℚ) : Prop := ∃ c, layerTriangles l sdf c ≠ []

/-- The traversal of a hash map visits every entry once, in some order. -/
def AnyOrder (iter : MeshMap → MeshMap) : Prop := ∀ ml, (iter ml).Perm ml

end Vox.Spec
