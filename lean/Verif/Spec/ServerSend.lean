/-
When a server is able to send its meshes.
-/
import Verif.Spec.ServerMesh
import Verif.Lemmas.IndexFloat

namespace Vox.Spec

open Layer Grid ServerMesh MeshMsg

variable {V : Type}

/-- A square root with a relative error: at least half of the true one. -/
def NearSqrt (sq : ℚ → Fl) : Prop := ∀ x, 0 < x → ∃ q, sq x = .fin q ∧ 0 < q ∧ x ≤ 4 * (q * q)

/-- The blocks of a map are less than 2^18 voxels from the origin. -/
def NearOrigin (l : VLayer V) : Prop := ∀ i, (block? l i).isSome = true →
  (|(i.x : ℚ)| + 2) * l.cfg.vps ≤ 2 ^ 18 ∧ (|(i.y : ℚ)| + 2) * l.cfg.vps ≤ 2 ^ 18 ∧ (|(i.z : ℚ)| + 2) * l.cfg.vps ≤ 2 ^ 18

/-- A configuration that fits: the edge of the blocks is a float and its inverse is the one of the mesh layer, blocks have at least four voxels per side, vertices
have colours if the mode of the message shows them, and normals are computed with a square root if it uses them. -/
structure CanSend (env : Env V) (cfg : Cfg) : Prop where
  size : IndexF.Size cfg.blockSize
  inv : env.inv = .fin (IndexF.inverse cfg.blockSize)
  side : 4 ≤ cfg.vps
  colors : env.mode = .color ∨ env.mode = .lambertColor → env.useColor = true
  normals : env.mode = .lambert ∨ env.mode = .lambertColor → NearSqrt env.E.sq

/-- During a run the map stays near the origin. -/
def StaysNear (env : Env V) (s₀ : State V) (es : List (Event V)) : Prop := ∀ es₁ s₁, es₁ <+: es → ServerRun env s₀ es₁ s₁ → NearOrigin s₁.map

end Vox.Spec
