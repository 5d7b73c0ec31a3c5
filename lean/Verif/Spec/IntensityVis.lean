/-
What recolouring a mesh message and sampling an image should do.
-/
import Verif.Model.IntensityVis
import Verif.Spec.Grid

namespace Vox.IntensityVis

open Layer Grid MeshMsg

/-- The colour of a vertex of a message; a missing channel counts as zero. -/
def vertexBytes (b : MeshBlock) (k : ℕ) : Vec3 (BitVec 8) := ⟨b.r.getD k 0, b.g.getD k 0, b.b.getD k 0⟩

/-- A block of a message whose lists of coordinates have one length. -/
def Complete (b : MeshBlock) : Prop := b.y.length = b.x.length ∧ b.z.length = b.x.length

/-- The numbers sent for a vertex. -/
def Sends (b : MeshBlock) (k : ℕ) (x y z : ℕ) : Prop := b.x[k]? = some x ∧ b.y[k]? = some y ∧ b.z[k]? = some z

/-- What becomes of the colour `old` where the voxel `o` of the intensity layer is found: the colour of its intensity if it has been measured. -/
def Repainted (look : Fl → Outcome Color) (o : Option (IntensityVoxel Fl)) (old new : Vec3 (BitVec 8)) : Prop :=
  (∀ v, o = some v → Fl.lt (.fin 0) v.weight = true → ∃ c, look v.intensity = .ok c ∧ new = ⟨c.r, c.g, c.b⟩) ∧
    ((∀ v, o = some v → Fl.lt (.fin 0) v.weight = false) → new = old)

/-- The claim on a recoloured block: vertex `k`, displayed at `p`, has the colour of the intensity measured in the
voxel `p` lies in (well inside). -/
def ShowsIntensity (look : Fl → Outcome Color) (l : VLayer (IntensityVoxel Fl)) (edge : Fl) (b b' : MeshBlock) : Prop :=
  ∀ (k : ℕ) (p : Pt) (g : Idx), decodeVertex edge b k = .ok ⟨.fin p.x, .fin p.y, .fin p.z⟩ →
    Vec3.All₂ (fun (c : ℤ) (q : ℚ) => ((c : ℚ) + 1 / 4) * l.cfg.voxelSize ≤ q ∧ q ≤ ((c : ℚ) + 3 / 4) * l.cfg.voxelSize) g p →
    Repainted look (Spec.content l g) (vertexBytes b k) (vertexBytes b' k)

end Vox.IntensityVis
