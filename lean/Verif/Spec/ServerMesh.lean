/-
What the mesh of a server has to show.
-/
import Verif.Model.ServerMesh
import Verif.Spec.Export
import Verif.Spec.MeshOps
import Verif.Spec.LayerMsg
import Verif.Spec.Ply

namespace Vox.Spec

open Layer Grid MC MeshInt ServerMesh PlySpec

variable {V : Type}

/-- What a mesh layer shows at a block; the "updated" mark is not part of it. -/
def shownMesh (ml : MeshMap) (i : Idx) : Mesh :=
  match ml.lookup i with
  | none => Mesh.empty
  | some m => { m with updated := false }

/-- The cubes of a block, once each: the allocated voxels of the block are their lower corners. -/
def CubesOfBlock (l : VLayer V) (i : Idx) (cs : List Idx) : Prop :=
  cs.Nodup ∧ ∀ c, c ∈ cs ↔ (content l c).isSome = true ∧ blockOf l.cfg.vps c = i

/-- A mesh that shows the surface of a map in a block: its triangles are those of the cubes of the block. -/
def ShowsBlock (useColor : Bool) (sdf : V → Option ℚ) (l : VLayer V) (i : Idx) (m : Mesh) : Prop :=
  TriangleSoup useColor m ∧ ∃ cs, CubesOfBlock l i cs ∧ m.vertices = (surfaceIn l sdf cs).map fun p => p.map .fin

/-- A file that shows the connected surface of a map (as in C100): the vertices are points of the surface, one for each cell that the surface meets (`K` is
the cell of a point), and the faces are the triangles of the surface that do not collapse, in the same order. -/
def FileShows (sdf : V → Option ℚ) (l : VLayer V) (K : Vec3 Fl → Idx) (t : List Char) : Prop :=
  ∃ (cs : List Idx) (ps : List Pt) (fs : List (List ℕ)) (c : Content) (sh : Fl → Fl), EachCubeOnce l cs ∧ readPly t = some c ∧ SixDigits sh ∧
    columnOf c "vertex" "x" = some (ps.map fun p => [sh (.fin p.x)]) ∧
    columnOf c "vertex" "y" = some (ps.map fun p => [sh (.fin p.y)]) ∧
    columnOf c "vertex" "z" = some (ps.map fun p => [sh (.fin p.z)]) ∧
    columnOf c "face" "vertex_indices" = (if fs = [] then none else some (fs.map fun f => f.map fun (i : ℕ) => .fin i)) ∧
    (∀ p ∈ ps, p ∈ surfaceIn l sdf cs) ∧
    (ps.map fun p => K (p.map .fin)) = firstSeen ((surfaceIn l sdf cs).map fun p => K (p.map .fin)) ∧
    (∀ f ∈ fs, f.length = 3 ∧ ∀ i ∈ f, i < ps.length) ∧
    triples (fs.flatten.map fun i => (ps[i]?).map fun p => K (p.map .fin)) =
      (triples ((surfaceIn l sdf cs).map fun p => some (K (p.map .fin)))).filter (fun t => decide (Distinct3 t))

/-- Maps on which the meshing is defined. -/
structure MapSound (l : VLayer V) : Prop where
  wf : WellFormed l
  nodup : (l.blocks.map (·.1)).Nodup
  range : ∀ i, (block? l i).isSome = true → BlockInRange l i

/-- A change that marks what it changes: integrations (C93, C95, C96) and loads (C101). Blocks are not removed, and a block that is not marked
afterwards was there before, not marked, with the same voxels. -/
structure MarkedChange (l l' : VLayer V) : Prop where
  cfg : l'.cfg = l.cfg
  sound : MapSound l'
  keeps : ∀ i, (block? l i).isSome = true → (block? l' i).isSome = true
  marked : ∀ i b', block? l' i = some b' → b'.updated.get .mesh = false →
    ∃ b, block? l i = some b ∧ b.updated.get .mesh = false ∧ b.voxels = b'.voxels

/-- Blocks of a message that lie in the range of the indices. -/
def InRange (l : VLayer V) (m : LayerMsg.Msg) : Prop := ∀ b ∈ m.blocks, BlockInRange l b.1

/-- What is asked of an operation in a state. -/
def Admissible (env : Env V) (s : State V) : Event V → Prop
  | .change new => MarkedChange s.map new
  | .cloud new _ => MarkedChange s.map new
  | .receive m => InRange s.map m ∧ Decodes env.T.codec
  | _ => True

/-- Runs of a server, with the operations in their order. -/
inductive ServerRun (env : Env V) (s₀ : State V) : List (Event V) → State V → Prop where
  | start : ServerRun env s₀ [] s₀
  | step {es : List (Event V)} {s s' : State V} (e : Event V) (h : ServerRun env s₀ es s) (ha : Admissible env s e)
      (hs : ServerMesh.step env s e = .ok s') : ServerRun env s₀ (es ++ [e]) s'

/-- A server that has just been started. -/
def Fresh (s : State V) : Prop := WellFormed s.map ∧ s.map.blocks = [] ∧ s.meshes = []

/-- No message resets the map. -/
def NoReset (es : List (Event V)) : Prop := ∀ m, Event.receive m ∈ es → m.action ≠ 2

/-- No map comes by message. -/
def NoMessage (es : List (Event V)) : Prop := ∀ m, Event.receive m ∉ es

end Vox.Spec
