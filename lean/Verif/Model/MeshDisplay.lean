/-
The mesh displays of a visualiser: voxblox_rviz_plugin/src/voxblox_mesh_display.cc and voxblox_rviz_plugin/src/voxblox_mesh_visual.cc, with
the part of the scene manager of Ogre that they use.
-/
import Verif.Model.MeshMsg
import Verif.Model.Ply

namespace Vox.MeshDisplay

open MeshMsg

/-- `std::to_string` of an integer, voxblox_rviz_plugin/src/voxblox_mesh_visual.cc:117-120. -/
def intText (z : ℤ) : List Char := if z < 0 then '-' :: Ply.natText z.natAbs else Ply.natText z.natAbs

/-- voxblox_rviz_plugin/src/voxblox_mesh_visual.cc:117-120 `object_name`. -/
def objectName (i : Idx) (n : ℕ) : List Char :=
  intText i.x ++ ' ' :: (intText i.y ++ ' ' :: (intText i.z ++ ' ' :: Ply.natText n))

/-- voxblox_rviz_plugin/include/voxblox_rviz_plugin/voxblox_mesh_visual.h:12-32 `VoxbloxMeshVisual`: instance number, objects, and the pose
of the frame node (position and orientation together, of any type). -/
structure Visual (P : Type) where
  number : ℕ
  shown : Display
  pose : P

/-- What the displays of one process share: voxblox_rviz_plugin/src/voxblox_mesh_visual.cc:12 `instance_counter_`, the names of the objects
in the scene manager (:121, :25, :109), the number of frame nodes (:17); and
voxblox_rviz_plugin/include/voxblox_rviz_plugin/voxblox_mesh_display.h:31 `visual_` of each display. -/
structure Scene (P : Type) where
  counter : ℕ
  names : List (List Char)
  nodes : ℕ
  visuals : ℕ → Option (Visual P)

/-- voxblox_rviz_plugin/src/voxblox_mesh_visual.cc:12, voxblox_rviz_plugin/src/voxblox_mesh_display.cc:13: before the first message. -/
def Scene.start (P : Type) : Scene P := ⟨0, [], 0, fun _ => none⟩

/-- voxblox_rviz_plugin/src/voxblox_mesh_visual.cc:14-19, the constructor of a visual: the counter is an `unsigned int`. A new node has
the pose `origin`. -/
def Scene.create {P : Type} (s : Scene P) (origin : P) : Visual P × Scene P :=
  (⟨s.counter, [], origin⟩, { s with counter := (s.counter + 1) % 2 ^ 32, nodes := s.nodes + 1 })

/-- The visual of display `k`, made if there is none: voxblox_rviz_plugin/src/voxblox_mesh_display.cc:38-41. -/
def Scene.visual {P : Type} (s : Scene P) (origin : P) (k : ℕ) : Visual P × Scene P :=
  match s.visuals k with
  | some v => (v, s)
  | none => s.create origin

/-- One block, voxblox_rviz_plugin/src/voxblox_mesh_visual.cc:30-160: `createManualObject` throws if the name is taken. -/
def showBlock (edge : Fl) (n : ℕ) (s : List (List Char) × Display) (b : MeshBlock) : Outcome (List (List Char) × Display) := do
  let d ← receiveBlock edge s.2 b
  match s.2.lookup b.index with
  | some _ => pure (if b.x.isEmpty then s.1.erase (objectName b.index n) else s.1, d)
  | none => do
    Outcome.check (decide (objectName b.index n ∉ s.1))
    pure (objectName b.index n :: s.1, d)

/-- voxblox_rviz_plugin/src/voxblox_mesh_display.cc:24-47 `processMessage` of display `k`; `p` is the answer of `getTransform`. -/
def message {P : Type} (origin : P) (s : Scene P) (k : ℕ) (p : Option P) (msg : Msg) : Outcome (Scene P) :=
  match p with
  | none => pure s
  | some p => do
    let c := s.visual origin k
    let r ← msg.blocks.foldlM (showBlock msg.edge c.1.number) (c.2.names, c.1.shown)
    pure { c.2 with names := r.1, visuals := Function.update c.2.visuals k (some { c.1 with shown := r.2, pose := p }) }

/-- voxblox_rviz_plugin/src/voxblox_mesh_display.cc:19-22 `reset` of display `k`, with the destructor of the visual,
voxblox_rviz_plugin/src/voxblox_mesh_visual.cc:21-27, which does not destroy the node. -/
def reset {P : Type} (s : Scene P) (k : ℕ) : Scene P :=
  match s.visuals k with
  | none => s
  | some v => { s with
      names := v.shown.foldl (fun ns e => ns.erase (objectName e.1 v.number)) s.names
      visuals := Function.update s.visuals k none }

/-- What happens to the displays: voxblox_rviz_plugin/src/voxblox_mesh_display.cc:19-47. -/
inductive Event (P : Type) where
  | message (k : ℕ) (p : Option P) (msg : Msg)
  | reset (k : ℕ)

/-- voxblox_rviz_plugin/src/voxblox_mesh_display.cc:19-47, one event. -/
def step {P : Type} (origin : P) (s : Scene P) : Event P → Outcome (Scene P)
  | .message k p msg => message origin s k p msg
  | .reset k => pure (reset s k)

/-- A history, from the start: voxblox_rviz_plugin/src/voxblox_mesh_display.cc:19-47. -/
def run {P : Type} (origin : P) (es : List (Event P)) : Outcome (Scene P) := es.foldlM (step origin) (Scene.start P)

end Vox.MeshDisplay
