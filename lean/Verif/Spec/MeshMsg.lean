/-
What mesh messages are meant to do: a display shows the meshes of the layer.
-/
import Verif.Model.MeshMsg

namespace Vox.Spec

open MC MeshInt MeshMsg

/-- Where marching cubes puts the vertices of block `i` (one axis): between the centre of its first cell and the centre of the first
cell of the next block, with a sixteenth of a cell to spare. `s` is the block edge, `N` the number of cells. -/
def InCells (s : ℚ) (N : ℕ) (i : ℤ) (x : ℚ) : Prop := (i : ℚ) * s + 7 / 16 * (s / N) ≤ x ∧ x ≤ ((i : ℚ) + 1) * s + 9 / 16 * (s / N)

/-- A finite float within `e` of a number. -/
def FloatNear (x : Fl) (v e : ℚ) : Prop := ∃ q, x = .fin q ∧ |q - v| ≤ e

/-- What a user sees of a block: nothing if there is no object. -/
def visible (d : Display) (i : Idx) : Mesh := (d.lookup i).getD Mesh.empty

/-- What a user should see of a block: its mesh as sent and drawn; nothing if there is no mesh. -/
def picture (edge inv : Fl) (mode : ColorMode) (ml : MeshMap) (i : Idx) : Outcome Mesh :=
  match ml.lookup i with
  | none => .ok Mesh.empty
  | some m => do
    let b ← encodeBlock inv mode i m
    drawn edge b

/-- The display is right at every block that has no pending update. -/
def UpToDate (edge inv : Fl) (mode : ColorMode) (ml : MeshMap) (d : Display) : Prop :=
  ∀ i, (∀ m, ml.lookup i = some m → m.updated = false) → picture edge inv mode ml i = .ok (visible d i)

/-- Block keys occur once. -/
def MeshKeys (ml : MeshMap) : Prop := (ml.map (·.1)).Nodup

/-- What happens between messages: a mesh is replaced and flagged, one is emptied and flagged, a block gets a new empty mesh that is not
flagged, a message is sent and received. -/
inductive MeshEvent where
  | store (i : Idx) (m : Mesh)
  | clear (i : Idx)
  | allocate (i : Idx)
  | send

/-- One event, on the layer of the sender and the display of the receiver. -/
def meshEvent (edge inv : Fl) (mode : ColorMode) (st : MeshMap × Display) : MeshEvent → Outcome (MeshMap × Display)
  | .store i m => .ok (setMesh (allocateMesh st.1 i) i { m with updated := true }, st.2)
  | .clear i => .ok (match st.1.lookup i with
    | none => st.1
    | some m => setMesh st.1 i { clearMesh m with updated := true }, st.2)
  | .allocate i => .ok (allocateMesh st.1 i, st.2)
  | .send => do
    let r ← generateMsg edge inv mode st.1
    let d ← receive st.2 r.1
    pure (r.2, d)

/-- The colour of a normal, up to the truncation to bytes. -/
def NormalColor (n : Vec3 ℚ) (c : Color) : Prop :=
  |(c.r.toNat : ℚ) - 255 * ((n.x + 1) / 2)| ≤ 1 + 1 / 2 ^ 10 ∧ |(c.g.toNat : ℚ) - 255 * ((n.y + 1) / 2)| ≤ 1 + 1 / 2 ^ 10 ∧
    |(c.b.toNat : ℚ) - 255 * ((n.z + 1) / 2)| ≤ 1 + 1 / 2 ^ 10 ∧ c.a = 255

end Vox.Spec
