/-
What the displays should show.
-/
import Verif.Model.MeshDisplay
import Verif.Spec.MeshMsg

namespace Vox.MeshDisplay

open MC MeshMsg

/-- The messages that display `k` could place since it was last reset, the last one first. -/
def heard {P : Type} (k : ℕ) : List (Event P) → List (P × Msg)
  | es => es.foldl (fun h e => match e with
    | .message j (some p) m => if j = k then (p, m) :: h else h
    | .message _ none _ => h
    | .reset j => if j = k then [] else h) []

/-- What is to be seen at block `i` after messages (the last one first): the picture of the last block for `i` sent, nothing if there is
none. -/
def lastPicture {P : Type} (i : Idx) : List (P × Msg) → Outcome Mesh
  | [] => .ok Mesh.empty
  | h :: t => match (h.2.blocks.filter fun b => b.index = i).getLast? with
    | some b => drawn h.2.edge b
    | none => lastPicture i t

/-- Every block of every message that can be placed can be drawn. -/
def Drawable {P : Type} (es : List (Event P)) : Prop :=
  ∀ k p m, Event.message k (some p) m ∈ es → ∀ b ∈ m.blocks, ∃ x, drawn m.edge b = .ok x

/-- The display that an event concerns. -/
def Event.display {P : Type} : Event P → ℕ
  | .message k _ _ => k
  | .reset k => k

/-- A sender with display `k`, among other displays: an event of the sender, or one of the scene. -/
inductive Joint (P : Type) where
  | here (e : Spec.MeshEvent) (p : P)
  | other (e : Event P)

/-- One event of the sender with display `k`: every message sent is placed, with pose `p`. -/
def joint {P : Type} (edge inv : Fl) (mode : ColorMode) (origin : P) (k : ℕ) (st : MeshInt.MeshMap × Scene P) : Joint P → Outcome (MeshInt.MeshMap × Scene P)
  | .here .send p => do
    let r ← generateMsg edge inv mode st.1
    let s ← message origin st.2 k (some p) r.1
    pure (r.2, s)
  | .here e _ => do
    let r ← Spec.meshEvent edge inv mode (st.1, []) e
    pure (r.1, st.2)
  | .other e => do
    let s ← step origin st.2 e
    pure (st.1, s)

end Vox.MeshDisplay
