/-
A server, its subscribers, and what it means that they have the same map.
-/
import Verif.Spec.LayerMsg
import Verif.Model.MapServer

namespace Vox.Spec

open Layer Grid LayerMsg MapServer

variable {V : Type}

/-- The copy has the same configuration, blocks and voxels. -/
structure Mirrors (A B : VLayer V) : Prop where
  cfg : B.cfg = A.cfg
  voxels : ∀ g, content B g = content A g
  blocks : ∀ i, Allocated B i ↔ Allocated A i

/-- Block `i` is flagged as changed for map publishing. -/
def MapFlagged (A : VLayer V) (i : Idx) : Prop := Sent A true i

/-- The map changed from `A` to `A'` such that every block now is flagged or, if not, was not flagged and is as before. -/
structure FlagsChanges (A A' : VLayer V) : Prop where
  cfg : A'.cfg = A.cfg
  blocks : ∀ i, MapFlagged A' i ∨ (¬ MapFlagged A i ∧ (Allocated A' i ↔ Allocated A i) ∧ ∀ g, blockOf A.cfg.vps g = i → content A' g = content A g)

/-- A proper map of the configuration whose voxels survive transmission. -/
structure Sound (T : VoxelType V) (cfg : Cfg) (A : VLayer V) : Prop where
  cfg : A.cfg = cfg
  wf : WellFormed A
  unique : (A.blocks.map (·.1)).Nodup
  transmits : Transmits T.codec A

/-- A proper map of the configuration. -/
structure SoundCopy (cfg : Cfg) (B : VLayer V) : Prop where
  cfg : B.cfg = cfg
  wf : WellFormed B
  unique : (B.blocks.map (·.1)).Nodup

/-- What can happen: the map changes, somebody subscribes (with some map of his own) or leaves, the map is published, the map is cleared. -/
inductive MapEvent (V : Type) where
  | change (A : VLayer V)
  | join (name : ℕ) (B : VLayer V)
  | leave (name : ℕ)
  | publish
  | clear

/-- The server's map and publisher, and the subscribers with their maps. -/
structure World (V : Type) where
  map : VLayer V
  pub : Publisher
  subs : List (ℕ × VLayer V)

/-- Every subscriber handles the message, if there is one. -/
def deliver (T : VoxelType V) (ar : Arith) : Option Msg → List (ℕ × VLayer V) → Outcome (List (ℕ × VLayer V))
  | none, subs => .ok subs
  | some m, subs => subs.mapM fun s => do
    let B ← mapCallback T ar m s.2
    pure (s.1, B)

/-- One event. Messages are delivered to all subscribers before the next event. -/
def World.step (T : VoxelType V) (ar : Arith) (w : World V) : MapEvent V → Outcome (World V)
  | .change A => .ok { w with map := A }
  | .join n B => .ok { w with subs := w.subs ++ [(n, B)] }
  | .leave n => .ok { w with subs := w.subs.eraseP fun s => s.1 == n }
  | .publish => do
    let r ← MapServer.publishMap T w.pub w.map w.subs.length false
    let subs ← deliver T ar r.1 w.subs
    pure ⟨w.map, r.2, subs⟩
  | .clear => do
    let r ← MapServer.clear T w.pub w.map w.subs.length
    let subs ← deliver T ar r.2.1 w.subs
    pure ⟨r.1, r.2.2, subs⟩

/-- All events in turn. -/
def World.run (T : VoxelType V) (ar : Arith) (w : World V) (es : List (MapEvent V)) : Outcome (World V) := es.foldlM (World.step T ar) w

/-- Every change of the map is flagged, maps are proper, and between two messages fewer subscribers leave than join, or none joins. `j`, `l`: how many joined and
left since the last message; `A`: the map. -/
def Orderly (T : VoxelType V) (cfg : Cfg) : ℕ → ℕ → VLayer V → List (MapEvent V) → Prop
  | _, _, _, [] => True
  | j, l, A, .change A' :: es => Sound T cfg A' ∧ FlagsChanges A A' ∧ Orderly T cfg j l A' es
  | j, l, A, .join _ B :: es => SoundCopy cfg B ∧ Orderly T cfg (j + 1) l A es
  | j, l, A, .leave _ :: es => Orderly T cfg j (l + 1) A es
  | j, l, A, .publish :: es => (j = 0 ∨ l < j) ∧ Orderly T cfg 0 0 A es
  | _, _, A, .clear :: es => Orderly T cfg 0 0 (Emptied A) es

end Vox.Spec
