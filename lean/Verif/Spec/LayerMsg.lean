/-
Which blocks a layer message carries, and what the receiver's layer should be.
-/
import Verif.Spec.Merge
import Verif.Model.Voxel

namespace Vox.Spec

open Layer Grid

variable {V : Type}

/-- Block `i` of `A` is sent: all allocated blocks, or those whose map flag is set. -/
def Sent (A : VLayer V) (onlyUpdated : Bool) (i : Idx) : Prop :=
  ∃ h u, status A i = some (h, u) ∧ (onlyUpdated = true → u.map = true)

open Classical in
/-- The receiver's voxels are the sender's in the blocks of `S`, and as in `B` elsewhere. -/
def Overwrites (S : Idx → Prop) (A B B' : VLayer V) : Prop :=
  ∀ g, content B' g = if S (blockOf A.cfg.vps g) then content A g else content B g

open Classical in
/-- Block states: those of `B`, and fresh ones (no data mark, no flags) for blocks of `S` new to `B`. -/
def KeepsStates (S : Idx → Prop) (B B' : VLayer V) : Prop :=
  ∀ i, status B' i = if S i then some ((status B i).getD (false, Flags.ofBool false)) else status B i

/-- The receiver took over the blocks of `S`: configuration and structure intact, voxels and states as above. -/
structure Received (S : Idx → Prop) (A B B' : VLayer V) : Prop where
  cfg : B'.cfg = B.cfg
  wf : WellFormed B'
  unique : (B'.blocks.map (·.1)).Nodup
  voxels : Overwrites S A B B'
  states : KeepsStates S B B'

/-- The layer with all blocks removed. -/
def Emptied (B : VLayer V) : VLayer V := ⟨B.cfg, []⟩

/-- Every block of the layer is restored by the integer serialization of its voxel type (C08-C10). -/
def Transmits (c : Serial.Codec V) (A : VLayer V) : Prop :=
  ∀ i b, A.blocks.lookup i = some b → ∃ ws, Serial.serialize c b.voxels = .ok ws ∧ Serial.deserialize c b.voxels.length ws = .ok b.voxels

/-- Every payload of the right length is decoded (C11). -/
def Decodes (c : Serial.Codec V) : Prop :=
  ∀ n data, data.length = n * c.words → ∃ r, Serial.deserialize c n data = .ok r ∧ r.length = n

end Vox.Spec
