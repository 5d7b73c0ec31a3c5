/-
Specification of a layer as a mathematical finite map. Independent of the association-list model.
-/
import Verif.Model.Layer
import Mathlib.Data.Set.Card

namespace Vox.Spec

open Vox.Layer

variable {V : Type}

/-- A finite map from block index to block. -/
abbrev FMap (V : Type) := Idx → Option (Block ℚ V)

/-- User-visible operations. `alloc i f` gets or allocates the block and mutates it through the returned
pointer; `allocNew` is the "new block" call; `insert` inserts a given block; `modify` mutates through a
lookup, if there is a block; `get` looks up and may find nothing, `deref` demands the block. -/
inductive Op (V : Type) where
  | alloc (i : Idx) (f : Block ℚ V → Block ℚ V)
  | allocNew (i : Idx) (f : Block ℚ V → Block ℚ V)
  | insert (i : Idx) (b : Block ℚ V)
  | modify (i : Idx) (f : Block ℚ V → Block ℚ V)
  | remove (i : Idx)
  | removeAll
  | has (i : Idx)
  | get (i : Idx)
  | deref (i : Idx)
  | count

/-- What an operation shows to the caller. -/
inductive Obs (V : Type) where
  | none
  | block (b : Option (Block ℚ V))
  | flag (b : Bool)
  | num (n : ℕ)
deriving DecidableEq

/-- The specification: the operations on a finite map. A new block consists of default voxels and starts
at index times block size. In debug builds creating a block over an existing one aborts; in release
builds the existing block is kept. -/
noncomputable def specStep (dbg : Bool) (cfg : Cfg) (dflt : V) (m : FMap V) : Op V → Outcome (FMap V × Obs V)
  | .alloc i f =>
    let b := (m i).getD (Block.new dflt cfg.vps cfg.voxelSize
      ⟨i.x * (cfg.voxelSize * cfg.vps), i.y * (cfg.voxelSize * cfg.vps), i.z * (cfg.voxelSize * cfg.vps)⟩)
    .ok (Function.update m i (some (f b)), .block (some b))
  | .allocNew i f =>
    match m i with
    | some b => if dbg then .fatal else .ok (Function.update m i (some (f b)), .block (some b))
    | none =>
      let b := Block.new dflt cfg.vps cfg.voxelSize
        ⟨i.x * (cfg.voxelSize * cfg.vps), i.y * (cfg.voxelSize * cfg.vps), i.z * (cfg.voxelSize * cfg.vps)⟩
      .ok (Function.update m i (some (f b)), .block (some b))
  | .insert i b =>
    match m i with
    | some _ => if dbg then .fatal else .ok (m, .none)
    | none => .ok (Function.update m i (some b), .none)
  | .modify i f => .ok (Function.update m i ((m i).map f), .none)
  | .remove i => .ok (Function.update m i none, .none)
  | .removeAll => .ok (fun _ => none, .none)
  | .has i => .ok (m, .flag (m i).isSome)
  | .get i => .ok (m, .block (m i))
  | .deref i =>
    match m i with
    | some b => .ok (m, .block (some b))
    | none => .fatal
  | .count => .ok (m, .num (Set.ncard {i | m i ≠ none}))

/-- The same operations performed by the modelled code. -/
def codeStep (dbg : Bool) (cfg : Cfg) (dflt : V) (s : St V) : Op V → Outcome (St V × Obs V)
  | .alloc i f => do
    let (s', p) ← allocateBlockPtr dbg cfg dflt s i
    pure ({ s' with mem := s'.mem.write p f }, .block (some (s'.mem.heap p)))
  | .allocNew i f => do
    let (s', p) ← allocateNewBlock dbg cfg dflt s i
    pure ({ s' with mem := s'.mem.write p f }, .block (some (s'.mem.heap p)))
  | .insert i b => do
    let (mem', p) := s.mem.alloc b
    let s' ← insertBlock dbg { s with mem := mem' } i p
    pure (s', .none)
  | .modify i f =>
    match getBlockPtr s i with
    | some p => .ok ({ s with mem := s.mem.write p f }, .none)
    | none => .ok (s, .none)
  | .remove i => .ok (removeBlock s i, .none)
  | .removeAll => .ok (removeAllBlocks s, .none)
  | .has i => .ok (s, .flag (hasBlock s i))
  | .get i => .ok (s, .block ((getBlockPtr s i).map s.mem.heap))
  | .deref i => do
    let b ← getBlock s i
    pure (s, .block (some b))
  | .count => .ok (s, .num (numBlocks s))

/-- Running a sequence of operations, collecting the observations. -/
def runOps {S O P : Type} (step : S → O → Outcome (S × P)) : S → List O → Outcome (S × List P)
  | s, [] => .ok (s, [])
  | s, o :: os => do
    let (s', p) ← step s o
    let (s'', ps) ← runOps step s' os
    pure (s'', p :: ps)

end Vox.Spec
