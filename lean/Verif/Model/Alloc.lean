/-
Concurrent allocation of blocks during integration
(voxblox/src/integrator/tsdf_integrator.cc:82-147).
-/
import Verif.Model.Basic

namespace Vox.Alloc

/-- A block pointer: identity of an allocated block.
Serves the model of voxblox/src/integrator/tsdf_integrator.cc:91-147. -/
abbrev Ptr := ℕ

/-- A worker inside `allocateStorageAndGetVoxelPtr`: idle, or waiting for the mutex because the layer
does not have the block. Serves the model of voxblox/src/integrator/tsdf_integrator.cc:91-147. -/
inductive Pc where
  | idle
  | wantLock (b : Idx)
deriving DecidableEq, Repr

/-- Shared state: `layer` (read only while integrating), `temp_block_map_` as association list, the
next unused pointer, per worker the cached `last_block_idx`/`last_block`, the program counter and all
answers given so far (worker, requested block, returned block).
Serves the model of voxblox/src/integrator/tsdf_integrator.cc:91-147. -/
structure AState where
  layer : List (Idx × Ptr)
  temp : List (Idx × Ptr)
  next : Ptr
  cache : ℕ → Idx × Option Ptr
  pc : ℕ → Pc
  answers : List (ℕ × Idx × Ptr)

/-- Atomic actions of worker `t` in voxblox/src/integrator/tsdf_integrator.cc:91-134.
* `cached`: lines 100-103 not taken, the cached block is returned;
* `inLayer`: lines 100-103, the layer has the block;
* `miss`: lines 100-103, the layer does not have it; the worker goes on to the mutex (line 109);
* `found` / `create`: the critical section, lines 109-125;
* `newRay`: the caller starts a new ray with fresh locals (`block = nullptr`, `block_idx`
  uninitialised: any value; lines 293-294, 424-425, 529-530).
The unsynchronised write `updated().set()` (line 128) is not modelled here. -/
inductive AStep : AState → AState → Prop
  | cached {s} (t : ℕ) (b : Idx) (p : Ptr) : s.pc t = .idle → s.cache t = (b, some p) →
      AStep s { s with answers := (t, b, p) :: s.answers }
  | inLayer {s} (t : ℕ) (b : Idx) (p : Ptr) : s.pc t = .idle →
      (b ≠ (s.cache t).1 ∨ (s.cache t).2 = none) → s.layer.lookup b = some p →
      AStep s { s with cache := Function.update s.cache t (b, some p),
                       answers := (t, b, p) :: s.answers }
  | miss {s} (t : ℕ) (b : Idx) : s.pc t = .idle →
      (b ≠ (s.cache t).1 ∨ (s.cache t).2 = none) → s.layer.lookup b = none →
      AStep s { s with cache := Function.update s.cache t (b, none),
                       pc := Function.update s.pc t (.wantLock b) }
  | found {s} (t : ℕ) (b : Idx) (p : Ptr) : s.pc t = .wantLock b → s.temp.lookup b = some p →
      AStep s { s with cache := Function.update s.cache t (b, some p),
                       pc := Function.update s.pc t .idle,
                       answers := (t, b, p) :: s.answers }
  | create {s} (t : ℕ) (b : Idx) : s.pc t = .wantLock b → s.temp.lookup b = none →
      AStep s { s with temp := (b, s.next) :: s.temp, next := s.next + 1,
                       cache := Function.update s.cache t (b, some s.next),
                       pc := Function.update s.pc t .idle,
                       answers := (t, b, s.next) :: s.answers }
  | newRay {s} (t : ℕ) (junk : Idx) : s.pc t = .idle →
      AStep s { s with cache := Function.update s.cache t (junk, none) }

/-- Start of an integration phase: empty temporary map, no cached blocks. The `cache` index values are
uninitialised, hence arbitrary. Serves the model of voxblox/src/integrator/tsdf_integrator.cc:91-147. -/
def AState.init (layer : List (Idx × Ptr)) (next : Ptr) (junk : ℕ → Idx) : AState :=
  { layer := layer, temp := [], next := next, cache := fun t => (junk t, none),
    pc := fun _ => .idle, answers := [] }

/-- Reachable states under any scheduling.
Serves the model of voxblox/src/integrator/tsdf_integrator.cc:91-147. -/
inductive AReach (layer : List (Idx × Ptr)) (next : Ptr) (junk : ℕ → Idx) : AState → Prop
  | init : AReach layer next junk (AState.init layer next junk)
  | step {s s'} : AReach layer next junk s → AStep s s' → AReach layer next junk s'

/-- `insertBlock` of every temporary block into the layer (voxblox/include/voxblox/core/layer.h:152-161:
a `DCHECK`, i.e. fatal in debug builds, if the index exists already; in release builds the insertion is then
ignored. The theorems show that this never happens). -/
def insertAll (layer : List (Idx × Ptr)) : List (Idx × Ptr) → Outcome (List (Idx × Ptr))
  | [] => .ok layer
  | (b, p) :: rest =>
    match layer.lookup b with
    | some _ => .fatal
    | none => insertAll ((b, p) :: layer) rest

/-- voxblox/src/integrator/tsdf_integrator.cc:137-147 `updateLayerWithStoredBlocks`. -/
def updateLayerWithStoredBlocks (s : AState) : Outcome AState := do
  let l ← insertAll s.layer s.temp
  pure { s with layer := l, temp := [] }

end Vox.Alloc
