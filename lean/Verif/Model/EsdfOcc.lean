/-
The ESDF integrator for occupancy maps (voxblox/src/integrator/esdf_occ_integrator.cc, esdf_occ_integrator.h).

Distances are finite floats as in Model/Esdf.lean. Index arithmetic is in ℤ: block indices do not overflow.
-/
import Verif.Model.Esdf

namespace Vox.EsdfOcc

open Layer Grid Esdf

/-- voxblox/include/voxblox/integrator/esdf_occ_integrator.h:27-39 `EsdfOccIntegrator::Config`. -/
structure Config where
  maxDistance : ℚ
  defaultDistance : ℚ
  numBuckets : ℕ
deriving DecidableEq

/-- The members that change, voxblox/include/voxblox/integrator/esdf_occ_integrator.h:69-87, with the ESDF layer; the raise
queue is never used. Keys are pairs of block and voxel index. -/
structure State where
  layer : VLayer EVoxel
  open_ : BQueue (Idx × Idx)
deriving DecidableEq

/-- voxblox/src/integrator/esdf_occ_integrator.cc:5-16, the constructor (the pointers are valid). -/
def init (cfg : Config) (layer : VLayer EVoxel) : State :=
  ⟨layer, BQueue.mkDefault.setNumBuckets cfg.numBuckets cfg.maxDistance⟩

/-- Assign to a voxel by key, voxblox/include/voxblox/core/block.h:144-146. -/
def setKey (s : State) (k : Idx × Idx) (x : EVoxel) : Outcome State := do
  let l ← writeVoxel s.layer k.1 k.2 x
  pure { s with layer := l }

/-- voxblox/src/integrator/esdf_occ_integrator.cc:168-171 and :180-183: queue the neighbour (already assigned in memory)
unless it is queued; the flag is part of the voxel that is then stored. -/
def pushNeighbor (s : State) (k : Idx × Idx) (n : EVoxel) : Outcome State :=
  if n.inQueue then setKey s k n
  else do
    let q ← s.open_.push k n.distance
    setKey { s with open_ := q } k { n with inQueue := true }

/-- The two assignments, voxblox/src/integrator/esdf_occ_integrator.cc:158-184, for an observed neighbour `n` of a voxel
with distance `v`; `d` is the distance between them. The second test reads the fields written under the first, but the
two are exclusive by the flag `fixed`. -/
def relaxNeighbor (A : Flt) (cfg : Config) (s : State) (k : Idx × Idx) (dir : Idx) (v d : ℚ) (n : EVoxel) : Outcome State :=
  if !n.fixed && decide (A.rnd (v + d) < n.distance) then
    let n := { n with distance := A.rnd (v + d), parent := -dir }
    if n.distance < cfg.maxDistance then pushNeighbor s k n else setKey s k n
  else if n.fixed && decide (n.distance < A.rnd (v - d)) then
    pushNeighbor s k { n with distance := A.rnd (v - d), parent := -dir }
  else pure s

/-- One neighbour, voxblox/src/integrator/esdf_occ_integrator.cc:134-185. `v` is the voxel itself, which is not its own
neighbour and does not change in the loop. -/
def occOpenNeighbor (A : Flt) (cfg : Config) (v : ℚ) (s : State) (e : (Idx × Idx) × DistSq × Idx) : Outcome State :=
  match block? s.layer e.1.1 with
  | none => pure s
  | some b => do
    Outcome.check (isValidVoxelIndex b.vps e.1.2)
    let n ← voxelByIndex b e.1.2
    if !n.observed then pure s
    else relaxNeighbor A cfg s e.1 e.2.2 v (A.rnd (kDistance e.2.1 * s.layer.cfg.voxelSize)) n

/-- The neighbours of the popped voxel, voxblox/src/integrator/esdf_occ_integrator.cc:125-185. -/
def occNeighborLoop (A : Flt) (cfg : Config) (k : Idx × Idx) (v : EVoxel) (s : State) : Outcome State :=
  if !v.observed || decide (cfg.maxDistance ≤ v.distance) then pure s
  else (occNeighbors s.layer.cfg.vps k.1 k.2).foldlM (occOpenNeighbor A cfg v.distance) s

/-- One iteration, voxblox/src/integrator/esdf_occ_integrator.cc:106-189 (the queue is not empty). The flag is reset at
the end, or where the iteration is skipped. -/
def occOpenStep (A : Flt) (cfg : Config) (s : State) : Outcome State := do
  let f ← s.open_.front
  let q ← f.1.pop
  let v ← readVoxel s.layer f.2.1 f.2.2
  let s ← occNeighborLoop A cfg f.2 v { s with open_ := q }
  setKey s f.2 { v with inQueue := false }

/-- voxblox/src/integrator/esdf_occ_integrator.cc:104-192 `processOpenSet`, at most `fuel` iterations. -/
def processOpen (A : Flt) (cfg : Config) : ℕ → State → Outcome (Option State)
  | 0, _ => .ok none
  | fuel + 1, s => do
    let e ← s.open_.empty
    if e then pure (some s)
    else do
      let s ← occOpenStep A cfg s
      processOpen A cfg fuel s

/-- One voxel, voxblox/src/integrator/esdf_occ_integrator.cc:52-85. The ESDF voxel is accessed by the same linear index
as the occupancy voxel; here by the voxel index that belongs to it (:61-62). -/
def occVoxel (cfg : Config) (i : Idx) (b : Block ℚ (OccVoxel ℚ)) (s : State) (lin : ℕ) : Outcome State := do
  let o ← voxelAt b lin
  if !o.observed then pure s
  else do
    let v ← voxelIndexFromLinear s.layer.cfg.vps lin
    let x ← readVoxel s.layer i v
    if 0 < o.probabilityLog then do
      let q ← s.open_.push (i, v) 0
      setKey { s with open_ := q } (i, v)
        { x with distance := 0, observed := true, fixed := true, parent := 0, inQueue := true }
    else
      setKey s (i, v) { x with distance := cfg.defaultDistance, observed := true, fixed := false, parent := 0 }

/-- One block, voxblox/src/integrator/esdf_occ_integrator.cc:39-86: a block that does not exist aborts
(voxblox/include/voxblox/core/layer.h:56-62). -/
def occBlock (cfg : Config) (occ : VLayer (OccVoxel ℚ)) (s : State) (i : Idx) : Outcome State :=
  match block? occ i with
  | none => .fatal
  | some b =>
    (List.range b.voxels.length).foldlM (occVoxel cfg i b) { s with layer := allocateBlock Sphere.esdfDefault s.layer i }

/-- voxblox/src/integrator/esdf_occ_integrator.cc:26-102 `updateFromOccBlocks` (release build: the `DCHECK` on the sides
is not active). -/
def updateFromOccBlocks (A : Flt) (cfg : Config) (fuel : ℕ) (occ : VLayer (OccVoxel ℚ)) (blocks : List Idx) (s : State) :
    Outcome (Option State) := do
  let s ← blocks.foldlM (occBlock cfg occ) s
  processOpen A cfg fuel s

/-- voxblox/src/integrator/esdf_occ_integrator.cc:19-24 `updateFromOccLayerBatch`. -/
def updateBatch (A : Flt) (cfg : Config) (fuel : ℕ) (occ : VLayer (OccVoxel ℚ)) (s : State) : Outcome (Option State) :=
  updateFromOccBlocks A cfg fuel occ (occ.blocks.map (·.1)) { s with layer := { s.layer with blocks := [] } }

end Vox.EsdfOcc
