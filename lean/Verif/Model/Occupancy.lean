/-
Occupancy integration (voxblox/include/voxblox/integrator/occupancy_integrator.h).
-/
import Verif.Model.RayCaster
import Verif.Model.Voxel
import Mathlib.Data.Finset.Insert
import Mathlib.Data.Finset.SDiff
import Mathlib.Data.Finset.Dedup
import Mathlib.Data.Finset.Lattice.Lemmas

namespace Vox.Occ

open Fl Ray

/-- The cached log-odds of the integrator, occupancy_integrator.h:52-57, and the ray limits (Config,
occupancy_integrator.h:25-35). -/
structure Config where
  hit : Fl
  miss : Fl
  clampMin : Fl
  clampMax : Fl
  minRay : Fl
  maxRay : Fl

/-- occupancy_integrator.h:60-76 `updateOccupancyVoxel`. -/
def updateVoxel (A : Arith) (cfg : Config) (occupied : Bool) (v : OccVoxel Fl) : OccVoxel Fl :=
  let u := if occupied then cfg.hit else cfg.miss
  if (Fl.le (.fin 0) u && Fl.le cfg.clampMax v.probabilityLog) ||
     (Fl.le u (.fin 0) && Fl.le v.probabilityLog cfg.clampMin) then
    { v with observed := true }
  else
    { probabilityLog := Fl.stdMin (Fl.stdMax (A.add v.probabilityLog u) cfg.clampMin) cfg.clampMax,
      observed := true }

/-- A sequence of hits (`true`) and misses (`false`) on one voxel.
Serves the model of voxblox/include/voxblox/integrator/occupancy_integrator.h:60-178. -/
def updates (A : Arith) (cfg : Config) : List Bool → OccVoxel Fl → OccVoxel Fl
  | [], v => v
  | o :: os, v => updates A cfg os (updateVoxel A cfg o v)

/-- Eigen 3 `normalized()`: divides by the norm if the squared norm is positive.
Serves the model of voxblox/include/voxblox/integrator/occupancy_integrator.h:60-178. -/
def normalized (A : Arith) (v : Vec3 Fl) : Vec3 Fl :=
  if Fl.lt (.fin 0) (A.dot v v) then A.vdiv v (A.sqrtFl (A.dot v v)) else v

/-- The two sets collected from a scan, occupancy_integrator.h:84-85. -/
structure Cells where
  free : Finset Idx
  occupied : Finset Idx
deriving DecidableEq

/-- A too long ray, occupancy_integrator.h:102-111. -/
def longPoint (A : Arith) (cfg : Config) (inv : Fl) (origin pointG : Vec3 Fl) (c : Cells) : Outcome Cells := do
  let unit := normalized A (A.vsub pointG origin)
  let ends := A.vscale (A.vadd origin (A.vscale unit cfg.maxRay)) inv
  let i ← gridFl A ends
  if i ∈ c.free then pure c
  else do
    let l ← castAll A (A.vscale origin inv) ends
    pure { c with free := c.free ∪ l.toFinset }

/-- A ray of normal length, occupancy_integrator.h:112-124. -/
def normalPoint (A : Arith) (inv : Fl) (origin pointG : Vec3 Fl) (c : Cells) : Outcome Cells := do
  let ends := A.vscale pointG inv
  let i ← gridFl A ends
  if i ∈ c.occupied then pure c
  else do
    let l ← castAll A (A.vscale origin inv) ends
    if l.length > 2 then
      pure { free := c.free ∪ l.dropLast.toFinset, occupied := c.occupied ∪ l.getLast?.toList.toFinset }
    else pure c

/-- One iteration of the loop over the points, occupancy_integrator.h:90-126 (the point is already
transformed into the global frame). -/
def scanPoint (A : Arith) (cfg : Config) (inv : Fl) (origin pointG : Vec3 Fl) (c : Cells) : Outcome Cells :=
  let dist := A.norm (A.vsub pointG origin)
  if Fl.lt dist cfg.minRay then .ok c
  else if Fl.lt cfg.maxRay dist then longPoint A cfg inv origin pointG c
  else normalPoint A inv origin pointG c

/-- The loop over the points.
Serves the model of voxblox/include/voxblox/integrator/occupancy_integrator.h:60-178. -/
def scanPoints (A : Arith) (cfg : Config) (inv : Fl) (origin : Vec3 Fl) :
    List (Vec3 Fl) → Cells → Outcome Cells
  | [], c => .ok c
  | p :: ps, c => do
    let c' ← scanPoint A cfg inv origin p c
    scanPoints A cfg inv origin ps c'

/-- Occupied cells are removed from the free cells, occupancy_integrator.h:130-136. -/
def cleanup (c : Cells) : Cells := { c with free := c.free \ c.occupied }

/-- A voxel map as a function of the global voxel index. (The addressing of blocks and voxels by global
indices is the subject of C01-C04; voxels that do not exist yet have the default content.).
Serves the model of voxblox/include/voxblox/integrator/occupancy_integrator.h:60-178. -/
abbrev VoxMap := Idx → OccVoxel Fl

/-- One of the two update loops, occupancy_integrator.h:142-156 and 160-174, visiting the cells in the
order `l` (the iteration order of the hash set). -/
def updateAll (A : Arith) (cfg : Config) (occupied : Bool) : List Idx → VoxMap → VoxMap
  | [], m => m
  | i :: is, m => updateAll A cfg occupied is (Function.update m i (updateVoxel A cfg occupied (m i)))

end Vox.Occ
