/-
The incremental ESDF integrator (voxblox/src/integrator/esdf_integrator.cc, esdf_integrator.h).

Distances are finite floats: every float operation rounds its exact result with `Flt.rnd`; overflow and NaN are
not represented. Loops that run until a queue is empty take a bound on the number of iterations and return `none`
when it is reached.
-/
import Verif.Model.Sphere
import Verif.Model.BucketQueue

namespace Vox.Esdf

open Layer Grid

/-- Float arithmetic on finite values: rounding of an exact result, and the Euclidean norm of an integer vector
converted to float (Eigen `norm()`); `FloatingPoint` is `float`, voxblox/include/voxblox/core/common.h:41. -/
structure Flt where
  rnd : ℚ → ℚ
  norm : Idx → ℚ

/-- An ESDF voxel, voxblox/include/voxblox/core/voxel.h:18-37. -/
abbrev EVoxel := EsdfVoxel ℚ

/-- voxblox/include/voxblox/integrator/esdf_integrator.h:29-78 `EsdfIntegrator::Config`. -/
structure Config where
  fullEuclidean : Bool
  maxDistance : ℚ
  minDistance : ℚ
  defaultDistance : ℚ
  minDiff : ℚ
  minWeight : ℚ
  numBuckets : ℕ
  multiQueue : Bool
  addOccupiedCrust : Bool
  clearRadius : ℚ
  occupiedRadius : ℚ
deriving DecidableEq

/-- The members of the integrator that change, voxblox/include/voxblox/integrator/esdf_integrator.h:160-178, with the
ESDF layer it points to. `updated` lists the elements of the set `updated_blocks_`. -/
structure State where
  layer : VLayer EVoxel
  open_ : BQueue Idx
  raise : List Idx
  updated : List Idx
deriving DecidableEq

/-- voxblox/src/integrator/esdf_integrator.cc:7-21, the constructor's `setNumBuckets` on the default-constructed queue
(the pointers are valid and the layers have the same geometry). -/
def init (cfg : Config) (layer : VLayer EVoxel) : State :=
  ⟨layer, BQueue.mkDefault.setNumBuckets cfg.numBuckets cfg.maxDistance, [], []⟩

/-- voxblox/src/utils/neighbor_tools.cc:8-21: the entries of `kDistances` as the floats nearest to 1, √2 and √3, by the
square of the entry. -/
def kDistance : DistSq → ℚ
  | 1 => 1
  | 2 => 11863283 / 8388608
  | _ => 14529495 / 8388608

/-- voxblox/src/utils/neighbor_tools.cc:8-34: offsets and distances of the 26 neighbours, column by column. -/
def neighborTable : List (Idx × ℚ) := List.zip kOffsets (kDistancesSq.map kDistance)

variable {V : Type}

/-- voxblox/include/voxblox/core/layer.h:228-239 `getVoxelPtrByGlobalIndex`; `none` is the null pointer. Sides that are not
a power of two abort even if the block does not exist. -/
def getVoxel (l : VLayer V) (g : Idx) : Outcome (Option V) := do
  let e ← splitGlobal l.cfg.vps g
  match block? l e.1 with
  | none => pure none
  | some b => do
    let x ← voxelByIndex b e.2
    pure (some x)

/-- Assignment through the pointer of `getVoxelPtrByGlobalIndex`, voxblox/include/voxblox/core/layer.h:228-239. -/
def setVoxel (l : VLayer V) (g : Idx) (x : V) : Outcome (VLayer V) := do
  let e ← splitGlobal l.cfg.vps g
  writeVoxel l e.1 e.2 x

/-- `signum(x) * c` in float (exact), as in voxblox/src/integrator/esdf_integrator.cc:187-188. -/
def withSign (x c : ℚ) : ℚ := signum x * c

/-! ### Propagation -/

/-- The step to a neighbour: new parent and length, voxblox/src/integrator/esdf_integrator.cc:396-426. `none` is the
`continue` for a negative length. -/
def stepTo (A : Flt) (cfg : Config) (size : ℚ) (parent dir : Idx) (kd : ℚ) : Option (Idx × ℚ) :=
  if cfg.fullEuclidean then
    let p := parent - dir
    let d := A.rnd (size * A.rnd (A.norm p - A.norm parent))
    if d < 0 then none else some (p, d)
  else some (-dir, A.rnd (kd * size))

/-- The new distance of a neighbour, voxblox/src/integrator/esdf_integrator.cc:428-489: `v` is the distance of the voxel,
`n` that of the neighbour, `d` the length of the step. `none`: no update. -/
def relaxDistance (A : Flt) (cfg : Config) (v n d : ℚ) : Option ℚ :=
  if 0 < v ∧ 0 < n then
    if A.rnd (A.rnd (v + d) + cfg.minDiff) < n then some (A.rnd (v + d)) else none
  else if v ≤ 0 ∧ n ≤ 0 then
    if n < A.rnd (A.rnd (v - d) - cfg.minDiff) then some (A.rnd (v - d)) else none
  else
    let potential := A.rnd (v - withSign v d)
    if d < |A.rnd (potential - n)| then
      if (signum potential : ℚ) = n then some potential else some (withSign n d)
    else none

/-- Store an updated neighbour and queue it, voxblox/src/integrator/esdf_integrator.cc:434-441 (also :449-456, :467-474,
:478-486). -/
def updateNeighbor (cfg : Config) (s : State) (g : Idx) (n : EVoxel) (dist : ℚ) (parent : Idx) : Outcome State :=
  if cfg.multiQueue || !n.inQueue then do
    let q ← s.open_.push g dist
    let l ← setVoxel s.layer g { n with distance := dist, parent := parent, inQueue := true }
    pure { s with layer := l, open_ := q }
  else do
    let l ← setVoxel s.layer g { n with distance := dist, parent := parent }
    pure { s with layer := l }

/-- One neighbour of the open-set loop, voxblox/src/integrator/esdf_integrator.cc:395-490. `v` is the voxel itself: no
neighbour is the voxel itself, so it does not change in the loop. -/
def openNeighbor (A : Flt) (cfg : Config) (g : Idx) (v : EVoxel) (s : State) (e : Idx × ℚ) : Outcome State := do
  let n? ← getVoxel s.layer (g + e.1)
  match n? with
  | none => pure s
  | some n =>
    if !n.observed || n.fixed then pure s
    else match stepTo A cfg s.layer.cfg.voxelSize v.parent e.1 e.2 with
      | none => pure s
      | some (p, d) =>
        match relaxDistance A cfg v.distance n.distance d with
        | none => pure s
        | some x => updateNeighbor cfg s (g + e.1) n x p

/-- One iteration of voxblox/src/integrator/esdf_integrator.cc:378-491 (the queue is not empty). -/
def openStep (A : Flt) (cfg : Config) (s : State) : Outcome State := do
  let f ← s.open_.front
  let q ← f.1.pop
  let v? ← getVoxel s.layer f.2
  match v? with
  | none => .fatal
  | some v => do
    let v := { v with inQueue := false }
    let l ← setVoxel s.layer f.2 v
    let s := { s with layer := l, open_ := q }
    if !v.observed || decide (cfg.maxDistance ≤ v.distance) || decide (v.distance ≤ -cfg.maxDistance) then pure s
    else neighborTable.foldlM (openNeighbor A cfg f.2 v) s

/-- voxblox/src/integrator/esdf_integrator.cc:371-496 `processOpenSet`. -/
def processOpen (A : Flt) (cfg : Config) : ℕ → State → Outcome (Option State)
  | 0, _ => .ok none
  | fuel + 1, s => do
    let e ← s.open_.empty
    if e then pure (some s)
    else do
      let s ← openStep A cfg s
      processOpen A cfg fuel s

/-- The rounded direction of a parent, voxblox/src/integrator/esdf_integrator.cc:341-345: a component of the normalised
vector rounds to its sign when it is at least a half. Exact arithmetic; the zero vector stays zero. -/
def roundedDirection (p : Idx) : Idx :=
  p.map fun c => if p.x * p.x + p.y * p.y + p.z * p.z ≤ 4 * (c * c) then Int.sign c else 0

/-- voxblox/src/integrator/esdf_integrator.cc:338-348 `is_neighbors_parent`. -/
def isParent (cfg : Config) (parent dir : Idx) : Bool :=
  if cfg.fullEuclidean then decide (roundedDirection parent = -dir) else decide (parent = -dir)

/-- One neighbour of the raise loop, voxblox/src/integrator/esdf_integrator.cc:325-365. -/
def raiseNeighbor (cfg : Config) (g : Idx) (s : State) (off : Idx) : Outcome State := do
  let n? ← getVoxel s.layer (g + off)
  match n? with
  | none => pure s
  | some n =>
    if !n.observed || n.fixed then pure s
    else if isParent cfg n.parent off then do
      let l ← setVoxel s.layer (g + off) { n with distance := withSign n.distance cfg.defaultDistance, parent := 0 }
      pure { s with layer := l, raise := s.raise ++ [g + off] }
    else if n.inQueue then pure s
    else do
      let q ← s.open_.push (g + off) n.distance
      let l ← setVoxel s.layer (g + off) { n with inQueue := true }
      pure { s with layer := l, open_ := q }

/-- One iteration of voxblox/src/integrator/esdf_integrator.cc:314-367 for the popped index `g`. -/
def raiseStep (cfg : Config) (g : Idx) (s : State) : Outcome State := do
  let v? ← getVoxel s.layer g
  match v? with
  | none => .fatal
  | some _ => kOffsets.foldlM (raiseNeighbor cfg g) s

/-- voxblox/src/integrator/esdf_integrator.cc:305-369 `processRaiseSet`. -/
def processRaise (cfg : Config) : ℕ → State → Outcome (Option State)
  | 0, _ => .ok none
  | fuel + 1, s =>
    match s.raise with
    | [] => .ok (some s)
    | g :: rest => do
      let s ← raiseStep cfg g { s with raise := rest }
      processRaise cfg fuel s

/-! ### Copying from the TSDF -/

/-- One neighbour of voxblox/src/integrator/esdf_integrator.cc:506-527: the new distance and parent if this neighbour
determines the voxel `v`. The length of the step is not scaled by the voxel size. -/
def fromNeighbor (A : Flt) (cfg : Config) (v n : EVoxel) (e : Idx × ℚ) : Option EVoxel :=
  if !n.observed || decide (cfg.maxDistance ≤ n.distance) || decide (n.distance ≤ -cfg.maxDistance) then none
  else if signum n.distance = signum v.distance then
    if |n.distance| < |v.distance| then
      some { v with distance := A.rnd (n.distance + withSign v.distance e.2), parent := -e.1 }
    else none
  else none

/-- The loop of voxblox/src/integrator/esdf_integrator.cc:505-528. -/
def fromNeighbors (A : Flt) (cfg : Config) (l : VLayer EVoxel) (g : Idx) (v : EVoxel) : List (Idx × ℚ) → Outcome (Option EVoxel)
  | [] => .ok none
  | e :: rest => do
    let n? ← getVoxel l (g + e.1)
    match n?.bind fun n => fromNeighbor A cfg v n e with
    | some v' => pure (some v')
    | none => fromNeighbors A cfg l g v rest

/-- voxblox/src/integrator/esdf_integrator.cc:498-530 `updateVoxelFromNeighbors`, on the value `v` of the voxel; the
result is its new value when it was updated. -/
def updateFromNeighbors (A : Flt) (cfg : Config) (l : VLayer EVoxel) (g : Idx) (v : EVoxel) : Outcome (Option EVoxel) := do
  let v? ← getVoxel l g
  match v? with
  | none => .fatal
  | some _ => fromNeighbors A cfg l g v neighborTable

/-- voxblox/include/voxblox/integrator/esdf_integrator.h:134-136 `isFixed`. -/
def isFixed (cfg : Config) (d : ℚ) : Bool := decide (|d| < cfg.minDistance)

/-- What happens to an ESDF voxel when its TSDF voxel is copied: its new value, whether it is pushed to the raise and
the open queue, and whether it is first updated from its neighbours,
voxblox/src/integrator/esdf_integrator.cc:166-285. -/
structure Seed where
  voxel : EVoxel
  raise : Bool
  queue : Bool
  neighbors : Bool

/-- The branches for a voxel that was not observed or hallucinated, voxblox/src/integrator/esdf_integrator.cc:174-200; the
parent, reset at :199, is not read before. -/
def seedNew (cfg : Config) (incremental : Bool) (t : ℚ) (v : EVoxel) : Seed :=
  if isFixed cfg t then
    ⟨{ v with distance := t, fixed := true, inQueue := true, parent := 0 }, v.hallucinated, true, false⟩
  else
    ⟨{ v with distance := withSign t cfg.defaultDistance, fixed := false, parent := 0 }, v.hallucinated, false, incremental⟩

/-- The branches for a voxel that existed before, voxblox/src/integrator/esdf_integrator.cc:201-282. -/
def seedOld (A : Flt) (cfg : Config) (t : ℚ) (v : EVoxel) : Seed :=
  if isFixed cfg t || v.fixed then
    if !isFixed cfg t then
      ⟨{ v with distance := withSign t cfg.defaultDistance, parent := 0, fixed := false, inQueue := true }, true, true, false⟩
    else if (0 < v.distance ∧ A.rnd (t + cfg.minDiff) < v.distance) ∨
        (v.distance ≤ 0 ∧ v.distance < A.rnd (t - cfg.minDiff)) then
      ⟨{ v with distance := t, fixed := true, parent := 0, inQueue := true }, false, true, false⟩
    else if (0 < v.distance ∧ v.distance < A.rnd (t - cfg.minDiff)) ∨
        (v.distance ≤ 0 ∧ A.rnd (t + cfg.minDiff) < v.distance) then
      ⟨{ v with distance := t, fixed := true, parent := 0, inQueue := true }, true, true, false⟩
    else ⟨v, false, false, false⟩
  else if signum t ≠ signum v.distance then
    if t < v.distance then
      ⟨{ v with distance := withSign t cfg.defaultDistance, parent := 0, inQueue := true }, false, true, false⟩
    else ⟨{ v with distance := withSign t cfg.defaultDistance, parent := 0 }, true, false, false⟩
  else ⟨v, false, false, false⟩

/-- voxblox/src/integrator/esdf_integrator.cc:174-285. -/
def seed (A : Flt) (cfg : Config) (incremental : Bool) (t : ℚ) (v : EVoxel) : Seed :=
  if !v.observed || v.hallucinated then seedNew cfg incremental t v else seedOld A cfg t v

/-- The update from the neighbours of a new voxel outside the fixed band,
voxblox/src/integrator/esdf_integrator.cc:191-196: the voxel and whether it is queued. The parent is reset in any case
(:199). -/
def seedNeighbors (A : Flt) (cfg : Config) (l : VLayer EVoxel) (g : Idx) (r : Seed) : Outcome (EVoxel × Bool) :=
  if r.neighbors then do
    let v? ← updateFromNeighbors A cfg l g r.voxel
    match v? with
    | some v => pure ({ v with inQueue := true, parent := 0 }, true)
    | none => pure ({ r.voxel with parent := 0 }, false)
  else pure (r.voxel, r.queue)

/-- Queue a voxel if it is to be queued, e.g. voxblox/src/integrator/esdf_integrator.cc:183-184. -/
def pushIf (q : BQueue Idx) (b : Bool) (g : Idx) (dist : ℚ) : Outcome (BQueue Idx) :=
  if b then q.push g dist else .ok q

/-- A TSDF voxel that is observed, voxblox/src/integrator/esdf_integrator.cc:166-285. -/
def copyVoxel (A : Flt) (cfg : Config) (incremental : Bool) (i v : Idx) (t : ℚ) (s : State) : Outcome State := do
  let x ← readVoxel s.layer i v
  let g := globalIndex s.layer.cfg.vps i v
  let r := seed A cfg incremental t x
  let y ← seedNeighbors A cfg s.layer g r
  let q ← pushIf s.open_ y.2 g y.1.distance
  let l ← writeVoxel s.layer i v { y.1 with observed := true, hallucinated := false }
  pure { s with layer := l, open_ := q, raise := if r.raise then s.raise ++ [g] else s.raise }

/-- A TSDF voxel that is not observed, voxblox/src/integrator/esdf_integrator.cc:154-164. -/
def crustVoxel (cfg : Config) (incremental : Bool) (i v : Idx) (s : State) : Outcome State :=
  if !incremental && cfg.addOccupiedCrust then do
    let x ← readVoxel s.layer i v
    let l ← writeVoxel s.layer i v
      { x with distance := -cfg.defaultDistance, observed := true, hallucinated := true, fixed := false }
    pure { s with layer := l }
  else pure s

/-- One voxel, voxblox/src/integrator/esdf_integrator.cc:150-286. Voxels are accessed by linear index; the conversion to
a voxel index is at :167-168. -/
def tsdfVoxel (A : Flt) (cfg : Config) (incremental : Bool) (i : Idx) (b : Block ℚ (TsdfVoxel ℚ)) (s : State) (lin : ℕ) :
    Outcome State := do
  let t ← voxelAt b lin
  let v ← voxelIndexFromLinear b.vps lin
  if t.weight < cfg.minWeight then crustVoxel cfg incremental i v s
  else copyVoxel A cfg incremental i v t.distance s

/-- `set_updated(true)` on a block, voxblox/src/integrator/esdf_integrator.cc:147. -/
def markUpdated (l : VLayer V) (i : Idx) (u : Flags) : VLayer V := modifyBlock l i fun b => { b with updated := u }

/-- One block, voxblox/src/integrator/esdf_integrator.cc:136-287. -/
def tsdfBlock (A : Flt) (cfg : Config) (incremental : Bool) (tsdf : VLayer (TsdfVoxel ℚ)) (s : State) (i : Idx) : Outcome State :=
  match block? tsdf i with
  | none => .ok s
  | some b =>
    let l := markUpdated (allocateBlock Sphere.esdfDefault s.layer i) i (Flags.ofBool true)
    (List.range b.voxels.length).foldlM (tsdfVoxel A cfg incremental i b) { s with layer := l }

/-- voxblox/src/integrator/esdf_integrator.cc:124-302 `updateFromTsdfBlocks`; the two queues are processed with at most
`fuel` iterations each. -/
def updateFromTsdfBlocks (A : Flt) (cfg : Config) (fuel : ℕ) (tsdf : VLayer (TsdfVoxel ℚ)) (blocks : List Idx)
    (incremental : Bool) (s : State) : Outcome (Option State) := do
  Outcome.check (decide (tsdf.cfg.vps = s.layer.cfg.vps))
  let s ← blocks.foldlM (tsdfBlock A cfg incremental tsdf) s
  let s? ← processRaise cfg fuel s
  match s? with
  | none => pure none
  | some s => processOpen A cfg fuel s

/-- voxblox/src/integrator/esdf_integrator.cc:94-102 `updateFromTsdfLayerBatch`; `keys` are the allocated blocks of the
TSDF layer in iteration order of its hash map, `set` the iteration order of `updated_blocks_`. -/
def updateBatch (A : Flt) (cfg : Config) (fuel : ℕ) (set : List Idx → List Idx) (tsdf : VLayer (TsdfVoxel ℚ)) (s : State) :
    Outcome (Option State) :=
  updateFromTsdfBlocks A cfg fuel tsdf (tsdf.blocks.map (·.1) ++ set s.updated) false
    { s with layer := { s.layer with blocks := [] }, updated := [] }

/-- The blocks whose ESDF flag is set, voxblox/include/voxblox/core/layer.h:194-203 `getAllUpdatedBlocks(kEsdf)`. -/
def esdfUpdated (tsdf : VLayer (TsdfVoxel ℚ)) : List Idx :=
  (tsdf.blocks.filter fun e => e.2.updated.get .esdf).map (·.1)

/-- Resetting the ESDF flag of a block if it exists, voxblox/src/integrator/esdf_integrator.cc:114-119. -/
def resetEsdf (tsdf : VLayer (TsdfVoxel ℚ)) (i : Idx) : VLayer (TsdfVoxel ℚ) :=
  modifyBlock tsdf i fun b => { b with updated := b.updated.put .esdf false }

/-- voxblox/src/integrator/esdf_integrator.cc:104-122 `updateFromTsdfLayer`; the TSDF layer is returned with its flags. -/
def updateIncremental (A : Flt) (cfg : Config) (fuel : ℕ) (set : List Idx → List Idx) (clear : Bool)
    (tsdf : VLayer (TsdfVoxel ℚ)) (s : State) : Outcome (Option (State × VLayer (TsdfVoxel ℚ))) := do
  let blocks := esdfUpdated tsdf ++ set s.updated
  let s? ← updateFromTsdfBlocks A cfg fuel tsdf blocks true { s with updated := [] }
  match s? with
  | none => pure none
  | some s => pure (some (s, if clear then blocks.foldl resetEsdf tsdf else tsdf))

/-! ### Free space around the robot -/

/-- `updated_blocks_.insert(i)`, voxblox/src/integrator/esdf_integrator.cc:54. -/
def insertBlock (u : List Idx) (i : Idx) : List Idx := if i ∈ u then u else u ++ [i]

/-- One voxel of the inner sphere, voxblox/src/integrator/esdf_integrator.cc:38-56. -/
def clearVoxel (cfg : Config) (s : State) (e : Idx × Idx) : Outcome State :=
  if !isValidVoxelIndex s.layer.cfg.vps e.2 then pure s
  else do
    let x ← readVoxel s.layer e.1 e.2
    if !x.observed || x.hallucinated then do
      let l ← writeVoxel s.layer e.1 e.2
        { x with distance := cfg.defaultDistance, observed := true, hallucinated := true, parent := 0 }
      pure { s with layer := l, updated := insertBlock s.updated e.1,
                    raise := if x.hallucinated then s.raise ++ [globalIndex s.layer.cfg.vps e.1 e.2] else s.raise }
    else pure s

/-- One voxel of the outer sphere, voxblox/src/integrator/esdf_integrator.cc:70-86. -/
def occupyVoxel (cfg : Config) (s : State) (e : Idx × Idx) : Outcome State :=
  if !isValidVoxelIndex s.layer.cfg.vps e.2 then pure s
  else do
    let x ← readVoxel s.layer e.1 e.2
    if !x.observed then do
      let l ← writeVoxel s.layer e.1 e.2
        { x with distance := -cfg.defaultDistance, observed := true, hallucinated := true, parent := 0 }
      pure { s with layer := l, updated := insertBlock s.updated e.1 }
    else if !x.inQueue then do
      let q ← s.open_.push (globalIndex s.layer.cfg.vps e.1 e.2) x.distance
      pure { s with open_ := q }
    else pure s

/-- The double loop over a sphere, voxblox/src/integrator/esdf_integrator.cc:34-57 and :66-87. -/
def overSphere (f : State → Idx × Idx → Outcome State) (m : Sphere.VoxelMap) (s : State) : Outcome State :=
  m.foldlM (fun s kv => kv.2.foldlM (fun s v => f s (kv.1, v)) s) s

/-- voxblox/src/integrator/esdf_integrator.cc:25-92 `addNewRobotPosition`; `order` is the iteration order of the hash
maps. -/
def addRobotPosition (cfg : Config) (order : Sphere.VoxelMap → Sphere.VoxelMap) (p : Pt) (s : State) : Outcome State := do
  let r ← Sphere.getAndAllocateSphere Sphere.esdfDefault p cfg.clearRadius s.layer []
  let s ← overSphere (clearVoxel cfg) (order r.2) { s with layer := r.1 }
  let r ← Sphere.getAndAllocateSphere Sphere.esdfDefault p cfg.occupiedRadius s.layer []
  overSphere (occupyVoxel cfg) (order r.2) { s with layer := r.1 }

/-- voxblox/include/voxblox/integrator/esdf_integrator.h:138-142 `clear`. -/
def clear (s : State) : Outcome State := do
  let q ← s.open_.clear
  pure { s with open_ := q, raise := [], updated := [] }

/-- voxblox/include/voxblox/integrator/esdf_integrator.h:145-150 `setEsdfMaxDistance`: the queue keeps its range. -/
def setMaxDistance (cfg : Config) (m : ℚ) : Config :=
  ⟨cfg.fullEuclidean, m, cfg.minDistance, if cfg.defaultDistance < m then m else cfg.defaultDistance, cfg.minDiff,
    cfg.minWeight, cfg.numBuckets, cfg.multiQueue, cfg.addOccupiedCrust, cfg.clearRadius, cfg.occupiedRadius⟩

end Vox.Esdf
