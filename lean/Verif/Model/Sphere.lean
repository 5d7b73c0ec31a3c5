/-
Spheres of voxels and map bounds (voxblox/include/voxblox/utils/planning_utils_inl.h). Exact coordinates; the
length of an offset is compared by its square.
-/
import Verif.Model.GridWrite
import Verif.Model.Voxel

namespace Vox.Sphere

open Layer Grid

variable {V : Type}

/-- `HierarchicalIndexMap`, voxblox/include/voxblox/core/block_hash.h:47: block index to voxel indices. The order of the
list is that of first insertion; the iteration order of the hash map is a parameter where it is traversed. -/
abbrev VoxelMap := List (Idx × List Idx)

/-- `for (x = from; x <= r; x++)`, voxblox/include/voxblox/utils/planning_utils_inl.h:26-28. `fuel` bounds the number of
iterations. -/
def loopValues : ℕ → ℚ → ℚ → List ℚ
  | 0, _, _ => []
  | n + 1, x, r => if x ≤ r then x :: loopValues n (x + 1) r else []

/-- The loop from `-r` to `r`, voxblox/include/voxblox/utils/planning_utils_inl.h:26-28 (the fuel suffices:
`Verif.Lemmas.Sphere`). -/
def axisValues (r : ℚ) : List ℚ := loopValues (⌈2 * r⌉.toNat + 2) (-r) r

/-- The points visited by the three loops that pass the test,
voxblox/include/voxblox/utils/planning_utils_inl.h:26-32. -/
def spherePoints (r : ℚ) : List Pt :=
  (axisValues r).flatMap fun x => (axisValues r).flatMap fun y =>
    ((axisValues r).map fun z => (⟨x, y, z⟩ : Pt)).filter fun p =>
      decide (p.x * p.x + p.y * p.y + p.z * p.z ≤ r * r)

/-- `(*block_voxel_list)[block_index].push_back(voxel_index)`,
voxblox/include/voxblox/utils/planning_utils_inl.h:43. -/
def pushVoxel (m : VoxelMap) (e : Idx × Idx) : VoxelMap :=
  match m.lookup e.1 with
  | some _ => m.map fun kv => if kv.1 = e.1 then (kv.1, kv.2 ++ [e.2]) else kv
  | none => m ++ [(e.1, [e.2])]

/-- voxblox/include/voxblox/utils/planning_utils_inl.h:33-43, one point of the sphere. -/
def sphereStep (vps : ℕ) (center : Idx) (m : VoxelMap) (p : Pt) : Outcome VoxelMap := do
  let e ← splitGlobal vps (p.map (⌊·⌋) + center)
  pure (pushVoxel m e)

/-- voxblox/include/voxblox/utils/planning_utils_inl.h:13-48 `getSphereAroundPoint`, appending to `m`. -/
def getSphere (cfg : Cfg) (center : Pt) (radius : ℚ) (m : VoxelMap) : Outcome VoxelMap :=
  (spherePoints (radius / cfg.voxelSize)).foldlM (sphereStep cfg.vps (gridIndex center (1 / cfg.voxelSize))) m

/-- voxblox/include/voxblox/utils/planning_utils_inl.h:50-61 `getAndAllocateSphereAroundPoint`. -/
def getAndAllocateSphere (dflt : V) (center : Pt) (radius : ℚ) (l : VLayer V) (m : VoxelMap) : Outcome (VLayer V × VoxelMap) := do
  let m ← getSphere l.cfg center radius m
  pure ((m.map (·.1)).foldl (allocateBlock dflt) l, m)

/-- Euclidean length with the square root `sq`, used in voxblox/include/voxblox/utils/planning_utils_inl.h:88 and :123. -/
def length (sq : ℚ → ℚ) (p : Pt) : ℚ := sq (p.x * p.x + p.y * p.y + p.z * p.z)

/-- The value written by `fillSphereAroundPoint` at a voxel whose centre is `p`,
voxblox/include/voxblox/utils/planning_utils_inl.h:79, 87-88. -/
def fillValue (sq : ℚ → ℚ) (center : Pt) (radius maxDist : ℚ) (p : Pt) : ℚ :=
  max (length sq (p - center) - radius) (-maxDist)

/-- The value written by `clearSphereAroundPoint`, voxblox/include/voxblox/utils/planning_utils_inl.h:116, 121-123. -/
def clearValue (sq : ℚ → ℚ) (center : Pt) (radius maxDist : ℚ) (p : Pt) : ℚ :=
  min (radius - length sq (p - center)) maxDist

/-- The default ESDF voxel, voxblox/include/voxblox/core/voxel.h:18-37. -/
def esdfDefault : EsdfVoxel ℚ := ⟨0, false, false, false, false, 0⟩

/-- The assignments to a voxel, voxblox/include/voxblox/utils/planning_utils_inl.h:91-94 and :126-129. -/
def hallucinate (d : ℚ) (x : EsdfVoxel ℚ) : EsdfVoxel ℚ :=
  { x with distance := d, observed := true, hallucinated := true, fixed := true }

/-- One voxel of the loop, voxblox/include/voxblox/utils/planning_utils_inl.h:77-97 and :114-132; `value` is the new
distance as a function of the voxel centre, `better new old` the comparison. -/
def sphereWrite (value : Pt → ℚ) (better : ℚ → ℚ → Bool) (l : VLayer (EsdfVoxel ℚ)) (e : Idx × Idx) :
    Outcome (VLayer (EsdfVoxel ℚ)) :=
  match block? l e.1 with
  | none => .ub
  | some b => do
    let x ← voxelByIndex b e.2
    let d := value (centerOf b e.2)
    if !x.observed || better d x.distance then do
      let l ← writeVoxel l e.1 e.2 (hallucinate d x)
      pure (setStatus l e.1 true Flags.setAll)
    else pure l

/-- The double loop over the map, voxblox/include/voxblox/utils/planning_utils_inl.h:75-99 and :112-134. -/
def sphereLoop (value : Pt → ℚ) (better : ℚ → ℚ → Bool) (m : VoxelMap) (l : VLayer (EsdfVoxel ℚ)) :
    Outcome (VLayer (EsdfVoxel ℚ)) :=
  m.foldlM (fun l kv => kv.2.foldlM (fun l v => sphereWrite value better l (kv.1, v)) l) l

/-- voxblox/include/voxblox/utils/planning_utils_inl.h:67-100 `fillSphereAroundPoint`; `order` is the
iteration order of the hash map. -/
def fillSphere (order : VoxelMap → VoxelMap) (sq : ℚ → ℚ) (center : Pt) (radius maxDist : ℚ)
    (l : VLayer (EsdfVoxel ℚ)) : Outcome (VLayer (EsdfVoxel ℚ)) := do
  let r ← getAndAllocateSphere esdfDefault center radius l []
  sphereLoop (fillValue sq center radius maxDist) (fun d old => decide (d < old)) (order r.2) r.1

/-- voxblox/include/voxblox/utils/planning_utils_inl.h:104-135 `clearSphereAroundPoint`; `order` is the
iteration order of the hash map. -/
def clearSphere (order : VoxelMap → VoxelMap) (sq : ℚ → ℚ) (center : Pt) (radius maxDist : ℚ)
    (l : VLayer (EsdfVoxel ℚ)) : Outcome (VLayer (EsdfVoxel ℚ)) := do
  let r ← getAndAllocateSphere esdfDefault center radius l []
  sphereLoop (clearValue sq center radius maxDist) (fun d old => decide (old < d)) (order r.2) r.1

/-- One block of the bounds loop, voxblox/include/voxblox/utils/planning_utils_inl.h:152-162; `none` is the state before
the first block. -/
def boundsStep (s : Option (Idx × Idx)) (i : Idx) : Option (Idx × Idx) :=
  match s with
  | none => some (i, i)
  | some (lo, hi) => some (Vec3.map₂ min lo i, Vec3.map₂ max hi i)

/-- voxblox/include/voxblox/utils/planning_utils_inl.h:138-170 `computeMapBoundsFromLayer`: with no block the index
variables are read uninitialised. -/
def mapBounds (l : VLayer V) : Outcome (Pt × Pt) :=
  match (l.blocks.map (·.1)).foldl boundsStep none with
  | none => .ub
  | some (lo, hi) => .ok (originPoint lo l.cfg.blockSize, (originPoint hi l.cfg.blockSize).map (· + l.cfg.blockSize))

end Vox.Sphere
