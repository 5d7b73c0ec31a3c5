/-
Ground-truth maps of a simulated world (voxblox/include/voxblox/simulation/simulation_world_inl.h). Exact coordinates.
-/
import Verif.Model.GridWrite
import Verif.Model.Voxel

namespace Vox.Sim

open Layer Grid

variable {V : Type}

/-- An object of the world as `generateSdfFromWorld` uses it: `getDistanceToPoint` and `getColor`,
voxblox/include/voxblox/simulation/objects.h:33, :35. -/
structure Thing where
  dist : Pt → ℚ
  color : Color

/-- `for (x = from; x <= to; x += step)`, voxblox/include/voxblox/simulation/simulation_world_inl.h:28-33. `fuel` bounds the number of
iterations. -/
def stepsFrom : ℕ → ℚ → ℚ → ℚ → List ℚ
  | 0, _, _, _ => []
  | n + 1, x, last, step => if x ≤ last then x :: stepsFrom n (x + step) last step else []

/-- The loop, voxblox/include/voxblox/simulation/simulation_world_inl.h:28-33 (the fuel suffices: `Verif.Lemmas.SimWorld`). -/
def steps (first last step : ℚ) : List ℚ := stepsFrom ((⌊(last - first) / step⌋ + 1).toNat + 1) first last step

/-- The points whose blocks are visited, voxblox/include/voxblox/simulation/simulation_world_inl.h:24-33. -/
def sdfPoints (blockSize : ℚ) (lo hi : Pt) : List Pt :=
  let half := blockSize / 2
  (steps (lo.x - half) (hi.x + half) blockSize).flatMap fun x => (steps (lo.y - half) (hi.y + half) blockSize).flatMap fun y =>
    (steps (lo.z - half) (hi.z + half) blockSize).map fun z => ⟨x, y, z⟩

/-- voxblox/include/voxblox/simulation/simulation_world_inl.h:47-52: the voxel is not skipped. -/
def inBounds (lo hi p : Pt) : Bool :=
  decide (lo.x ≤ p.x) && decide (p.x ≤ hi.x) && decide (lo.y ≤ p.y) && decide (p.y ≤ hi.y) && decide (lo.z ≤ p.z) && decide (p.z ≤ hi.z)

/-- voxblox/include/voxblox/simulation/simulation_world_inl.h:54-63: least distance and its colour. -/
def leastDistance (world : List Thing) (maxDist : ℚ) (p : Pt) : ℚ × Color :=
  world.foldl (fun acc o => let d := o.dist p; if d < acc.1 then (d, o.color) else acc) (maxDist, Color.default)

/-- One voxel, voxblox/include/voxblox/simulation/simulation_world_inl.h:46-67; `set` is `setVoxel`. -/
def sdfVoxel (set : ℚ → Color → V → V) (world : List Thing) (lo hi : Pt) (maxDist : ℚ) (p : Pt) (x : V) : V :=
  if inBounds lo hi p then
    let r := leastDistance world maxDist p
    set (max r.1 (-maxDist)) r.2 x
  else x

/-- The voxels of a block, voxblox/include/voxblox/simulation/simulation_world_inl.h:43-68. -/
def sdfBlock (set : ℚ → Color → V → V) (world : List Thing) (lo hi : Pt) (maxDist : ℚ) (b : Block ℚ V) : Outcome (List V) :=
  (List.range b.voxels.length).mapM fun k => do
    let x ← voxelAt b k
    let v ← voxelIndexFromLinear b.vps k
    pure (sdfVoxel set world lo hi maxDist (centerOf b v) x)

/-- One block, voxblox/include/voxblox/simulation/simulation_world_inl.h:40-68. -/
def sdfStep (dflt : V) (set : ℚ → Color → V → V) (world : List Thing) (lo hi : Pt) (maxDist : ℚ) (l : VLayer V) (i : Idx) :
    Outcome (VLayer V) :=
  let l := allocateBlock dflt l i
  match block? l i with
  | none => .ub
  | some b => do
    let r ← sdfBlock set world lo hi maxDist b
    pure (modifyBlock l i fun _ => { b with voxels := r })

/-- voxblox/include/voxblox/simulation/simulation_world_inl.h:13-70 `generateSdfFromWorld`. -/
def generateSdf (dflt : V) (set : ℚ → Color → V → V) (world : List Thing) (lo hi : Pt) (maxDist : ℚ) (l : VLayer V) : Outcome (VLayer V) := do
  let is ← (sdfPoints l.cfg.blockSize lo hi).mapM (blockIndexOf l)
  is.foldlM (sdfStep dflt set world lo hi maxDist) l

/-- voxblox/include/voxblox/simulation/simulation_world_inl.h:72-78 `setVoxel` for TSDF voxels. -/
def setTsdf (d : ℚ) (c : Color) (x : TsdfVoxel ℚ) : TsdfVoxel ℚ := { x with distance := d, color := c, weight := 1 }

/-- voxblox/include/voxblox/simulation/simulation_world_inl.h:80-86 `setVoxel` for ESDF voxels. -/
def setEsdf (d : ℚ) (_ : Color) (x : EsdfVoxel ℚ) : EsdfVoxel ℚ := { x with distance := d, observed := true }

end Vox.Sim
