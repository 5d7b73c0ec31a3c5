/-
Calls of the fast TSDF integrator one after the other, on one layer or on several
(voxblox/src/integrator/tsdf_integrator.cc).
-/
import Verif.Model.TsdfScan

namespace Vox.TsdfScan

open Layer Grid Tsdf Ray

/-- What a fast integrator keeps from call to call besides its settings and its layer: the two sets
(voxblox/include/voxblox/integrator/tsdf_integrator.h:322-337), here with the frame counter of the process
(voxblox/src/integrator/tsdf_integrator.cc:564). -/
structure Memory where
  start : ApproxHash.HSet
  seen : ApproxHash.HSet
  counter : ℤ

/-- A new integrator in a new process, voxblox/include/voxblox/utils/approx_hash_array.h:81-90 and voxblox/src/integrator/tsdf_integrator.cc:564. -/
def Memory.new : Memory := ⟨ApproxHash.init, ApproxHash.init, 0⟩

/-- The layer that the next call works on: as it is, given to `setLayer` (voxblox/src/integrator/tsdf_integrator.cc:68-80, which changes the layer and
the sizes derived from it only), or emptied by `TsdfServer::clear` (voxblox_ros/src/tsdf_server.cc:628-637, which does not touch the integrator). -/
inductive Between where
  | same
  | setLayer (l : VLayer (TsdfVoxel Fl))
  | clear

/-- The layer of the next call and the memory of the integrator, for the three cases above. voxblox/src/integrator/tsdf_integrator.cc:68-80,
voxblox_ros/src/tsdf_server.cc:628-637 with voxblox/include/voxblox/core/layer.h:164 `removeAllBlocks`. -/
def Between.apply (b : Between) (l : VLayer (TsdfVoxel Fl)) (m : Memory) : VLayer (TsdfVoxel Fl) × Memory :=
  match b with
  | .same => (l, m)
  | .setLayer l' => (l', m)
  | .clear => ({ l with blocks := [] }, m)

/-- A call of `integratePointCloud` that comes to its end: as `Fast`, with what the integrator keeps.
voxblox/src/integrator/tsdf_integrator.cc:555-590. -/
inductive Call (A : Arith) (sort : List (ℕ × Fl) → List (ℕ × Fl)) (P : Params) (V : View) (points : List (Vec3 Fl)) (colors : List Color)
    (freespace : Bool) (l : VLayer (TsdfVoxel Fl)) (m : Memory) : Bool → Outcome (VLayer (TsdfVoxel Fl)) → Memory → Prop
  | done {is : List ℕ} {s : FastPool} {late : Bool} : points.length = colors.length →
      order sort P.mode (sqNorms A points) = .ok is →
      FastRuns A P P.threads (fastStart A P V (points.zip colors) freespace m.counter m.start m.seen l is) s →
      s.Done P.threads → (late = true ↔ ∃ t < P.threads, s.stage t = .left) →
      Call A sort P V points colors freespace l m late s.store.merge ⟨s.start, s.seen, (frame P.clearEvery m.counter).1⟩

end Vox.TsdfScan
