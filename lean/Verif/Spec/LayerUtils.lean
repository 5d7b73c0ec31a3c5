/-
When two layers are the same map, and what moving a layer by whole blocks means.
-/
import Verif.Spec.Grid
import Verif.Model.Voxel
import Verif.Model.Arith

namespace Vox.Spec

open Layer Grid

variable {V : Type}

/-- Two layers with the same blocks, whose voxels agree by `R` position by position. -/
structure SameMap (R : V → V → Prop) (A B : VLayer V) : Prop where
  blocks : ∀ i, Allocated A i ↔ Allocated B i
  voxels : ∀ g a b, content A g = some a → content B g = some b → R a b

/-- Two layers whose sizes, and whose block corners, are less than `tol` apart. -/
structure CloseGrids (tol : ℚ) (A B : VLayer V) : Prop where
  voxelSize : |A.cfg.voxelSize - B.cfg.voxelSize| < tol
  blockSize : |A.cfg.voxelSize * A.cfg.vps - B.cfg.voxelSize * B.cfg.vps| < tol
  corners : ∀ i, Allocated A i → i.All fun (c : ℤ) => |c * (A.cfg.voxelSize * A.cfg.vps) - c * (B.cfg.voxelSize * B.cfg.vps)| < tol

/-- Two finite floats whose computed difference is below `tol` in magnitude. -/
def Near (A : Arith) (tol : ℚ) (x y : Fl) : Prop := ∃ p q d, x = .fin p ∧ y = .fin q ∧ A.rnd (p - q) = .fin d ∧ |d| < tol

/-- Agreement of two TSDF voxels: all fields. -/
structure AgreeTsdf (near : Fl → Fl → Prop) (a b : TsdfVoxel Fl) : Prop where
  distance : near a.distance b.distance
  weight : near a.weight b.weight
  color : a.color = b.color

/-- Agreement of two ESDF voxels in all fields but the hallucinated flag. -/
structure AgreeEsdf (near : Fl → Fl → Prop) (a b : EsdfVoxel Fl) : Prop where
  distance : near a.distance b.distance
  observed : a.observed = b.observed
  inQueue : a.inQueue = b.inQueue
  fixed : a.fixed = b.fixed
  parent : a.parent = b.parent

/-- Agreement of two occupancy voxels: all fields. -/
structure AgreeOcc (near : Fl → Fl → Prop) (a b : OccVoxel Fl) : Prop where
  probability : near a.probabilityLog b.probabilityLog
  observed : a.observed = b.observed

/-- A finite float. -/
def IsFinite (x : Fl) : Prop := ∃ q, x = .fin q

/-- Rounding is symmetric about zero (round to nearest, ties to even is). -/
def OddRounding (A : Arith) : Prop := ∀ q, A.rnd (-q) = Fl.neg (A.rnd q)

/-- `l'` is `l` with everything moved by `-s` blocks. -/
structure MovedBy (s : Idx) (l l' : VLayer V) : Prop where
  cfg : l'.cfg = l.cfg
  content : ∀ g, content l' (g - s.map (· * (l.cfg.vps : ℤ))) = content l g
  status : ∀ i, status l' (i - s) = status l i
  number : l'.blocks.length = l.blocks.length

/-- The mean block index along one axis. -/
def meanIndex (f : Idx → ℤ) (l : VLayer V) : ℚ := ((l.blocks.map fun e => (f e.1 : ℚ)).sum) / l.blocks.length

end Vox.Spec
