/-
Merging, transforming and resampling layers (voxblox/include/voxblox/integrator/merge_integration.h). Exact arithmetic.
-/
import Verif.Model.GridWrite
import Verif.Model.Interp
import Verif.Model.Tsdf
import Mathlib.Data.List.Dedup

namespace Vox.Merge

open Layer Grid Interp

/-- What the templates use of the voxel type: the default-constructed voxel, `isObservedVoxel`
(voxblox/src/utils/evaluation_utils.cc:75-83), `getInterpVoxel` (voxblox/include/voxblox/interpolator/interpolator_inl.h:353-367)
and `mergeVoxelAIntoVoxelB` (voxblox/src/utils/voxel_utils.cc:9-39). -/
structure Ops (V : Type) where
  dflt : V
  obs : V → Bool
  interp : VLayer V → Pt → Outcome (Option V)
  merge : V → V → Outcome V

/-- voxblox/src/utils/voxel_utils.cc:9-22 `mergeVoxelAIntoVoxelB` for TSDF voxels in exact arithmetic (the general form is
`Tsdf.mergeTsdf`). -/
def mergeTsdfQ (a b : TsdfVoxel ℚ) : Outcome (TsdfVoxel ℚ) := do
  match ← Tsdf.mergeTsdf (Arith.exact fun _ => .nan) ⟨.fin a.distance, .fin a.weight, a.color⟩ ⟨.fin b.distance, .fin b.weight, b.color⟩ with
  | ⟨.fin d, .fin w, c⟩ => .ok ⟨d, w, c⟩
  | _ => .ub

/-- The instances for TSDF voxels, voxblox/include/voxblox/core/voxel.h:12-16,
voxblox/include/voxblox/interpolator/interpolator_inl.h:476-489. -/
def tsdfOps : Ops (TsdfVoxel ℚ) := ⟨⟨0, 0, Color.default⟩, obsTsdf, getInterpVoxel, mergeTsdfQ⟩

variable {V : Type}

/-- The voxel loop of `mergeBlock`, voxblox/include/voxblox/core/block_inl.h:122-127. -/
def mergeVoxels (merge : V → V → Outcome V) (other self : Block ℚ V) : Outcome (List V) :=
  (List.range self.voxels.length).mapM fun k => do
    let a ← voxelAt other k
    let b ← voxelAt self k
    merge a b

/-- voxblox/include/voxblox/core/block_inl.h:111-129 `mergeBlock`. -/
def mergeBlock (merge : V → V → Outcome V) (self other : Block ℚ V) : Outcome (Block ℚ V) := do
  Outcome.check (decide (other.voxelSize = self.voxelSize))
  Outcome.check (decide (other.vps = self.vps))
  if other.hasData then do
    let xs ← mergeVoxels merge other self
    pure { self with hasData := true, updated := Flags.setAll, voxels := xs }
  else pure self

/-- One block, merge_integration.h:40-53; `src` is `layer_A_ptr`. -/
def mergeStep (ops : Ops V) (src : VLayer V) (dst : VLayer V) (i : Idx) : Outcome (VLayer V) :=
  let dst := allocateBlock ops.dflt dst i
  match block? src i, block? dst i with
  | some a, some b => do
    let b' ← mergeBlock ops.merge b a
    pure (modifyBlock dst i fun _ => b')
  | _, _ => pure dst

/-- A rigid transformation (`kindr::minimal::QuatTransformation`), given by the rows of its rotation matrix and its
translation; voxblox/include/voxblox/core/common.h:77-78. -/
structure Rigid where
  r0 : Pt
  r1 : Pt
  r2 : Pt
  t : Pt
deriving DecidableEq

/-- `Transformation()`, voxblox/include/voxblox/integrator/merge_integration.h:85. -/
def Rigid.id : Rigid := ⟨⟨1, 0, 0⟩, ⟨0, 1, 0⟩, ⟨0, 0, 1⟩, 0⟩

/-- `T * p` as used in voxblox/include/voxblox/integrator/merge_integration.h:164. -/
def Rigid.apply (T : Rigid) (p : Pt) : Pt := ⟨dot T.r0 p + T.t.x, dot T.r1 p + T.t.y, dot T.r2 p + T.t.z⟩

/-- `T.inverse() * p` as used in voxblox/include/voxblox/integrator/merge_integration.h:187, :203-204: transposed rotation
of `p` minus the translation. -/
def Rigid.unapply (T : Rigid) (p : Pt) : Pt :=
  let q := p - T.t
  ⟨T.r0.x * q.x + T.r1.x * q.y + T.r2.x * q.z, T.r0.y * q.x + T.r1.y * q.y + T.r2.y * q.z,
   T.r0.z * q.x + T.r1.z * q.y + T.r2.z * q.z⟩

/-- `kUnitCubeDiagonalLength`, voxblox/include/voxblox/integrator/merge_integration.h:17: the float nearest to √3. -/
def kDiagonal : ℚ := 14529495 / 8388608

/-- The values of `x` in `for (x = lo; x < hi; x += step)`, voxblox/include/voxblox/integrator/merge_integration.h:171-176
(exact sums). -/
def samples (lo hi step : ℚ) : List ℚ := (List.range ⌈(hi - lo) / step⌉.toNat).map fun (k : ℕ) => lo + k * step

/-- The points sampled for one input block, merge_integration.h:160-177. -/
def samplePoints (inSize outSize : ℚ) (T : Rigid) (i : Idx) : List Pt :=
  let c := T.apply (centerPoint i inSize)
  let off := kDiagonal * inSize * (1 / 2)
  (samples (c.x - off) (c.x + off) outSize).flatMap fun x =>
    (samples (c.y - off) (c.y + off) outSize).flatMap fun y =>
      (samples (c.z - off) (c.z + off) outSize).map fun z => ⟨x, y, z⟩

/-- The set of output blocks, merge_integration.h:154-184 (each index once). -/
def targetBlocks (A : VLayer V) (outSize : ℚ) (T : Rigid) : Outcome (List Idx) := do
  let is ← ((A.blocks.map (·.1)).flatMap (samplePoints A.cfg.blockSize outSize T)).mapM fun p => gridIndex32 p (1 / outSize)
  pure is.dedup

/-- voxblox/include/voxblox/interpolator/interpolator_inl.h:369-383 `getNearestVoxel`: the target is written whenever the
block exists; the flag is the returned value. -/
def nearestVoxel (ops : Ops V) (A : VLayer V) (p : Pt) (x : V) : Outcome (V × Bool) := do
  match ← blockAtCoords A p with
  | none => pure (x, false)
  | some b => do
    let v ← voxelByCoords b p
    pure (v, ops.obs v)

/-- Interpolated value, otherwise the nearest, merge_integration.h:206-213. -/
def sampleVoxel (ops : Ops V) (A : VLayer V) (p : Pt) (x : V) : Outcome (V × Bool) := do
  match ← ops.interp A p with
  | some v => pure (v, true)
  | none => nearestVoxel ops A p x

/-- The voxels of one output block, merge_integration.h:197-214: each iteration writes only its own voxel. -/
def sampleBlock (ops : Ops V) (A : VLayer V) (T : Rigid) (b : Block ℚ V) : Outcome (List (V × Bool)) :=
  (List.range b.voxels.length).mapM fun k => do
    let x ← voxelAt b k
    let v ← voxelIndexFromLinear b.vps k
    sampleVoxel ops A (T.unapply (centerOf b v)) x

/-- One output block, merge_integration.h:193-219. -/
def transformStep (ops : Ops V) (A : VLayer V) (T : Rigid) (out : VLayer V) (i : Idx) : Outcome (VLayer V) :=
  let out := allocateBlock ops.dflt out i
  match block? out i with
  | none => pure out
  | some b => do
    let r ← sampleBlock ops A T b
    let b' : Block ℚ V := { b with hasData := b.hasData || r.any (·.2), voxels := r.map (·.1) }
    if b'.hasData then pure (modifyBlock out i fun _ => b')
    else pure { out with blocks := out.blocks.filter fun e => e.1 ≠ i }

/-- merge_integration.h:145-220 `transformLayer`; `order` is the iteration order of the set of indices. -/
def transformLayer (ops : Ops V) (order : List Idx → List Idx) (A : VLayer V) (T : Rigid) (out : VLayer V) : Outcome (VLayer V) := do
  let is ← targetBlocks A out.cfg.blockSize T
  (order is).foldlM (transformStep ops A T) out

/-- The layer whose blocks are read, merge_integration.h:24-36. -/
def mergeSource (ops : Ops V) (order : List Idx → List Idx) (A B : VLayer V) : Outcome (VLayer V) :=
  if A.cfg.voxelSize ≠ B.cfg.voxelSize ∨ A.cfg.vps ≠ B.cfg.vps then
    transformLayer ops order A Rigid.id ⟨B.cfg, []⟩
  else pure A

/-- merge_integration.h:20-54 `mergeLayerAintoLayerB`: the loop runs over the blocks of A itself. -/
def mergeLayer (ops : Ops V) (order : List Idx → List Idx) (A B : VLayer V) : Outcome (VLayer V) := do
  let src ← mergeSource ops order A B
  (A.blocks.map (·.1)).foldlM (mergeStep ops src) B

/-- One voxel of `naiveTransformLayer`, merge_integration.h:106-136. The value is looked up at the transformed position
in the input layer. -/
def naiveVoxel (ops : Ops V) (A : VLayer V) (T : Rigid) (b : Block ℚ V) (out : VLayer V) (k : ℕ) : Outcome (VLayer V) := do
  let v ← voxelIndexFromLinear b.vps k
  let p := T.apply (centerOf b v)
  let bv ← splitGlobal out.cfg.vps (gridIndex p (1 / out.cfg.voxelSize))
  let out := allocateBlock ops.dflt out bv.1
  let x ← readVoxel out bv.1 bv.2
  let r ← nearestVoxel ops A p x
  let out ← writeVoxel out bv.1 bv.2 r.1
  pure (if r.2 then modifyBlock out bv.1 fun b => { b with hasData := true } else out)

/-- merge_integration.h:94-138 `naiveTransformLayer`. -/
def naiveTransform (ops : Ops V) (A : VLayer V) (T : Rigid) (out : VLayer V) : Outcome (VLayer V) :=
  A.blocks.foldlM (fun out e => (List.range e.2.voxels.length).foldlM (naiveVoxel ops A T e.2) out) out

/-- merge_integration.h:60-75, merging with a transformation. -/
def mergeTransformed (ops : Ops V) (order order' : List Idx → List Idx) (A : VLayer V) (T : Rigid) (B : VLayer V) (naive : Bool) :
    Outcome (VLayer V) := do
  let A' ← if naive then naiveTransform ops A T ⟨B.cfg, []⟩ else transformLayer ops order A T ⟨B.cfg, []⟩
  mergeLayer ops order' A' B

end Vox.Merge
