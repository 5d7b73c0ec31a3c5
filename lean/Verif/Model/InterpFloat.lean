/-
Interpolation in `float` arithmetic (voxblox/include/voxblox/interpolator/interpolator_inl.h:156-299, 448-474). Every operation is rounded
as the hardware does. Eigen leaves the order in which the terms of a product of matrices are added to the compiler, so the order is a
parameter; multiplications and additions are separate operations (no contraction to fused multiply-add). Overflow beyond 2¹²⁸ is represented
for the values but, as in IndexFloat.lean, not for the coordinates.
-/
import Verif.Model.IndexFloat
import Verif.Model.Interp

namespace Vox.InterpF

open Layer Grid Ieee

variable {V : Type}

/-- voxblox/include/voxblox/interpolator/interpolator_inl.h:156-198 `setIndexes`: block index and voxel index of the lower corner. The
origin of a block is the one set on its allocation, voxblox/include/voxblox/core/layer.h:133-137. -/
def setIndexes (l : VLayer V) (pos : Pt) : Outcome (Option (Idx × Idx)) := do
  let bi ← IndexF.blockIndex l.cfg.voxelSize l.cfg.vps pos
  match block? l bi with
  | none => pure none
  | some b => do
    let v ← IndexF.truncatedVoxelIndex (IndexF.originPoint bi (IndexF.blockSize l.cfg.voxelSize l.cfg.vps)) l.cfg.voxelSize b.vps pos
    let off := Vec3.map₂ (fun p c => rnd32 (p - c)) pos (IndexF.coordinatesOf l.cfg.voxelSize l.cfg.vps bi v)
    let x := Interp.shiftAxis b.vps off.x bi.x v.x
    let y := Interp.shiftAxis b.vps off.y bi.y v.y
    let z := Interp.shiftAxis b.vps off.z bi.z v.z
    let bi' ← toIdx32 ⟨x.1, y.1, z.1⟩
    pure (some (bi', ⟨x.2, y.2, z.2⟩))

/-- interpolator_inl.h:207 `voxel_offset`, one axis. -/
def offset1 (c p inv : ℚ) : ℚ := rnd32 (rnd32 (p - c) * inv)

/-- interpolator_inl.h:200-223 `getQVector` with its `CHECK`. -/
def qVector (voxelPos pos : Pt) (inv : ℚ) : Outcome (List ℚ) := do
  let o : Pt := Vec3.map₂ (fun c p => offset1 c p inv) voxelPos pos
  Outcome.check (decide (0 ≤ o.x ∧ 0 ≤ o.y ∧ 0 ≤ o.z))
  pure [1, o.x, o.y, o.z, rnd32 (o.x * o.y), rnd32 (o.y * o.z), rnd32 (o.z * o.x), rnd32 (rnd32 (o.x * o.y) * o.z)]

/-- The weight vector, computed at the first corner, interpolator_inl.h:255-259 (that corner is inside the block, so :239-254 does not move
it). -/
def cornerQ (l : VLayer V) (bi v0 : Idx) (pos : Pt) : Outcome (Option (List ℚ)) :=
  match block? l bi with
  | none => .ok none
  | some _ => do
    let q ← qVector (IndexF.coordinatesOf l.cfg.voxelSize l.cfg.vps bi v0) pos (IndexF.inverse l.cfg.voxelSize)
    pure (some q)

/-- interpolator_inl.h:225-283 `getVoxelsAndQVector`, both overloads. The corners are those of the exact model: they are found with integer
arithmetic only. -/
def voxelsAndQ (l : VLayer V) (obs : V → Bool) (pos : Pt) : Outcome (Option (List V × List ℚ)) := do
  match ← setIndexes l pos with
  | none => pure none
  | some (bi, v0) => do
    match ← cornerQ l bi v0 pos with
    | none => pure none
    | some q => do
      let xs ← Interp.cornerVoxels l obs bi v0 Interp.corners
      pure (xs.map fun xs => (xs, q))

/-- An order of adding the terms of a sum, given by their positions. Eigen products, interpolator_inl.h:473. -/
inductive Order where
  | term (i : ℕ)
  | add (a b : Order)

/-- The positions added, from left to right. Eigen products, interpolator_inl.h:473. -/
def Order.terms : Order → List ℕ
  | .term i => [i]
  | .add a b => a.terms ++ b.terms

/-- The sum of the terms `x` in the given order, rounded after each addition. Eigen products, interpolator_inl.h:473. -/
def Order.sum (x : ℕ → Fl) : Order → Fl
  | .term i => x i
  | .add a b => float32.add (a.sum x) (b.sum x)

/-- Entry `i` of a list. Eigen products, interpolator_inl.h:473. -/
def entry (l : List Fl) (i : ℕ) : Fl := l.getD i (.fin 0)

/-- Product of a row and a column, the products added in the given order. Eigen products, interpolator_inl.h:473. -/
def dotF (o : Order) (a b : List Fl) : Fl := o.sum (entry (List.zipWith float32.mul a b))

/-- interpolator_inl.h:448-474 `interpMember` on the values read by the getter: row `i` of the table times the data, added in the order
`rows i`, then the weights times the result, added in the order `last`. -/
def interpMember (rows : ℕ → Order) (last : Order) (q : List ℚ) (data : List Fl) : Fl :=
  dotF last (q.map .fin) (Interp.interpTable.mapIdx fun i row => dotF (rows i) (row.map .fin) data)

/-- interpolator_inl.h:285-299 `getInterpDistance`; `sdf` is `getVoxelSdf` (:402-410), or `getVoxelWeight` (:412-426) for `getInterpWeight`
(:319-333). -/
def interpDistance (rows : ℕ → Order) (last : Order) (l : VLayer V) (obs : V → Bool) (sdf : V → Fl) (pos : Pt) : Outcome (Option Fl) := do
  let r ← voxelsAndQ l obs pos
  pure (r.map fun (xs, q) => interpMember rows last q (xs.map sdf))

/-- One term after the other, as the column-wise product of a matrix and a vector adds them. Eigen products, interpolator_inl.h:473. -/
def inTurn : Order :=
  .add (.add (.add (.add (.add (.add (.add (.term 0) (.term 1)) (.term 2)) (.term 3)) (.term 4)) (.term 5)) (.term 6)) (.term 7)

/-- Halves first, as Eigen's unrolled reductions add them. Eigen products, interpolator_inl.h:473. -/
def byHalves : Order :=
  .add (.add (.add (.term 0) (.term 1)) (.add (.term 2) (.term 3))) (.add (.add (.term 4) (.term 5)) (.add (.term 6) (.term 7)))

end Vox.InterpF
