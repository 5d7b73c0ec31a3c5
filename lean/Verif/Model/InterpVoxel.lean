/-
The queries of the interpolator, voxblox/include/voxblox/interpolator/interpolator_inl.h:14-44, 285-446, 476-489, in `float` arithmetic and with
their output arguments: a query is given what the output argument contains before the call and returns its Boolean and what the argument
contains after. Output pointers are taken to be valid (the `CHECK_NOTNULL`s hold).
-/
import Verif.Model.InterpFloat
import Verif.Model.Evaluation

namespace Vox.InterpF

open Layer Grid Ieee

variable {V : Type}

/-- What the queries use of the voxel type: `isObservedVoxel` (voxblox/src/utils/evaluation_utils.cc:70-83), `getVoxelSdf` and
`getVoxelWeight` (interpolator_inl.h:402-426). -/
structure Access (V : Type) where
  obs : V → Bool
  sdf : V → Fl
  weight : V → Fl

/-- TSDF voxels: evaluation_utils.cc:75-78, interpolator_inl.h:402-405, 418-421. The comparison with `1e-6` is made in `double`. -/
def tsdfAccess : Access (TsdfVoxel Fl) := ⟨fun v => Fl.lt (.fin Eval.kObserved) v.weight, fun v => v.distance, fun v => v.weight⟩

/-- ESDF voxels: evaluation_utils.cc:80-83, interpolator_inl.h:407-410, 423-426. -/
def esdfAccess : Access (EsdfVoxel Fl) := ⟨fun v => v.observed, fun v => v.distance, fun v => if v.observed then .fin 1 else .fin 0⟩

/-- voxblox/include/voxblox/core/layer.h:105-108 `getBlockPtrByCoordinates` (with :72-80), followed where there is a block by its
`getVoxelByCoordinates`, voxblox/include/voxblox/core/block.h:111-113; `none` is the null pointer. The origin of a block is the one set on its
allocation, layer.h:133-137. -/
def voxelAtCoords (l : VLayer V) (pos : Pt) : Outcome (Option V) := do
  let bi ← IndexF.blockIndex l.cfg.voxelSize l.cfg.vps pos
  match block? l bi with
  | none => pure none
  | some b => do
    let v ← IndexF.truncatedVoxelIndex (IndexF.originPoint bi (IndexF.blockSize l.cfg.voxelSize l.cfg.vps)) l.cfg.voxelSize b.vps pos
    let x ← voxelByIndex b v
    pure (some x)

/-- interpolator_inl.h:301-317 `getNearestDistance`. -/
def getNearestDistance (A : Access V) (l : VLayer V) (pos : Pt) (out : Fl) : Outcome (Bool × Fl) := do
  match ← voxelAtCoords l pos with
  | none => pure (false, out)
  | some x => pure (A.obs x, A.sdf x)

/-- interpolator_inl.h:335-351 `getNearestWeight`. -/
def getNearestWeight (A : Access V) (l : VLayer V) (pos : Pt) (out : Fl) : Outcome (Bool × Fl) := do
  match ← voxelAtCoords l pos with
  | none => pure (false, out)
  | some x => pure (A.obs x, A.weight x)

/-- interpolator_inl.h:369-383 `getNearestVoxel`. -/
def getNearestVoxel (A : Access V) (l : VLayer V) (pos : Pt) (out : V) : Outcome (Bool × V) := do
  match ← voxelAtCoords l pos with
  | none => pure (false, out)
  | some x => pure (A.obs x, x)

/-- interpolator_inl.h:385-400 `getNearestDistanceAndWeight`. -/
def getNearestDistanceAndWeight (A : Access V) (l : VLayer V) (pos : Pt) (out : Fl × Fl) : Outcome (Bool × Fl × Fl) := do
  match ← voxelAtCoords l pos with
  | none => pure (false, out)
  | some x => pure (true, A.sdf x, A.weight x)

/-- interpolator_inl.h:285-299 `getInterpDistance`. -/
def getInterpDistance (rows : ℕ → Order) (last : Order) (A : Access V) (l : VLayer V) (pos : Pt) (out : Fl) : Outcome (Bool × Fl) := do
  match ← voxelsAndQ l A.obs pos with
  | none => pure (false, out)
  | some (xs, q) => pure (true, interpMember rows last q (xs.map A.sdf))

/-- interpolator_inl.h:319-333 `getInterpWeight`. -/
def getInterpWeight (rows : ℕ → Order) (last : Order) (A : Access V) (l : VLayer V) (pos : Pt) (out : Fl) : Outcome (Bool × Fl) := do
  match ← voxelsAndQ l A.obs pos with
  | none => pure (false, out)
  | some (xs, q) => pure (true, interpMember rows last q (xs.map A.weight))

/-- Assignment of a `float` to a colour byte, interpolator_inl.h:483-486: truncation; undefined when the result is out of range or the number
is not finite. -/
def byteOf : Fl → Outcome (BitVec 8)
  | .fin q => Interp.truncByte q
  | _ => .ub

/-- One component of the colour, interpolator_inl.h:428-446, 483-486. -/
def interpByte (rows : ℕ → Order) (last : Order) (q : List ℚ) (get : Color → BitVec 8) (xs : List (TsdfVoxel Fl)) : Outcome (BitVec 8) :=
  byteOf (interpMember rows last q (xs.map fun v => .fin (get v.color).toNat))

/-- interpolator_inl.h:476-489 `interpVoxel`, which exists for TSDF voxels only. -/
def interpVoxel (rows : ℕ → Order) (last : Order) (q : List ℚ) (xs : List (TsdfVoxel Fl)) : Outcome (TsdfVoxel Fl) := do
  let r ← interpByte rows last q (·.r) xs
  let g ← interpByte rows last q (·.g) xs
  let b ← interpByte rows last q (·.b) xs
  let a ← interpByte rows last q (·.a) xs
  pure ⟨interpMember rows last q (xs.map tsdfAccess.sdf), interpMember rows last q (xs.map tsdfAccess.weight), ⟨r, g, b, a⟩⟩

/-- interpolator_inl.h:353-367 `getInterpVoxel`. -/
def getInterpVoxel (rows : ℕ → Order) (last : Order) (l : VLayer (TsdfVoxel Fl)) (pos : Pt) (out : TsdfVoxel Fl) :
    Outcome (Bool × TsdfVoxel Fl) := do
  match ← voxelsAndQ l tsdfAccess.obs pos with
  | none => pure (false, out)
  | some (xs, q) => do
    let v ← interpVoxel rows last q xs
    pure (true, v)

/-- interpolator_inl.h:14-23 `getDistance`. -/
def getDistance (rows : ℕ → Order) (last : Order) (A : Access V) (l : VLayer V) (interpolate : Bool) (pos : Pt) (out : Fl) : Outcome (Bool × Fl) :=
  if interpolate then getInterpDistance rows last A l pos out else getNearestDistance A l pos out

/-- interpolator_inl.h:25-34 `getWeight`. -/
def getWeight (rows : ℕ → Order) (last : Order) (A : Access V) (l : VLayer V) (interpolate : Bool) (pos : Pt) (out : Fl) : Outcome (Bool × Fl) :=
  if interpolate then getInterpWeight rows last A l pos out else getNearestWeight A l pos out

/-- interpolator_inl.h:36-44 `getVoxel`, for TSDF voxels. -/
def getVoxel (rows : ℕ → Order) (last : Order) (l : VLayer (TsdfVoxel Fl)) (interpolate : Bool) (pos : Pt) (out : TsdfVoxel Fl) :
    Outcome (Bool × TsdfVoxel Fl) :=
  if interpolate then getInterpVoxel rows last l pos out else getNearestVoxel tsdfAccess l pos out

end Vox.InterpF
