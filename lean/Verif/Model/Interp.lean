/-
Interpolation (voxblox/include/voxblox/interpolator/interpolator_inl.h), exact arithmetic.
-/
import Verif.Model.Grid
import Verif.Model.Voxel

namespace Vox.Interp

open Layer Grid

variable {V : Type}

/-- One axis of the shift to the lower corner, interpolator_inl.h:173-184, on (block index, voxel index). -/
def shiftAxis (vps : ℕ) (off : ℚ) (b v : ℤ) : ℤ × ℤ :=
  if off < 0 then (if v - 1 < 0 then (b - 1, v - 1 + vps) else (b, v - 1)) else (b, v)

/-- The corner offsets, interpolator_inl.h:190-193 (columns of the matrix). -/
def corners : List Idx :=
  [⟨0, 0, 0⟩, ⟨0, 0, 1⟩, ⟨0, 1, 0⟩, ⟨0, 1, 1⟩, ⟨1, 0, 0⟩, ⟨1, 0, 1⟩, ⟨1, 1, 0⟩, ⟨1, 1, 1⟩]

/-- interpolator_inl.h:156-198 `setIndexes`: the block index and the lower corner's voxel index (the eight
indexes are this one plus `corners`, interpolator_inl.h:196). `none` when it returns false. -/
def setIndexes (l : VLayer V) (pos : Pt) : Outcome (Option (Idx × Idx)) := do
  let bi ← blockIndexOf l pos
  match block? l bi with
  | none => pure none
  | some b => do
    let v ← truncatedVoxelIndex b.vps b.origin b.voxelSize pos
    let off := pos - centerOf b v
    let x := shiftAxis b.vps off.x bi.x v.x
    let y := shiftAxis b.vps off.y bi.y v.y
    let z := shiftAxis b.vps off.z bi.z v.z
    let bi' ← toIdx32 ⟨x.1, y.1, z.1⟩
    pure (some (bi', ⟨x.2, y.2, z.2⟩))

/-- One axis of the move to the next block, interpolator_inl.h:243-249. -/
def carryAxis (vps : ℕ) (b v : ℤ) : ℤ × ℤ := if v ≥ vps then (b + 1, v - vps) else (b, v)

/-- The block and the voxel index of one corner, interpolator_inl.h:233-254 (`none`: block missing). -/
def cornerBlock (l : VLayer V) (bi v : Idx) : Outcome (Option (Block ℚ V × Idx)) :=
  match block? l bi with
  | none => .ok none
  | some b =>
    if v.x ≥ b.vps ∨ v.y ≥ b.vps ∨ v.z ≥ b.vps then do
      let x := carryAxis b.vps bi.x v.x
      let y := carryAxis b.vps bi.y v.y
      let z := carryAxis b.vps bi.z v.z
      let bi' ← toIdx32 ⟨x.1, y.1, z.1⟩
      pure ((block? l bi').map fun b' => (b', ⟨x.2, y.2, z.2⟩))
    else .ok (some (b, v))

/-- interpolator_inl.h:200-223 `getQVector` with its `CHECK`. -/
def qVector (voxelPos pos : Pt) (inv : ℚ) : Outcome (List ℚ) := do
  let o : Pt := (pos - voxelPos).map (· * inv)
  Outcome.check (decide (0 ≤ o.x ∧ 0 ≤ o.y ∧ 0 ≤ o.z))
  pure [1, o.x, o.y, o.z, o.x * o.y, o.y * o.z, o.z * o.x, o.x * o.y * o.z]

/-- One iteration of the loop, interpolator_inl.h:232-267, at corner `c` (`some q` carries the weight
vector computed at the first corner); `obs` is `isObservedVoxel`. -/
def cornerVoxel (l : VLayer V) (obs : V → Bool) (bi v0 c : Idx) : Outcome (Option V) := do
  match ← cornerBlock l bi (v0 + c) with
  | none => pure none
  | some (b, v) => do
    let x ← voxelByIndex b v
    pure (if obs x then some x else none)

/-- The loop over the corners, interpolator_inl.h:232-268. -/
def cornerVoxels (l : VLayer V) (obs : V → Bool) (bi v0 : Idx) : List Idx → Outcome (Option (List V))
  | [] => .ok (some [])
  | c :: cs => do
    match ← cornerVoxel l obs bi v0 c with
    | none => pure none
    | some x => do
      let xs ← cornerVoxels l obs bi v0 cs
      pure (xs.map (x :: ·))

/-- The weight vector, computed at the first corner, interpolator_inl.h:255-259. -/
def cornerQ (l : VLayer V) (bi v0 : Idx) (pos : Pt) : Outcome (Option (List ℚ)) := do
  match ← cornerBlock l bi v0 with
  | none => pure none
  | some (b, v) => do
    let q ← qVector (centerOf b v) pos (1 / b.voxelSize)
    pure (some q)

/-- interpolator_inl.h:225-283, both overloads of `getVoxelsAndQVector`: the eight voxels and the weight
vector. -/
def voxelsAndQ (l : VLayer V) (obs : V → Bool) (pos : Pt) : Outcome (Option (List V × List ℚ)) := do
  match ← setIndexes l pos with
  | none => pure none
  | some (bi, v0) => do
    match ← cornerQ l bi v0 pos with
    | none => pure none
    | some q => do
      let xs ← cornerVoxels l obs bi v0 corners
      pure (xs.map fun xs => (xs, q))

/-- interpolator_inl.h:460-471 `interp_table`, row by row. -/
def interpTable : List (List ℚ) :=
  [[1, 0, 0, 0, 0, 0, 0, 0],
   [-1, 0, 0, 0, 1, 0, 0, 0],
   [-1, 0, 1, 0, 0, 0, 0, 0],
   [-1, 1, 0, 0, 0, 0, 0, 0],
   [1, 0, -1, 0, -1, 0, 1, 0],
   [1, -1, -1, 1, 0, 0, 0, 0],
   [1, -1, 0, 0, -1, 1, 0, 0],
   [-1, 1, 1, -1, 1, -1, -1, 1]]

/-- Product of a row and a column vector (Eigen).
As used in voxblox/include/voxblox/interpolator/interpolator_inl.h:448-474. -/
def rowDot (a b : List ℚ) : ℚ := (List.zipWith (· * ·) a b).sum

/-- interpolator_inl.h:448-474 `interpMember` on the values read by the getter. -/
def interpMember (q data : List ℚ) : ℚ := rowDot q (interpTable.map fun row => rowDot row data)

/-- interpolator_inl.h:285-299 `getInterpDistance`; `sdf` is `getVoxelSdf` (:402-410). With `sdf` replaced
by `getVoxelWeight` (:412-426) it is `getInterpWeight` (:319-333). -/
def interpDistance (l : VLayer V) (obs : V → Bool) (sdf : V → ℚ) (pos : Pt) : Outcome (Option ℚ) := do
  let r ← voxelsAndQ l obs pos
  pure (r.map fun (xs, q) => interpMember q (xs.map sdf))

/-- interpolator_inl.h:301-317 `getNearestDistance`: `none` when it returns false (the distance argument
has then been written all the same if the block exists). -/
def nearestDistance (l : VLayer V) (obs : V → Bool) (sdf : V → ℚ) (pos : Pt) : Outcome (Option ℚ) := do
  match ← blockAtCoords l pos with
  | none => pure none
  | some b => do
    let x ← voxelByCoords b pos
    pure (if obs x then some (sdf x) else none)

/-- interpolator_inl.h:14-23 `getDistance`. -/
def getDistance (l : VLayer V) (obs : V → Bool) (sdf : V → ℚ) (interpolate : Bool) (pos : Pt) :
    Outcome (Option ℚ) :=
  if interpolate then interpDistance l obs sdf pos else nearestDistance l obs sdf pos

/-- The unit offset of axis `i` scaled by `s`, interpolator_inl.h:62-63, 118-119. -/
def axisOffset (i : Fin 3) (s : ℚ) : Pt :=
  match i with
  | 0 => ⟨s, 0, 0⟩
  | 1 => ⟨0, s, 0⟩
  | 2 => ⟨0, 0, s⟩

/-- The inner loop of `getGradient`, interpolator_inl.h:61-69, for one axis: the difference of the samples
at `+` and `-`. -/
def gradientAxis (l : VLayer V) (obs : V → Bool) (sdf : V → ℚ) (interpolate : Bool) (pos : Pt) (vs : ℚ)
    (i : Fin 3) : Outcome (Option ℚ) := do
  match ← getDistance l obs sdf interpolate (pos + axisOffset i (-vs)) with
  | none => pure none
  | some dn => do
    match ← getDistance l obs sdf interpolate (pos + axisOffset i vs) with
    | none => pure none
    | some dp => pure (some (0 + dn * (-1) + dp * 1))

/-- interpolator_inl.h:46-75 `getGradient`. -/
def getGradient (l : VLayer V) (obs : V → Bool) (sdf : V → ℚ) (interpolate : Bool) (pos : Pt) :
    Outcome (Option Pt) := do
  match ← blockAtCoords l pos with
  | none => pure none
  | some b => do
    match ← gradientAxis l obs sdf interpolate pos b.voxelSize 0 with
    | none => pure none
    | some gx => do
      match ← gradientAxis l obs sdf interpolate pos b.voxelSize 1 with
      | none => pure none
      | some gy => do
        match ← gradientAxis l obs sdf interpolate pos b.voxelSize 2 with
        | none => pure none
        | some gz => pure (some ⟨gx / (2 * b.voxelSize), gy / (2 * b.voxelSize), gz / (2 * b.voxelSize)⟩)

/-- One axis of the fall-back gradient, interpolator_inl.h:116-138. -/
def fallbackAxis (l : VLayer V) (obs : V → Bool) (sdf : V → ℚ) (pos : Pt) (vs nn : ℚ) (i : Fin 3) :
    Outcome (Option ℚ) := do
  let left ← nearestDistance l obs sdf (pos - axisOffset i vs)
  let right ← nearestDistance l obs sdf (pos + axisOffset i vs)
  match left, right with
  | some a, some b => pure (some ((b - a) / (2 * vs)))
  | some a, none => pure (some ((nn - a) / vs))
  | none, some b => pure (some ((b - nn) / vs))
  | none, none => pure none

/-- The fall-back gradient, interpolator_inl.h:113-139. -/
def fallbackGradient (l : VLayer V) (obs : V → Bool) (sdf : V → ℚ) (pos : Pt) (vs nn : ℚ) :
    Outcome (Option Pt) := do
  match ← fallbackAxis l obs sdf pos vs nn 0 with
  | none => pure none
  | some gx => do
    match ← fallbackAxis l obs sdf pos vs nn 1 with
    | none => pure none
    | some gy => do
      match ← fallbackAxis l obs sdf pos vs nn 2 with
      | none => pure none
      | some gz => pure (some ⟨gx, gy, gz⟩)

/-- The full gradient if the interpolated distance exists, else nothing, interpolator_inl.h:108-111. -/
def fullGradient (l : VLayer V) (obs : V → Bool) (sdf : V → ℚ) (pos : Pt) (has : Bool) : Outcome (Option Pt) :=
  if has then getGradient l obs sdf true pos else .ok none

/-- interpolator_inl.h:107-139: the gradient, by one of the two methods. -/
def adaptiveGradient (l : VLayer V) (obs : V → Bool) (sdf : V → ℚ) (pos : Pt) (vs nn : ℚ) (has : Bool) :
    Outcome (Option Pt) := do
  match ← fullGradient l obs sdf pos has with
  | some g => pure (some g)
  | none => fallbackGradient l obs sdf pos vs nn

/-- Eigen `dot` (exact). As used in voxblox/include/voxblox/interpolator/interpolator_inl.h:143-150. -/
def dot (a b : Pt) : ℚ := a.x * b.x + a.y * b.y + a.z * b.z

/-- The distance, extrapolated if it could not be interpolated, interpolator_inl.h:143-150. -/
def adaptiveDistance (b : Block ℚ V) (pos : Pt) (nn : ℚ) (g : Pt) : Option ℚ → Outcome ℚ
  | some d => .ok d
  | none => do
    let v ← truncatedVoxelIndex b.vps b.origin b.voxelSize pos
    pure (nn + dot (pos - centerOf b v) g)

/-- interpolator_inl.h:77-154 `getAdaptiveDistanceAndGradient`. -/
def adaptive (l : VLayer V) (obs : V → Bool) (sdf : V → ℚ) (pos : Pt) : Outcome (Option (ℚ × Pt)) := do
  match ← nearestDistance l obs sdf pos with
  | none => pure none
  | some nn => do
    let di ← interpDistance l obs sdf pos
    match ← blockAtCoords l pos with
    | none => pure none
    | some b => do
      match ← adaptiveGradient l obs sdf pos b.voxelSize nn di.isSome with
      | none => pure none
      | some g => do
        let d ← adaptiveDistance b pos nn g di
        pure (some (d, g))

/-- Assignment of a float to a colour byte (truncation; undefined when out of range),
interpolator_inl.h:483-486. -/
def truncByte (q : ℚ) : Outcome (BitVec 8) :=
  let t : ℤ := if 0 ≤ q then ⌊q⌋ else ⌈q⌉
  if 0 ≤ t ∧ t ≤ 255 then .ok (BitVec.ofInt 8 t) else .ub

/-- interpolator_inl.h:476-489 `interpVoxel` (TSDF only). -/
def interpVoxel (q : List ℚ) (xs : List (TsdfVoxel ℚ)) : Outcome (TsdfVoxel ℚ) := do
  let r ← truncByte (interpMember q (xs.map fun v => v.color.r.toNat))
  let g ← truncByte (interpMember q (xs.map fun v => v.color.g.toNat))
  let b ← truncByte (interpMember q (xs.map fun v => v.color.b.toNat))
  let a ← truncByte (interpMember q (xs.map fun v => v.color.a.toNat))
  pure { distance := interpMember q (xs.map (·.distance)), weight := interpMember q (xs.map (·.weight)),
         color := ⟨r, g, b, a⟩ }

/-- voxblox/src/utils/evaluation_utils.cc:75-78 `isObservedVoxel` for TSDF voxels. -/
def obsTsdf (v : TsdfVoxel ℚ) : Bool := decide (1 / 1000000 < v.weight)

/-- voxblox/src/utils/evaluation_utils.cc:80-83 `isObservedVoxel` for ESDF voxels. -/
def obsEsdf (v : EsdfVoxel ℚ) : Bool := v.observed

/-- interpolator_inl.h:353-367 `getInterpVoxel` for TSDF layers. -/
def getInterpVoxel (l : VLayer (TsdfVoxel ℚ)) (pos : Pt) : Outcome (Option (TsdfVoxel ℚ)) := do
  match ← voxelsAndQ l obsTsdf pos with
  | none => pure none
  | some (xs, q) => do
    let v ← interpVoxel q xs
    pure (some v)

end Vox.Interp
