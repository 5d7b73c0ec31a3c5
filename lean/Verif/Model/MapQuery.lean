/-
Queries of maps by planners and Python scripts
(voxblox/src/core/esdf_map.cc, voxblox/src/core/tsdf_map.cc). Positions are finite `double`s and are rounded to `float`; the interpolation itself is exact
as in Model/Interp. Unlike there, what is written to the output arguments is modelled, on failure as well.
-/
import Verif.Model.Interp
import Verif.Model.Ieee

namespace Vox.MapQuery

open Layer Grid Interp Ieee

variable {V : Type}

/-- `position.cast<FloatingPoint>()`, voxblox/src/core/esdf_map.cc:14. -/
def castPos (p : Pt) : Pt := p.map rnd32

/-- The voxel at a position, `none` if its block does not exist; voxblox/include/voxblox/interpolator/interpolator_inl.h:306-312 and
voxblox/src/core/esdf_map.cc:55-61. -/
def voxelAt (l : VLayer V) (pos : Pt) : Outcome (Option V) := do
  match ← blockAtCoords l pos with
  | none => pure none
  | some b => do
    let x ← voxelByCoords b pos
    pure (some x)

/-- voxblox/include/voxblox/interpolator/interpolator_inl.h:301-317 `getNearestDistance` (and :335-351 `getNearestWeight`) with its output argument, which is
written before the voxel is known to be observed. -/
def nearestTo (l : VLayer V) (obs : V → Bool) (sdf : V → ℚ) (pos : Pt) (out : ℚ) : Outcome (Bool × ℚ) := do
  match ← voxelAt l pos with
  | none => pure (false, out)
  | some x => pure (obs x, sdf x)

/-- voxblox/include/voxblox/interpolator/interpolator_inl.h:285-299 `getInterpDistance` (and :319-333 `getInterpWeight`) with its output argument. -/
def interpTo (l : VLayer V) (obs : V → Bool) (sdf : V → ℚ) (pos : Pt) (out : ℚ) : Outcome (Bool × ℚ) := do
  match ← interpDistance l obs sdf pos with
  | none => pure (false, out)
  | some d => pure (true, d)

/-- voxblox/include/voxblox/interpolator/interpolator_inl.h:14-34 `getDistance` and `getWeight` with the output argument. -/
def distanceTo (l : VLayer V) (obs : V → Bool) (sdf : V → ℚ) (interpolate : Bool) (pos : Pt) (out : ℚ) : Outcome (Bool × ℚ) :=
  if interpolate then interpTo l obs sdf pos out else nearestTo l obs sdf pos out

/-- `(*grad)(i) += d`, voxblox/include/voxblox/interpolator/interpolator_inl.h:68. -/
def addTo (g : Pt) (i : Fin 3) (d : ℚ) : Pt := g + axisOffset i d

/-- The order of the six samples, voxblox/include/voxblox/interpolator/interpolator_inl.h:60-61. -/
def samples : List (Fin 3 × ℚ) := [(0, -1), (0, 1), (1, -1), (1, 1), (2, -1), (2, 1)]

/-- The samples of `getGradient` in order, until one fails; voxblox/include/voxblox/interpolator/interpolator_inl.h:60-70. -/
def gradientLoop (l : VLayer V) (obs : V → Bool) (sdf : V → ℚ) (interpolate : Bool) (pos : Pt) (vs : ℚ) : List (Fin 3 × ℚ) → Pt → Outcome (Bool × Pt)
  | [], g => .ok (true, g)
  | (i, sign) :: rest, g => do
    match ← getDistance l obs sdf interpolate (pos + axisOffset i (sign * vs)) with
    | none => pure (false, g)
    | some d => gradientLoop l obs sdf interpolate pos vs rest (addTo g i (d * sign))

/-- voxblox/include/voxblox/interpolator/interpolator_inl.h:46-75 `getGradient` with its output argument: on failure the sums so far are left in it. -/
def gradientTo (l : VLayer V) (obs : V → Bool) (sdf : V → ℚ) (interpolate : Bool) (pos : Pt) (out : Pt) : Outcome (Bool × Pt) := do
  match ← blockAtCoords l pos with
  | none => pure (false, out)
  | some b => do
    match ← gradientLoop l obs sdf interpolate pos b.voxelSize samples ⟨0, 0, 0⟩ with
    | (false, g) => pure (false, g)
    | (true, g) => pure (true, g.map (· / (2 * b.voxelSize)))

/-- voxblox/src/core/esdf_map.cc:5-20 `EsdfMap::getDistanceAtPosition`: the result, and the caller's variable afterwards. -/
def getDistanceAtPosition (l : VLayer (EsdfVoxel ℚ)) (interpolate : Bool) (position : Pt) (out : ℚ) : Outcome (Bool × ℚ) := do
  match ← distanceTo l obsEsdf (·.distance) interpolate (castPos position) 0 with
  | (true, d) => pure (true, d)
  | (false, _) => pure (false, out)

/-- voxblox/src/core/tsdf_map.cc:81-97 `TsdfMap::getWeightAtPosition`. -/
def getWeightAtPosition (l : VLayer (TsdfVoxel ℚ)) (interpolate : Bool) (position : Pt) (out : ℚ) : Outcome (Bool × ℚ) := do
  match ← distanceTo l obsTsdf (·.weight) interpolate (castPos position) 0 with
  | (true, d) => pure (true, d)
  | (false, _) => pure (false, out)

/-- voxblox/src/core/esdf_map.cc:22-51 `EsdfMap::getDistanceAndGradientAtPosition` (never adaptive): the result and the caller's variables, which are always
written. Both parts are evaluated. -/
def getDistanceAndGradientAtPosition (l : VLayer (EsdfVoxel ℚ)) (interpolate : Bool) (position : Pt) : Outcome (Bool × ℚ × Pt) := do
  let d ← distanceTo l obsEsdf (·.distance) interpolate (castPos position) 0
  let g ← gradientTo l obsEsdf (·.distance) interpolate (castPos position) ⟨0, 0, 0⟩
  pure (d.1 && g.1, d.2, g.2)

/-- voxblox/src/core/esdf_map.cc:53-63 `EsdfMap::isObserved`. -/
def isObserved (l : VLayer (EsdfVoxel ℚ)) (position : Pt) : Outcome Bool := do
  match ← voxelAt l (castPos position) with
  | none => pure false
  | some x => pure x.observed

/-! ### Batches -/

/-- The loop of voxblox/src/core/esdf_map.cc:80-82: column `i` is looked up and entries `i` are written. -/
def distanceLoop (l : VLayer (EsdfVoxel ℚ)) : ℕ → List Pt → List ℚ × List Bool → Outcome (List ℚ × List Bool)
  | _, [], st => .ok st
  | i, p :: ps, st => do
    let r ← getDistanceAtPosition l true p (st.1.getD i 0)
    distanceLoop l (i + 1) ps (st.1.set i r.2, st.2.set i r.1)

/-- voxblox/src/core/esdf_map.cc:68-83 `batchGetDistanceAtPosition`; `none`: an exception was thrown, before anything was written. -/
def batchDistance (l : VLayer (EsdfVoxel ℚ)) (positions : List Pt) (distances : List ℚ) (observed : List Bool) : Outcome (Option (List ℚ × List Bool)) :=
  if distances.length < positions.length then .ok none
  else if observed.length < positions.length then .ok none
  else do
    let r ← distanceLoop l 0 positions (distances, observed)
    pure (some r)

/-- The loop of voxblox/src/core/esdf_map.cc:105-111. -/
def gradientBatchLoop (l : VLayer (EsdfVoxel ℚ)) : ℕ → List Pt → List ℚ × List Pt × List Bool → Outcome (List ℚ × List Pt × List Bool)
  | _, [], st => .ok st
  | i, p :: ps, st => do
    let r ← getDistanceAndGradientAtPosition l true p
    gradientBatchLoop l (i + 1) ps (st.1.set i r.2.1, st.2.1.set i r.2.2, st.2.2.set i r.1)

/-- voxblox/src/core/esdf_map.cc:88-112 `batchGetDistanceAndGradientAtPosition`. -/
def batchGradient (l : VLayer (EsdfVoxel ℚ)) (positions : List Pt) (distances : List ℚ) (gradients : List Pt) (observed : List Bool) :
    Outcome (Option (List ℚ × List Pt × List Bool)) :=
  if distances.length < positions.length then .ok none
  else if observed.length < positions.length then .ok none
  else if gradients.length < positions.length then .ok none
  else do
    let r ← gradientBatchLoop l 0 positions (distances, gradients, observed)
    pure (some r)

/-- The loop of voxblox/src/core/esdf_map.cc:124-126. -/
def observedLoop (l : VLayer (EsdfVoxel ℚ)) : ℕ → List Pt → List Bool → Outcome (List Bool)
  | _, [], st => .ok st
  | i, p :: ps, st => do
    let r ← isObserved l p
    observedLoop l (i + 1) ps (st.set i r)

/-- voxblox/src/core/esdf_map.cc:117-127 `batchIsObserved`. -/
def batchObserved (l : VLayer (EsdfVoxel ℚ)) (positions : List Pt) (observed : List Bool) : Outcome (Option (List Bool)) :=
  if observed.length < positions.length then .ok none
  else do
    let r ← observedLoop l 0 positions observed
    pure (some r)

end Vox.MapQuery
