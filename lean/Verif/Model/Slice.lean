/-
Slices of a map along a coordinate plane
(voxblox/src/core/tsdf_map.cc `TsdfMap::coordPlaneSliceGetDistanceWeight`, voxblox/src/core/esdf_map.cc
`EsdfMap::coordPlaneSliceGetDistance`). Coordinates are exact; the point counter is not bounded to 32 bits.
-/
import Verif.Model.Grid
import Verif.Model.Voxel

namespace Vox.Slice

open Layer Grid

/-- `p(free_plane_index)`, voxblox/src/core/tsdf_map.cc:39, :48: no bounds check in release builds. -/
def axis (a : ℕ) (p : Pt) : Outcome ℚ :=
  match a with
  | 0 => .ok p.x
  | 1 => .ok p.y
  | 2 => .ok p.z
  | _ => .ub

/-- Numbers of elements of the caller's arrays, voxblox/src/core/tsdf_map.cc:7-8 (positions, distances, weights) and
voxblox/src/core/esdf_map.cc:131-132 (the ESDF query has no weights). -/
structure Caps where
  positions : ℕ
  distances : ℕ
  weights : ℕ
deriving DecidableEq

/-- Local variables and the written prefixes of the arrays, voxblox/src/core/tsdf_map.cc:17-19, :53-63; `done` stands for
having executed the `return` at :67. -/
structure St where
  count : ℕ
  fit : Bool
  positions : List Pt
  distances : List ℚ
  weights : List ℚ
  done : Bool
deriving DecidableEq

/-- How the function ends: by returning, or by throwing `std::runtime_error`
(voxblox/src/core/tsdf_map.cc:73-76, voxblox/src/core/esdf_map.cc:188-191). -/
inductive Ret where
  | returned (st : St)
  | thrown (st : St)
deriving DecidableEq

/-- What differs between the two maps: whether a block is skipped outright, and what is read from a voxel (`none`: the voxel is
skipped; the weight is `none` for the ESDF).
voxblox/src/core/tsdf_map.cc:34-36, :50-51; voxblox/src/core/esdf_map.cc:163-167. -/
structure Kind (V : Type) where
  skips : Block ℚ V → Bool
  reading : V → Option (ℚ × Option ℚ)

/-- voxblox/src/core/tsdf_map.cc:34-36 (`has_data`) and :50-51: every voxel is read, whatever its weight. -/
def tsdf : Kind (TsdfVoxel ℚ) := ⟨fun b => !b.hasData, fun v => some (v.distance, some v.weight)⟩

/-- voxblox/src/core/esdf_map.cc:163-167: only observed voxels. -/
def esdf : Kind (EsdfVoxel ℚ) := ⟨fun _ => false, fun v => if v.observed then some (v.distance, none) else none⟩

/-- `weights(count) = weight`, voxblox/src/core/tsdf_map.cc:61: within the bound of `distances` only, so that a shorter array is
overrun. -/
def storeWeight (c : Caps) (st : St) : Option ℚ → Outcome St
  | none => .ok st
  | some w => if st.count < c.weights then .ok { st with weights := st.weights ++ [w] } else .ub

/-- voxblox/src/core/tsdf_map.cc:53-58. -/
def storePosition (c : Caps) (st : St) (p : Pt) : St :=
  if st.count < c.positions then { st with positions := st.positions ++ [p] } else { st with fit := false }

/-- voxblox/src/core/tsdf_map.cc:59-64, voxblox/src/core/esdf_map.cc:175-179. -/
def storeDistance (c : Caps) (st : St) (d : ℚ) (w : Option ℚ) : Outcome St :=
  if st.count < c.distances then storeWeight c { st with distances := st.distances ++ [d] } w else .ok { st with fit := false }

/-- voxblox/src/core/tsdf_map.cc:53-68, voxblox/src/core/esdf_map.cc:169-183. -/
def store (c : Caps) (maxPoints : ℕ) (st : St) (e : Pt × ℚ × Option ℚ) : Outcome St := do
  let st ← storeDistance c (storePosition c st e.1) e.2.1 e.2.2
  pure { st with count := st.count + 1, done := decide (st.count + 1 ≥ maxPoints) }

variable {V : Type}

/-- The body of the voxel loop, voxblox/src/core/tsdf_map.cc:44-70, voxblox/src/core/esdf_map.cc:156-185. -/
def voxelStep (K : Kind V) (c : Caps) (maxPoints a : ℕ) (val : ℚ) (b : Block ℚ V) (st : St) (k : ℕ) : Outcome St :=
  if st.done then .ok st
  else do
    let v ← voxelIndexFromLinear b.vps k
    let coord := centerOf b v
    let vox ← voxelAt b k
    let q ← axis a coord
    if |q - val| ≤ b.voxelSize then
      match K.reading vox with
      | some r => store c maxPoints st (coord, r)
      | none => .ok st
    else .ok st

/-- The body of the block loop, voxblox/src/core/tsdf_map.cc:30-71, voxblox/src/core/esdf_map.cc:146-186. -/
def blockStep (K : Kind V) (c : Caps) (maxPoints a : ℕ) (val : ℚ) (l : VLayer V) (st : St) (i : Idx) : Outcome St :=
  if st.done then .ok st
  else
    match block? l i with
    | none => .fatal
    | some b =>
      if K.skips b then .ok st
      else do
        let o ← axis a b.origin
        if |o - val| > b.voxelSize * b.vps then .ok st
        else (List.range (numVoxels l.cfg.vps)).foldlM (voxelStep K c maxPoints a val b) st

/-- voxblox/src/core/tsdf_map.cc:73-79, voxblox/src/core/esdf_map.cc:188-194. -/
def finish (st : St) : Ret := if st.done then .returned st else if st.fit then .returned st else .thrown st

/-- voxblox/src/core/tsdf_map.cc:5-79 `coordPlaneSliceGetDistanceWeight`, voxblox/src/core/esdf_map.cc:129-194
`coordPlaneSliceGetDistance`. The order of the blocks is that of the block list. -/
def slice (K : Kind V) (c : Caps) (maxPoints a : ℕ) (val : ℚ) (l : VLayer V) : Outcome Ret := do
  let st ← (l.blocks.map (·.1)).foldlM (blockStep K c maxPoints a val l) ⟨0, true, [], [], [], false⟩
  pure (finish st)

end Vox.Slice
