/-
Combining meshes: voxblox/include/voxblox/mesh/mesh.h, mesh_layer.h, mesh_utils.h.
-/
import Verif.Model.MarchingCubes

namespace Vox.MeshOps

open MC

/-- voxblox/include/voxblox/mesh/mesh.h:128-150 `concatenateMesh` (`m` is the mesh appended to). -/
def concatenateMesh (m o : Mesh) : Outcome Mesh := do
  Outcome.check (!o.colors.isEmpty == !m.colors.isEmpty)
  Outcome.check (!o.normals.isEmpty == !m.normals.isEmpty)
  Outcome.check (!o.indices.isEmpty == !m.indices.isEmpty)
  pure { m with vertices := m.vertices ++ o.vertices, colors := m.colors ++ o.colors,
                normals := m.normals ++ o.normals, indices := m.indices ++ o.indices.map (· + m.vertices.length) }

/-- Element access `v[i]`: undefined behind the end. Used in voxblox/include/voxblox/mesh/mesh_layer.h:220-232. -/
def at_ {α : Type} (l : List α) (i : ℕ) : Outcome α :=
  match l[i]? with
  | some a => .ok a
  | none => .ub

/-- Three consecutive elements, if wanted: voxblox/include/voxblox/mesh/mesh_layer.h:220-233. -/
def triplet {α : Type} (wanted : Bool) (l : List α) (i : ℕ) : Outcome (List α) :=
  if wanted then do
    let a ← at_ l i
    let b ← at_ l (i + 1)
    let c ← at_ l (i + 2)
    pure [a, b, c]
  else .ok []

/-- The three "has" flags, voxblox/include/voxblox/mesh/mesh_layer.h:177-190: those of the first mesh with
vertices. -/
def combinedFlags (ms : List Mesh) : Bool × Bool × Bool :=
  match ms.find? fun m => !m.vertices.isEmpty with
  | some m => (!m.colors.isEmpty, !m.normals.isEmpty, !m.indices.isEmpty)
  | none => (false, false, false)

/-- One iteration of the copy loop, voxblox/include/voxblox/mesh/mesh_layer.h:217-239; `st` is the next index and
the combined mesh. -/
def copyTriplet (flags : Bool × Bool × Bool) (size : ℕ) (m : Mesh) (st : ℕ × Mesh) (k : ℕ) : Outcome (ℕ × Mesh) := do
  Outcome.check (decide (st.1 + 2 < size))
  let v ← triplet true m.vertices (3 * k)
  let c ← triplet flags.1 m.colors (3 * k)
  let n ← triplet flags.2.1 m.normals (3 * k)
  pure (st.1 + 3, ⟨st.2.vertices ++ v, st.2.indices ++ (if flags.2.2 then [st.1, st.1 + 1, st.1 + 2] else []),
    st.2.normals ++ n, st.2.colors ++ c, st.2.updated⟩)

/-- One mesh, voxblox/include/voxblox/mesh/mesh_layer.h:203-240. -/
def copyMesh (flags : Bool × Bool × Bool) (size : ℕ) (st : ℕ × Mesh) (m : Mesh) : Outcome (ℕ × Mesh) := do
  Outcome.check (m.vertices.isEmpty || decide (flags = (!m.colors.isEmpty, !m.normals.isEmpty, !m.indices.isEmpty)))
  (List.range ((m.vertices.length + 2) / 3)).foldlM (copyTriplet flags size m) st

/-- voxblox/include/voxblox/mesh/mesh_layer.h:167-251 `getMesh`: `ms` are the meshes of the layer in the iteration
order of the map, `c` is the mesh handed in (not cleared). -/
def getMesh (ms : List Mesh) (c : Mesh) : Outcome Mesh := do
  let st ← ms.foldlM (copyMesh (combinedFlags ms) (ms.map fun m => m.vertices.length).sum) (0, c)
  Outcome.check (st.2.colors.isEmpty || decide (st.2.vertices.length = st.2.colors.length))
  Outcome.check (st.2.normals.isEmpty || decide (st.2.vertices.length = st.2.normals.length))
  Outcome.check (decide (st.2.vertices.length = st.2.indices.length))
  pure st.2

/-! ### Connected mesh -/

/-- `static_cast<int64_t>(std::round(x))`, voxblox/include/voxblox/mesh/mesh_utils.h:62-64: undefined when the value
does not fit. -/
def roundKey : Fl → Outcome ℤ
  | .fin q => if IsI64 (roundHalfAway q) then .ok (roundHalfAway q) else .ub
  | _ => .ub

/-- The grid cell of a vertex, voxblox/include/voxblox/mesh/mesh_utils.h:59-64; `D` is `double` arithmetic, `inv`
the inverse threshold. -/
def vertexKey (D : Arith) (inv : Fl) (v : Vec3 Fl) : Outcome Idx := do
  let x ← roundKey (D.mul v.x inv)
  let y ← roundKey (D.mul v.y inv)
  let z ← roundKey (D.mul v.z inv)
  pure ⟨x, y, z⟩

/-- The state of the loop: voxblox/include/voxblox/mesh/mesh_utils.h:26, 32 (`uniques`, `new_vertex_index`) and the
connected mesh. -/
structure ConnSt where
  uniques : List (Idx × ℕ)
  next : ℕ
  mesh : Mesh
deriving DecidableEq

/-- Data copied with a new vertex, voxblox/include/voxblox/mesh/mesh_utils.h:78-85. -/
def copied {α : Type} (src : List α) (k : ℕ) : Outcome (List α) :=
  match src with
  | [] => .ok []
  | _ :: _ => match src[k]? with
    | some a => .ok [a]
    | none => .fatal

/-- Vertex in a cell not met before, voxblox/include/voxblox/mesh/mesh_utils.h:74-99. -/
def newVertex (m : Mesh) (k : ℕ) (v : Vec3 Fl) (key : Idx) (st : ConnSt) : Outcome (ConnSt × ℕ) := do
  let c ← copied m.colors k
  let n ← copied m.normals k
  pure (⟨(key, st.next) :: st.uniques, st.next + 1,
    { st.mesh with vertices := st.mesh.vertices ++ [v], colors := st.mesh.colors ++ c,
                   normals := st.mesh.normals ++ n }⟩, st.next)

/-- Vertex in a known cell, voxblox/include/voxblox/mesh/mesh_utils.h:99-108: its normal is added to that of the
known vertex, whether or not there are normals. -/
def mergedVertex (F : Arith) (m : Mesh) (k j : ℕ) (st : ConnSt) : Outcome (ConnSt × ℕ) := do
  let a ← at_ st.mesh.normals j
  let b ← at_ m.normals k
  pure (⟨st.uniques, st.next, { st.mesh with normals := st.mesh.normals.set j (F.vadd a b) }⟩, j)

/-- One vertex, voxblox/include/voxblox/mesh/mesh_utils.h:52-112; yields the new index of the vertex. -/
def vertexStep (D F : Arith) (inv : Fl) (m : Mesh) (st : ConnSt) (k : ℕ) : Outcome (ConnSt × ℕ) := do
  let v ← at_ m.vertices k
  let key ← vertexKey D inv v
  let r ← match st.uniques.lookup key with
    | none => newVertex m k v key st
    | some j => mergedVertex F m k j st
  Outcome.check (decide (r.1.mesh.vertices.length = r.1.next))
  pure r

/-- All vertices of a mesh; collects `old_to_new_indices`, voxblox/include/voxblox/mesh/mesh_utils.h:48-112. -/
def vertexLoop (D F : Arith) (inv : Fl) (m : Mesh) : List ℕ → ConnSt × List ℕ → Outcome (ConnSt × List ℕ)
  | [], s => .ok s
  | k :: ks, (st, map) => do
    let r ← vertexStep D F inv m st k
    vertexLoop D F inv m ks (r.1, map ++ [r.2])

/-- voxblox/include/voxblox/mesh/mesh_utils.h:115-122. -/
def renormalize (F : Arith) (n : Vec3 Fl) : Vec3 Fl :=
  let len := F.norm n
  if Fl.lt (.fin kEpsilon) len then F.vdiv n len else ⟨.fin 0, .fin 0, .fin 1⟩

/-- Checked index access, voxblox/include/voxblox/mesh/mesh_utils.h:140-148. -/
def remap (map : List ℕ) (i : ℕ) : Outcome ℕ :=
  match map[i]? with
  | some j => .ok j
  | none => .fatal

/-- One triangle, voxblox/include/voxblox/mesh/mesh_utils.h:131-167; `t` is its number. -/
def triangleStep (m : Mesh) (map : List ℕ) (next : ℕ) (indices : List ℕ) (t : ℕ) : Outcome (List ℕ) := do
  Outcome.check (decide (3 * t + 2 < m.indices.length))
  let a ← at_ m.indices (3 * t)
  let b ← at_ m.indices (3 * t + 1)
  let c ← at_ m.indices (3 * t + 2)
  let a ← remap map a
  let b ← remap map b
  let c ← remap map c
  Outcome.check (decide (a < next ∧ b < next ∧ c < next))
  if a = b ∨ b = c ∨ a = c then pure indices else pure (indices ++ [a, b, c])

/-- One mesh, voxblox/include/voxblox/mesh/mesh_utils.h:33-168. -/
def connectOne (D F : Arith) (inv : Fl) (st : ConnSt) (m : Mesh) : Outcome ConnSt :=
  if m.vertices.isEmpty then .ok st else do
    Outcome.check (decide (m.vertices.length = m.indices.length))
    Outcome.check (decide (m.vertices.length % 3 = 0))
    let r ← vertexLoop D F inv m (List.range m.vertices.length) (st, [])
    let normals := r.1.mesh.normals.map (renormalize F)
    let indices ← (List.range ((m.indices.length + 2) / 3)).foldlM (triangleStep m r.2 r.1.next) r.1.mesh.indices
    pure ⟨r.1.uniques, r.1.next, { r.1.mesh with normals := normals, indices := indices }⟩

/-- voxblox/include/voxblox/mesh/mesh_utils.h:19-177 `createConnectedMesh`; `thr` is the threshold, `c` the mesh
handed in. -/
def createConnectedMesh (D F : Arith) (thr : Fl) (ms : List Mesh) (c : Mesh) : Outcome Mesh := do
  let st ← ms.foldlM (connectOne D F (D.div (.fin 1) thr)) ⟨[], 0, c⟩
  Outcome.check (st.mesh.colors.isEmpty || decide (st.mesh.vertices.length = st.mesh.colors.length))
  Outcome.check (st.mesh.normals.isEmpty || decide (st.mesh.vertices.length = st.mesh.normals.length))
  pure st.mesh

end Vox.MeshOps
