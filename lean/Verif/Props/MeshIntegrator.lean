/-
C52: meshing a block visits every cube once, reads the right voxels, colours every vertex.
C53: meshing only the updated blocks.
-/
import Verif.Lemmas.MeshGenerate

namespace Vox.MeshInt

open Spec Layer Grid MC

variable {V : Type}

/-! ### A concrete layer for the examples -/

/-- A one-voxel block of unit size. -/
def unitBlock (i : Idx) (d : ℚ) (f : Flags) : Block ℚ (TsdfVoxel ℚ) :=
  { vps := 1, voxelSize := 1, origin := i.map fun (c : ℤ) => (c : ℚ), hasData := true, updated := f,
    voxels := [⟨d, 1, ⟨10, 20, 30, 255⟩⟩] }

/-- Eight one-voxel blocks; all distances positive except those listed. -/
def unitLayer (neg : List Idx) (flagged : List Idx) : VLayer (TsdfVoxel ℚ) where
  cfg := ⟨1, 1⟩
  blocks := cubeOffsets.map fun i => (i, unitBlock i (if i ∈ neg then -1 else 1)
    (if i ∈ flagged then Flags.setAll else ⟨false, false, false⟩))

/-- A checkable form of `WellFormed` for concrete layers. -/
def wellFormedB (l : VLayer V) : Bool :=
  decide (0 < l.cfg.voxelSize) && decide (0 < l.cfg.vps) && decide (l.cfg.vps ≤ 1290) &&
  l.blocks.all fun e => decide (e.2.vps = l.cfg.vps ∧ e.2.voxelSize = l.cfg.voxelSize ∧
    e.2.origin = ⟨e.1.x * (l.cfg.voxelSize * l.cfg.vps), e.1.y * (l.cfg.voxelSize * l.cfg.vps),
      e.1.z * (l.cfg.voxelSize * l.cfg.vps)⟩ ∧ e.2.voxels.length = l.cfg.vps * l.cfg.vps * l.cfg.vps)

theorem wellFormed_of_check {l : VLayer V} (h : wellFormedB l = true) : WellFormed l := by
  unfold wellFormedB at h
  simp only [Bool.and_eq_true, decide_eq_true_eq, List.all_eq_true] at h
  obtain ⟨⟨⟨h1, h2⟩, h3⟩, h4⟩ := h
  refine ⟨h1, h2, h3, fun i b hb => ?_⟩
  exact h4 (i, b) (mem_keys_of_lookup hb)

theorem unitLayer_wf : WellFormed (unitLayer [⟨0, 0, 0⟩] []) := wellFormed_of_check (by decide +kernel)

/-! ### C52 -/

/-- **C52 (every cube once).** The inner loop and the three border loops together visit each of the side^3
cubes of the block exactly once. -/
theorem C52_each_cube_once (n : ℕ) :
    (insideOrder n ++ borderOrder n).Nodup ∧ (insideOrder n ++ borderOrder n).length = n ^ 3 ∧
      ∀ v, v ∈ insideOrder n ++ borderOrder n ↔ v.All fun c => 0 ≤ c ∧ c < (n : ℤ) := by
  refine ⟨cubeOrder_nodup n, ?_, fun v => mem_cubeOrder⟩
  cases n with
  | zero => rfl
  | succ n =>
    unfold insideOrder borderOrder
    simp only [List.length_append, List.length_flatMap, List.length_map, List.length_range, List.map_const',
      List.sum_replicate_nat, Nat.add_sub_cancel]
    ring

example : borderOrder 2 = [⟨1, 0, 0⟩, ⟨1, 1, 0⟩, ⟨1, 0, 1⟩, ⟨1, 1, 1⟩, ⟨0, 1, 0⟩, ⟨0, 1, 1⟩, ⟨0, 0, 1⟩] ∧
    insideOrder 2 = [⟨0, 0, 0⟩] := by decide

/-- **C52 (corner values).** For every cube of an allocated block each corner value that the border code reads
is the valid distance at the global index of that corner, or "missing", also when the corner lies in another
block; no access is out of range. -/
theorem C52_border_corner {l : VLayer V} (wf : WellFormed l) (fns : VoxelFns V) {i v d : Idx} {b : Block ℚ V}
    (hb : block? l i = some b) (hr : BlockInRange l i) (hv : InBlock l.cfg.vps v) (hd : IsCorner d) :
    borderCorner l fns b v d = .ok (sdfAt l fns.sdf (globalIndex l.cfg.vps i v + d)) :=
  borderCorner_eq wf fns hb hr hv hd

/-- **C52 (corner values, inner cubes).** -/
theorem C52_inside_corner {l : VLayer V} (wf : WellFormed l) (fns : VoxelFns V) {i v d : Idx} {b : Block ℚ V}
    (hb : block? l i = some b) (hv : v ∈ insideOrder l.cfg.vps) (hd : IsCorner d) :
    insideCorner fns b v d = .ok (sdfAt l fns.sdf (globalIndex l.cfg.vps i v + d)) := by
  refine insideCorner_eq wf fns hb ?_
  obtain ⟨h1, h2, h3⟩ := hd
  obtain ⟨⟨a, b⟩, ⟨c, d⟩, ⟨e, f⟩⟩ := mem_insideOrder.1 hv
  refine ⟨?_, ?_, ?_⟩ <;> simp only [Vec3.add_x, Vec3.add_y, Vec3.add_z] <;> omega

example : ∃ b, block? (unitLayer [⟨0, 0, 0⟩] []) ⟨0, 0, 0⟩ = some b ∧ BlockInRange (unitLayer [⟨0, 0, 0⟩] []) ⟨0, 0, 0⟩ ∧
    InBlock 1 ⟨0, 0, 0⟩ ∧ IsCorner ⟨1, 0, 1⟩ ∧ sdfAt (unitLayer [⟨0, 0, 0⟩] []) (tsdfFns 0).sdf ⟨1, 0, 1⟩ = some 1 := by
  refine ⟨_, rfl, ?_, ?_, ?_, ?_⟩
  · unfold BlockInRange Vec3.All; decide
  · unfold InBlock Vec3.All; decide
  · decide
  · decide +kernel

/-- The triangles of the layer in the cube at `c`: those of the marching cubes table for the sign field if all
eight corners are observed, none otherwise. -/
theorem C52_unobserved_cube (l : VLayer V) (sdf : V → Option ℚ) (c d : Idx) (hd : IsCorner d)
    (h : sdfAt l sdf (c + d) = none) : layerTriangles l sdf c = [] := by
  unfold layerTriangles
  rw [if_neg]
  intro hobs
  have := hobs d hd
  rw [h] at this
  simp at this

example : IsCorner ⟨1, 1, 1⟩ ∧ sdfAt (unitLayer [⟨0, 0, 0⟩] []) (tsdfFns 0).sdf (⟨1, 0, 0⟩ + ⟨1, 1, 1⟩) = none := by
  decide +kernel

/-- **C52 (the mesh of a block).** Extracting the mesh of an allocated block into a cleared mesh is defined and
yields, cube by cube in visiting order, the triangles of the sign field of the layer for the cubes with all
corners observed and nothing for the others; the vertices are the crossing points on the grid edges (a function
of the edge and of the layer alone, so shared between cubes and blocks), indices are consecutive, every vertex
has a normal. -/
theorem C52_block_mesh (sq : ℚ → Fl) {l : VLayer V} (wf : WellFormed l) (fns : VoxelFns V) {i : Idx} {b : Block ℚ V}
    (hb : block? l i = some b) (hr : BlockInRange l i) (m : Mesh) :
    ∃ m', extractBlockMesh sq l fns b (clearMesh m) = .ok m' ∧
      m'.vertices = (((insideOrder l.cfg.vps ++ borderOrder l.cfg.vps).flatMap fun v =>
          layerTriangles l fns.sdf (globalIndex l.cfg.vps i v)).flatMap fun t => [t.1, t.2.1, t.2.2]).map
            (fun e => (surfacePoint l fns.sdf e).map .fin) ∧
      m'.indices = List.range m'.vertices.length ∧ m'.normals.length = m'.vertices.length ∧ m'.colors = [] := by
  have hv := triVerts_map (fun e => (surfacePoint l fns.sdf e).map Fl.fin) (blockTriangles l fns.sdf i)
  refine ⟨_, extractBlockMesh_eq sq wf fns hb hr (clearMesh m) rfl, ?_, ?_, ?_, rfl⟩
  · unfold addTris clearMesh
    simp only [List.nil_append]
    exact hv
  · rw [addTris_length]
    unfold addTris clearMesh
    simp [List.range_eq_range']
  · rw [addTris_length]
    unfold addTris clearMesh
    simp [triNormals_length]

example : ∃ b, block? (unitLayer [⟨0, 0, 0⟩] []) ⟨0, 0, 0⟩ = some b ∧ WellFormed (unitLayer [⟨0, 0, 0⟩] []) ∧
    BlockInRange (unitLayer [⟨0, 0, 0⟩] []) ⟨0, 0, 0⟩ := by
  refine ⟨_, rfl, unitLayer_wf, ?_⟩
  unfold BlockInRange Vec3.All; decide

/-- The mesh of that block: one triangle. -/
example : (extractBlockMesh (fun _ => .fin 1) (unitLayer [⟨0, 0, 0⟩] []) (tsdfFns 0) (unitBlock ⟨0, 0, 0⟩ (-1) ⟨false, false, false⟩)
    Mesh.empty >>= fun m => .ok m.vertices.length) = .ok 3 := by decide +kernel

/-- **C52 (which edges carry vertices).** A grid edge carries a vertex of the block exactly if it is an edge of
a cube of the block with all corners observed and its ends have different signs. -/
theorem C52_vertex_edges (l : VLayer V) (sdf : V → Option ℚ) (i : Idx) (e : GridEdge) :
    (∃ v ∈ insideOrder l.cfg.vps ++ borderOrder l.cfg.vps, ∃ t ∈ layerTriangles l sdf (globalIndex l.cfg.vps i v),
      e = t.1 ∨ e = t.2.1 ∨ e = t.2.2) ↔
    ∃ v, InBlock l.cfg.vps v ∧ CubeObserved l sdf (globalIndex l.cfg.vps i v) ∧
      EdgeOfCube (globalIndex l.cfg.vps i v) e ∧ SignChange (negAt l sdf) e := by
  constructor
  · rintro ⟨v, hv, t, ht, he⟩
    unfold layerTriangles at ht
    split_ifs at ht with hobs
    · have := (C50_used_iff (negAt l sdf) (globalIndex l.cfg.vps i v) e).1 ⟨t, ht, he⟩
      exact ⟨v, mem_cubeOrder.1 hv, hobs, this.1, this.2⟩
    · simp at ht
  · rintro ⟨v, hv, hobs, h1, h2⟩
    obtain ⟨t, ht, he⟩ := (C50_used_iff (negAt l sdf) (globalIndex l.cfg.vps i v) e).2 ⟨h1, h2⟩
    refine ⟨v, mem_cubeOrder.2 hv, t, ?_, he⟩
    unfold layerTriangles
    rw [if_pos hobs]
    exact ht

/-- **C52 (colours).** Colouring the extracted mesh is defined (no missing block is dereferenced) and gives
every vertex the colour of a voxel at one end of its grid edge: the lower end if the vertex is clearly below
the middle, the upper end if it is not below the middle (in a band of side·1e-6 below the middle either). -/
theorem C52_colors (sq : ℚ → Fl) {l : VLayer V} (wf : WellFormed l) (fns : VoxelFns V) {i : Idx} {b : Block ℚ V}
    (hb : block? l i = some b) (hr : BlockInRange l i) (m : Mesh) :
    ∃ m', meshOfBlock sq true l fns b m = .ok m' ∧ m'.colors.length = m'.vertices.length ∧
      ∀ (k : ℕ) (c : Color), m'.colors[k]? = some c → ∃ e x, SignChange (negAt l fns.sdf) e ∧
        m'.vertices[k]? = some ((surfacePoint l fns.sdf e).map .fin) ∧ c = (fns.color x).getD Color.default ∧
        (fns.sdf x).isSome = true ∧
        (content l e.base = some x ∧ zeroParam (fieldOf l fns.sdf e.base) (fieldOf l fns.sdf e.tip) < 1 / 2 ∨
         content l e.tip = some x ∧
           1 / 2 - l.cfg.vps * (1 / 1000000) ≤ zeroParam (fieldOf l fns.sdf e.base) (fieldOf l fns.sdf e.tip)) := by
  refine ⟨_, meshOfBlock_eq sq true wf fns hb hr m, by simp [blockMesh], ?_⟩
  intro k c hk
  simp only [blockMesh, if_true, List.getElem?_map, Option.map_eq_some_iff] at hk ⊢
  obtain ⟨e, he, rfl⟩ := hk
  obtain ⟨v, hv, hobs, hedge, hs⟩ := mem_blockEdges (List.mem_of_getElem? he)
  obtain ⟨d, d', hd, hd', e1, e2⟩ := edge_ends hedge
  obtain ⟨t0, t1⟩ := edgeParam_range hs
  unfold edgeColor
  rcases colorIdx_cases wf fns.sdf i e t0 t1 with ⟨hc, ht⟩ | ⟨hc, ht⟩
  · have h0 := hobs d hd
    have := content_of_sdfAt h0
    rw [← e1] at this h0
    obtain ⟨x, hx⟩ := Option.isSome_iff_exists.1 this
    rw [sdfAt, hx] at h0
    exact ⟨e, x, hs, ⟨e, he, rfl⟩, by rw [hc, hx]; rfl, h0, Or.inl ⟨hx, ht⟩⟩
  · have h0 := hobs d' hd'
    have := content_of_sdfAt h0
    rw [← e2] at this h0
    obtain ⟨x, hx⟩ := Option.isSome_iff_exists.1 this
    rw [sdfAt, hx] at h0
    exact ⟨e, x, hs, ⟨e, he, rfl⟩, by rw [hc, hx]; rfl, h0, Or.inr ⟨hx, ht⟩⟩

/-- **C52 (which cubes are meshed, TSDF).** A cube of a TSDF layer is meshed from the distances at its corners if
all of them have a weight above the minimum, and not at all otherwise. -/
theorem C52_tsdf (w : ℚ) (l : VLayer (TsdfVoxel ℚ)) (c : Idx) :
    (CubeObserved l (tsdfFns w).sdf c ↔ ∀ d, IsCorner d → ∃ v, content l (c + d) = some v ∧ w < v.weight) ∧
    (∀ g v, content l g = some v → w < v.weight → fieldOf l (tsdfFns w).sdf g = v.distance) ∧
    ((∃ d, IsCorner d ∧ ∀ v, content l (c + d) = some v → v.weight ≤ w) → layerTriangles l (tsdfFns w).sdf c = []) := by
  have key : ∀ g, (sdfAt l (tsdfFns w).sdf g).isSome = true ↔ ∃ v, content l g = some v ∧ w < v.weight := by
    intro g
    unfold sdfAt
    cases content l g with
    | none => simp
    | some v =>
      simp only [Option.bind_some, tsdfFns]
      by_cases hw : v.weight ≤ w
      · simp [hw, not_lt.2 hw]
      · simp [hw, not_le.1 hw]
  refine ⟨?_, ?_, ?_⟩
  · unfold CubeObserved
    exact forall_congr' fun d => imp_congr_right fun _ => key (c + d)
  · intro g v hg hv
    unfold fieldOf sdfAt
    rw [hg]
    simp [tsdfFns, not_le.2 hv]
  · rintro ⟨d, hd, h⟩
    refine C52_unobserved_cube l _ c d hd ?_
    rw [← Option.not_isSome_iff_eq_none, key]
    rintro ⟨v, h1, h2⟩
    exact absurd h2 (not_lt.2 (h v h1))

example : CubeObserved (unitLayer [⟨0, 0, 0⟩] []) (tsdfFns 0).sdf ⟨0, 0, 0⟩ ∧
    ¬ CubeObserved (unitLayer [⟨0, 0, 0⟩] []) (tsdfFns 1).sdf ⟨0, 0, 0⟩ := by
  constructor
  · rintro ⟨x, y, z⟩ ⟨hx, hy, hz⟩
    simp only at hx hy hz
    rcases hx with rfl | rfl <;> rcases hy with rfl | rfl <;> rcases hz with rfl | rfl <;> decide +kernel
  · intro h
    exact absurd (h ⟨0, 0, 0⟩ (by decide)) (by decide +kernel)

/-- **C52 (which cubes are meshed, ESDF).** -/
theorem C52_esdf (l : VLayer (EsdfVoxel ℚ)) (c : Idx) :
    (CubeObserved l esdfFns.sdf c ↔ ∀ d, IsCorner d → ∃ v, content l (c + d) = some v ∧ v.observed = true) ∧
    (∀ g v, content l g = some v → v.observed = true → fieldOf l esdfFns.sdf g = v.distance) ∧
    ((∃ d, IsCorner d ∧ ∀ v, content l (c + d) = some v → v.observed = false) → layerTriangles l esdfFns.sdf c = []) := by
  have key : ∀ g, (sdfAt l esdfFns.sdf g).isSome = true ↔ ∃ v, content l g = some v ∧ v.observed = true := by
    intro g
    unfold sdfAt
    cases content l g with
    | none => simp
    | some v =>
      simp only [Option.bind_some, esdfFns]
      cases hv : v.observed <;> simp [hv]
  refine ⟨?_, ?_, ?_⟩
  · unfold CubeObserved
    exact forall_congr' fun d => imp_congr_right fun _ => key (c + d)
  · intro g v hg hv
    unfold fieldOf sdfAt
    rw [hg]
    simp [esdfFns, hv]
  · rintro ⟨d, hd, h⟩
    refine C52_unobserved_cube l _ c d hd ?_
    rw [← Option.not_isSome_iff_eq_none, key]
    rintro ⟨v, h1, h2⟩
    rw [h v h1] at h2
    cases h2

example : CubeObserved (V := EsdfVoxel ℚ) ⟨⟨1, 2⟩, [(⟨0, 0, 0⟩, ⟨2, 1, 0, true, Flags.setAll,
    List.replicate 8 ⟨1 / 2, true, false, false, false, 0⟩⟩)]⟩ esdfFns.sdf ⟨0, 0, 0⟩ := by
  rintro ⟨x, y, z⟩ ⟨hx, hy, hz⟩
  simp only at hx hy hz
  rcases hx with rfl | rfl <;> rcases hy with rfl | rfl <;> rcases hz with rfl | rfl <;> decide +kernel

/-- **C52 (colours, TSDF and ESDF).** The colour of a vertex is the colour of a voxel with sufficient weight at an end
of its edge (TSDF), or white (ESDF). -/
theorem C52_voxel_colors (w : ℚ) (v : TsdfVoxel ℚ) (x : EsdfVoxel ℚ) :
    (((tsdfFns w).sdf v).isSome = true → w < v.weight ∧ ((tsdfFns w).color v).getD Color.default = v.color) ∧
    ((esdfFns.sdf x).isSome = true → x.observed = true ∧ (esdfFns.color x).getD Color.default = ⟨255, 255, 255, 255⟩) := by
  constructor
  · intro h
    by_cases hw : v.weight ≤ w
    · simp [tsdfFns, hw] at h
    · exact ⟨not_le.1 hw, by simp [tsdfFns, hw]⟩
  · intro h
    cases hx : x.observed with
    | false => simp [esdfFns, hx] at h
    | true => exact ⟨rfl, by simp [esdfFns, hx]⟩

/-- The colours of that block: those of the voxels at the ends of the edges (crossing in the middle). -/
example : (meshOfBlock (fun _ => .fin 1) true (unitLayer [⟨0, 0, 0⟩] []) (tsdfFns 0) (unitBlock ⟨0, 0, 0⟩ (-1) ⟨false, false, false⟩)
    Mesh.empty >>= fun m => .ok m.colors) = .ok [⟨10, 20, 30, 255⟩, ⟨10, 20, 30, 255⟩, ⟨10, 20, 30, 255⟩] := by decide +kernel

/-! ### C53 -/

/-- Meshes up to the "updated" mark that consumers reset. -/
def content? (m : Option Mesh) : Option Mesh := m.map fun m => ⟨m.vertices, m.indices, m.normals, m.colors, true⟩

/-- Histories of map updates and meshing calls in which a map update flags every block whose mesh it changes:
an unflagged block was unflagged before, and neither it nor one of its upper neighbours changed. -/
inductive History (sq : ℚ → Fl) (useColor : Bool) (fns : VoxelFns V) : VLayer V → MeshMap → Prop where
  | start (l : VLayer V) (ml : MeshMap) (wf : WellFormed l) (h : l.blocks = []) : History sq useColor fns l ml
  | update (l l' : VLayer V) (ml : MeshMap) (h : History sq useColor fns l ml) (hcfg : l.cfg = l'.cfg)
      (wf : WellFormed l') (hn : (l'.blocks.map (·.1)).Nodup)
      (hr : ∀ i, (block? l' i).isSome = true → BlockInRange l' i)
      (hflag : ∀ i b', block? l' i = some b' → b'.updated.get .mesh = false →
        (∃ b, block? l i = some b ∧ b.updated.get .mesh = false) ∧
        ∀ d, IsCorner d → (block? l (i + d)).map (·.voxels) = (block? l' (i + d)).map (·.voxels)) :
      History sq useColor fns l' ml
  | mesh (l l' : VLayer V) (ml ml' : MeshMap) (isMutable only clear : Bool) (h : History sq useColor fns l ml)
      (hg : generateMesh sq useColor fns isMutable only clear (l, ml) = .ok (l', ml')) :
      History sq useColor fns l' ml'
  | consume (l : VLayer V) (ml ml' : MeshMap) (h : History sq useColor fns l ml)
      (hc : ∀ i, content? (ml'.lookup i) = content? (ml.lookup i)) : History sq useColor fns l ml'

/-- What a history guarantees: the meshes of unflagged blocks are current. -/
structure Current (sq : ℚ → Fl) (useColor : Bool) (fns : VoxelFns V) (l : VLayer V) (ml : MeshMap) : Prop where
  wf : WellFormed l
  nodup : (l.blocks.map (·.1)).Nodup
  range : ∀ i, (block? l i).isSome = true → BlockInRange l i
  mesh : ∀ i b, block? l i = some b → b.updated.get .mesh = false →
    content? (ml.lookup i) = some (blockMesh sq useColor l fns i)

theorem content?_blockMesh (sq : ℚ → Fl) (useColor : Bool) (fns : VoxelFns V) (l : VLayer V) (i : Idx) :
    content? (some (blockMesh sq useColor l fns i)) = some (blockMesh sq useColor l fns i) := rfl

theorem mesh_step (sq : ℚ → Fl) (useColor : Bool) (fns : VoxelFns V) {l l' : VLayer V} {ml ml' : MeshMap}
    {isMutable only clear : Bool} (h : Current sq useColor fns l ml)
    (hg : generateMesh sq useColor fns isMutable only clear (l, ml) = .ok (l', ml')) :
    SameVoxels l l' ∧ ∀ i b, block? l i = some b → content? (ml'.lookup i) = some (blockMesh sq useColor l fns i) := by
  have hc : clear = true → isMutable = true := by
    intro hcl
    subst hcl
    cases isMutable with
    | true => rfl
    | false => simp [generateMesh, Outcome.check] at hg
  obtain ⟨l1, ml1, e1, e2, e3, -⟩ := generateMesh_ok sq useColor fns isMutable only clear h.wf h.nodup h.range hc ml
  rw [hg] at e1
  simp only [Outcome.ok.injEq, Prod.mk.injEq] at e1
  obtain ⟨rfl, rfl⟩ := e1
  refine ⟨e2, fun i b hb => ?_⟩
  rw [e3]
  by_cases hm : i ∈ blocksToMesh only l
  · rw [if_pos hm]; rfl
  · rw [if_neg hm]
    rw [mem_blocksToMesh h.nodup] at hm
    push Not at hm
    have := hm b hb
    exact h.mesh i b hb (by simpa using this.2)

theorem history_current (sq : ℚ → Fl) (useColor : Bool) (fns : VoxelFns V) {l : VLayer V} {ml : MeshMap}
    (h : History sq useColor fns l ml) : Current sq useColor fns l ml := by
  induction h with
  | start l ml wf h =>
    refine ⟨wf, by rw [h]; exact List.nodup_nil, ?_, ?_⟩
    · intro i hi; unfold block? at hi; rw [h] at hi; simp at hi
    · intro i b hb; unfold block? at hb; rw [h] at hb; simp at hb
  | update l l' ml h hcfg wf hn hr hflag ih =>
    refine ⟨wf, hn, hr, fun i b' hb' hf => ?_⟩
    obtain ⟨⟨b, hb, hfb⟩, hsame⟩ := hflag i b' hb' hf
    rw [ih.mesh i b hb hfb, blockMesh_same sq useColor ih.wf hcfg fns hsame]
  | mesh l l' ml ml' isMutable only clear h hg ih =>
    obtain ⟨hs, hm⟩ := mesh_step sq useColor fns ih hg
    refine ⟨hs.wf ih.wf, by rw [hs.keys]; exact ih.nodup, ?_, ?_⟩
    · intro i hi
      rw [hs.isSome] at hi
      have := ih.range i hi
      unfold BlockInRange at this ⊢
      rw [← hs.cfg]; exact this
    · intro i b hb _
      have hi : (block? l i).isSome = true := by rw [← hs.isSome, hb]; rfl
      obtain ⟨b0, hb0⟩ := Option.isSome_iff_exists.1 hi
      rw [hm i b0 hb0, blockMesh_same sq useColor ih.wf hs.cfg fns (hs.above i)]
  | consume l ml ml' h hc ih =>
    exact ⟨ih.wf, ih.nodup, ih.range, fun i b hb hf => by rw [hc, ih.mesh i b hb hf]⟩

/-- **C53 (incremental = full, when updates flag enough).** Full statement: after every history of map updates
and meshing calls, meshing only the flagged blocks gives the same meshes as meshing all blocks. The code
violates it (`C53_violated`): an update flags the blocks it writes, but not their lower neighbours whose border
cubes read them. What holds: if in the history every update also flags those neighbours, then meshing the
flagged blocks and meshing all blocks succeed and agree on every block of the layer. -/
theorem C53_incremental_partial (sq : ℚ → Fl) (useColor : Bool) (fns : VoxelFns V) {l : VLayer V} {ml : MeshMap}
    (h : History sq useColor fns l ml) (isMutable clear clear' : Bool) (hc : clear = true → isMutable = true)
    (hc' : clear' = true → isMutable = true) :
    ∃ s s', generateMesh sq useColor fns isMutable true clear (l, ml) = .ok s ∧
      generateMesh sq useColor fns isMutable false clear' (l, ml) = .ok s' ∧
      ∀ i, (block? l i).isSome = true → content? (s.2.lookup i) = content? (s'.2.lookup i) ∧ (s'.2.lookup i).isSome = true := by
  have cur := history_current sq useColor fns h
  obtain ⟨l1, ml1, e1, -⟩ := generateMesh_ok sq useColor fns isMutable true clear cur.wf cur.nodup cur.range hc ml
  obtain ⟨l2, ml2, e2, -⟩ := generateMesh_ok sq useColor fns isMutable false clear' cur.wf cur.nodup cur.range hc' ml
  refine ⟨_, _, e1, e2, fun i hi => ?_⟩
  obtain ⟨b, hb⟩ := Option.isSome_iff_exists.1 hi
  have m1 := (mesh_step sq useColor fns cur e1).2 i b hb
  have m2 := (mesh_step sq useColor fns cur e2).2 i b hb
  refine ⟨by rw [m1, m2], ?_⟩
  cases h' : ml2.lookup i with
  | none => simp only [h'] at m2; simp [content?] at m2
  | some _ => rfl

/-- **C53 (what is meshed and what is left).** One call meshes exactly the listed blocks, each in the state of
the layer, leaves all other meshes, changes nothing of the layer but mesh flags, and clears these exactly for
the meshed blocks when asked to. -/
theorem C53_call (sq : ℚ → Fl) (useColor : Bool) (fns : VoxelFns V) (isMutable only clear : Bool) {l : VLayer V}
    (wf : WellFormed l) (hn : (l.blocks.map (·.1)).Nodup) (hr : ∀ i, (block? l i).isSome = true → BlockInRange l i)
    (hc : clear = true → isMutable = true) (ml : MeshMap) :
    ∃ l' ml', generateMesh sq useColor fns isMutable only clear (l, ml) = .ok (l', ml') ∧
      (∀ i b, block? l i = some b → only = false ∨ b.updated.get .mesh = true →
        ∃ m, meshOfBlock sq useColor l fns b Mesh.empty = .ok m ∧ ml'.lookup i = some m ∧ m.updated = true) ∧
      (∀ i, (∀ b, block? l i = some b → only = true ∧ b.updated.get .mesh = false) → ml'.lookup i = ml.lookup i) ∧
      (∀ g, content l' g = content l g) ∧
      ∀ i b, block? l i = some b → (block? l' i).map (fun b' => b'.updated.get .mesh) =
        some (b.updated.get .mesh && !(clear && (!only || b.updated.get .mesh))) := by
  obtain ⟨l', ml', e1, e2, e3, e4⟩ := generateMesh_ok sq useColor fns isMutable only clear wf hn hr hc ml
  refine ⟨l', ml', e1, ?_, ?_, ?_, ?_⟩
  · intro i b hb ho
    have hi : (block? l i).isSome = true := by rw [hb]; rfl
    refine ⟨_, meshOfBlock_eq sq useColor wf fns hb (hr i hi) Mesh.empty, ?_, rfl⟩
    rw [e3, if_pos]
    rw [mem_blocksToMesh hn]
    refine ⟨b, hb, fun h => ?_⟩
    rcases ho with ho | ho
    · rw [ho] at h; cases h
    · exact ho
  · intro i hi
    rw [e3, if_neg]
    rw [mem_blocksToMesh hn]
    rintro ⟨b, hb, hf⟩
    obtain ⟨h1, h2⟩ := hi b hb
    rw [hf h1] at h2
    cases h2
  · intro g
    unfold content
    rw [← e2.cfg]
    have := e2.block (g.map (· / (l.cfg.vps : ℤ)))
    unfold block? at this
    cases h1 : l'.blocks.lookup (g.map (· / (l.cfg.vps : ℤ))) <;>
      cases h2 : l.blocks.lookup (g.map (· / (l.cfg.vps : ℤ))) <;> rw [h1, h2] at this <;> simp at this ⊢
    rw [this.2.2.2]
  · intro i b hb
    have := e4 i
    unfold flagOf at this
    rw [this, hb]
    have hmem : i ∈ blocksToMesh only l ↔ (only = true → b.updated.get .mesh = true) := by
      rw [mem_blocksToMesh hn]
      constructor
      · rintro ⟨b', hb', hf⟩
        rw [hb] at hb'
        cases hb'
        exact hf
      · intro hf; exact ⟨b, hb, hf⟩
    simp only [Option.map_some, Option.some.injEq, hmem]
    cases clear <;> cases only <;> cases b.updated.get .mesh <;> simp

example : WellFormed (unitLayer [⟨0, 0, 0⟩] []) ∧ ((unitLayer [⟨0, 0, 0⟩] []).blocks.map (·.1)).Nodup ∧
    ∀ i ∈ (unitLayer [⟨0, 0, 0⟩] []).blocks.map (·.1), BlockInRange (unitLayer [⟨0, 0, 0⟩] []) i := by
  refine ⟨unitLayer_wf, by decide +kernel, ?_⟩
  unfold BlockInRange Vec3.All
  decide +kernel

/-- A meshed layer in which one block is then changed and flagged, as an integrator does. -/
def staleBefore : VLayer (TsdfVoxel ℚ) := unitLayer [⟨0, 0, 0⟩] cubeOffsets

@[inherit_doc staleBefore]
def staleMeshed : VLayer (TsdfVoxel ℚ) where
  cfg := ⟨1, 1⟩
  blocks := cubeOffsets.map fun i => (i, unitBlock i (if i ∈ [(⟨0, 0, 0⟩ : Idx)] then -1 else 1) (Flags.setAll.put .mesh false))

@[inherit_doc staleBefore]
def staleAfter : VLayer (TsdfVoxel ℚ) where
  cfg := ⟨1, 1⟩
  blocks := cubeOffsets.map fun i => (i, unitBlock i (if i ∈ [(⟨0, 0, 0⟩ : Idx), ⟨1, 0, 0⟩] then -1 else 1)
    (if i = ⟨1, 0, 0⟩ then Flags.setAll else Flags.setAll.put .mesh false))

/-- The run of `C53_violated`: is the layer after full meshing `staleMeshed`, and how many vertices has the mesh
of block 0 after incremental and after full meshing of `staleAfter`? -/
def staleRun : Outcome (Bool × Option ℕ × Option ℕ) := do
  let s ← generateMesh (fun _ => .fin 1) false (tsdfFns 0) true false true (staleBefore, [])
  let t ← generateMesh (fun _ => .fin 1) false (tsdfFns 0) true true true (staleAfter, s.2)
  let u ← generateMesh (fun _ => .fin 1) false (tsdfFns 0) true false true (staleAfter, s.2)
  pure (decide (s.1 = staleMeshed), (t.2.lookup ⟨0, 0, 0⟩).map fun m => m.vertices.length,
    (u.2.lookup ⟨0, 0, 0⟩).map fun m => m.vertices.length)

theorem staleRun_eq : staleRun = .ok (true, some 3, some 6) := by decide +kernel

/-- **C53 (violated).** Mesh a layer completely; change one block `j` and flag it (nothing else changes); mesh
the updated blocks. The mesh of a lower neighbour of `j` is left as it was, while meshing everything gives it
another one. -/
theorem C53_violated : ∃ (l l' l1 l2 l3 : VLayer (TsdfVoxel ℚ)) (ml ml2 ml3 : MeshMap) (j : Idx),
    generateMesh (fun _ => .fin 1) false (tsdfFns 0) true false true (l, []) = .ok (l1, ml) ∧
    (∀ i ∈ l1.blocks.map (·.1), i ≠ j → block? l1 i = block? l' i) ∧ l'.blocks.map (·.1) = l1.blocks.map (·.1) ∧
    l'.cfg = l1.cfg ∧ (block? l' j).map (fun b => b.updated.get .mesh) = some true ∧
    generateMesh (fun _ => .fin 1) false (tsdfFns 0) true true true (l', ml) = .ok (l2, ml2) ∧
    generateMesh (fun _ => .fin 1) false (tsdfFns 0) true false true (l', ml) = .ok (l3, ml3) ∧
    content? (ml2.lookup ⟨0, 0, 0⟩) ≠ content? (ml3.lookup ⟨0, 0, 0⟩) := by
  have hu : ∃ s t u, generateMesh (fun _ => .fin 1) false (tsdfFns 0) true false true (staleBefore, []) = .ok s ∧
      generateMesh (fun _ => .fin 1) false (tsdfFns 0) true true true (staleAfter, s.2) = .ok t ∧
      generateMesh (fun _ => .fin 1) false (tsdfFns 0) true false true (staleAfter, s.2) = .ok u ∧
      s.1 = staleMeshed ∧ ((t.2.lookup ⟨0, 0, 0⟩).map fun m => m.vertices.length) = some 3 ∧
      ((u.2.lookup ⟨0, 0, 0⟩).map fun m => m.vertices.length) = some 6 := by
    have h := staleRun_eq
    unfold staleRun at h
    rw [Outcome.bind_eq_ok] at h
    obtain ⟨s, hs, h⟩ := h
    rw [Outcome.bind_eq_ok] at h
    obtain ⟨t, ht, h⟩ := h
    rw [Outcome.bind_eq_ok] at h
    obtain ⟨u, hu, h⟩ := h
    simp only [Outcome.pure_eq, Outcome.ok.injEq, Prod.mk.injEq, decide_eq_true_eq] at h
    exact ⟨s, t, u, hs, ht, hu, h.1, h.2.1, h.2.2⟩
  obtain ⟨⟨l1, ml⟩, ⟨l2, ml2⟩, ⟨l3, ml3⟩, e1, e2, e3, e4, e5, e6⟩ := hu
  refine ⟨_, staleAfter, l1, l2, l3, ml, ml2, ml3, ⟨1, 0, 0⟩, e1, ?_, ?_, ?_, ?_, e2, e3, ?_⟩
  · simp only at e4; rw [e4]; decide +kernel
  · simp only at e4; rw [e4]; decide +kernel
  · simp only at e4; rw [e4]; decide +kernel
  · decide +kernel
  · intro h
    simp only at e5 e6
    cases h2 : ml2.lookup ⟨0, 0, 0⟩ with
    | none => rw [h2] at e5; simp at e5
    | some a =>
      cases h3 : ml3.lookup ⟨0, 0, 0⟩ with
      | none => rw [h3] at e6; simp at e6
      | some b =>
        rw [h2] at e5 h
        rw [h3] at e6 h
        simp only [content?, Option.map_some, Option.some.injEq, Mesh.mk.injEq] at e5 e6 h
        rw [h.1] at e5
        omega

/-- The layer before the change is one that a history can reach, with everything flagged. -/
example : History (fun _ => .fin 1) false (tsdfFns 0) staleBefore [] := by
  refine .update ⟨⟨1, 1⟩, []⟩ staleBefore [] (.start _ _ ⟨by norm_num, by norm_num, by norm_num, by simp⟩ rfl) rfl ?_ ?_ ?_ ?_
  · exact wellFormed_of_check (by decide +kernel)
  · decide +kernel
  · intro i hi
    obtain ⟨b, hb⟩ := Option.isSome_iff_exists.1 hi
    have hm : i ∈ staleBefore.blocks.map (·.1) := List.mem_map.2 ⟨(i, b), mem_keys_of_lookup hb, rfl⟩
    have : ∀ i ∈ staleBefore.blocks.map (·.1), BlockInRange staleBefore i := by
      unfold BlockInRange Vec3.All; decide +kernel
    exact this i hm
  · intro i b hb hf
    have : ∀ e ∈ staleBefore.blocks, e.2.updated.get .mesh = true := by decide +kernel
    have h' := this (i, b) (mem_keys_of_lookup hb)
    simp only at h'
    rw [h'] at hf
    cases hf

end Vox.MeshInt
