/-
The mesh of a whole block in closed form, and its dependence on the blocks above only.
-/
import Verif.Lemmas.MeshColor

namespace Vox.MeshInt

open Spec Layer Grid MC

variable {V : Type}

/-- The triangles of a block in the order in which they are emitted. -/
noncomputable def blockTriangles (l : VLayer V) (sdf : V → Option ℚ) (i : Idx) : List (GridEdge × GridEdge × GridEdge) :=
  (cubeOrder l.cfg.vps).flatMap fun v => layerTriangles l sdf (globalIndex l.cfg.vps i v)

/-- The edges whose crossing points are the vertices. -/
noncomputable def blockEdges (l : VLayer V) (sdf : V → Option ℚ) (i : Idx) : List GridEdge :=
  (blockTriangles l sdf i).flatMap fun t => [t.1, t.2.1, t.2.2]

theorem mem_cubeOrder {n : ℕ} {v : Idx} : v ∈ cubeOrder n ↔ InBlock n v := by
  unfold cubeOrder
  rw [List.mem_append, mem_insideOrder, mem_borderOrder]
  constructor
  · rintro (h | h)
    · obtain ⟨⟨a, b⟩, ⟨c, d⟩, ⟨e, f⟩⟩ := h
      refine ⟨⟨a, by omega⟩, ⟨c, by omega⟩, ⟨e, by omega⟩⟩
    · exact h.1
  · intro h
    by_cases h' : v.All fun c => 0 ≤ c ∧ c + 1 < (n : ℤ)
    · exact Or.inl h'
    · exact Or.inr ⟨h, h'⟩

theorem cubeOrder_nodup (n : ℕ) : (cubeOrder n).Nodup := by
  unfold cubeOrder
  rw [List.nodup_append]
  refine ⟨insideOrder_nodup n, borderOrder_nodup n, ?_⟩
  rintro a ha _ hb rfl
  exact (mem_borderOrder.1 hb).2 (mem_insideOrder.1 ha)

theorem edge_ends {c : Idx} {e : GridEdge} (h : EdgeOfCube c e) :
    ∃ d d', IsCorner d ∧ IsCorner d' ∧ e.base = c + d ∧ e.tip = c + d' := by
  obtain ⟨h0, hx, hy, hz⟩ := h
  refine ⟨⟨e.base.x - c.x, e.base.y - c.y, e.base.z - c.z⟩, ⟨e.tip.x - c.x, e.tip.y - c.y, e.tip.z - c.z⟩, ?_, ?_, ?_, ?_⟩
  · unfold IsCorner Vec3.All
    simp only
    omega
  · unfold IsCorner Vec3.All GridEdge.tip unitStep
    split_ifs with a1 a2 <;> simp only [Vec3.add_x, Vec3.add_y, Vec3.add_z] <;> omega
  · ext <;> simp
  · ext <;> simp

/-- An edge used by a block: an edge of one of its cubes with sign change and all corners observed. -/
theorem mem_blockEdges {l : VLayer V} {sdf : V → Option ℚ} {i : Idx} {e : GridEdge} (h : e ∈ blockEdges l sdf i) :
    ∃ v, InBlock l.cfg.vps v ∧ CubeObserved l sdf (globalIndex l.cfg.vps i v) ∧
      EdgeOfCube (globalIndex l.cfg.vps i v) e ∧ SignChange (negAt l sdf) e := by
  unfold blockEdges blockTriangles at h
  simp only [List.mem_flatMap] at h
  obtain ⟨t, ⟨v, hv, ht⟩, he⟩ := h
  unfold layerTriangles at ht
  split_ifs at ht with hobs
  · have hu := (C50_used_iff (negAt l sdf) (globalIndex l.cfg.vps i v) e).1 ⟨t, ht, by simpa using he⟩
    exact ⟨v, mem_cubeOrder.1 hv, hobs, hu.1, hu.2⟩
  · simp at ht

theorem content_of_sdfAt {l : VLayer V} {sdf : V → Option ℚ} {g : Idx} (h : (sdfAt l sdf g).isSome = true) :
    (content l g).isSome = true := by
  unfold sdfAt at h
  cases hc : content l g with
  | none => rw [hc] at h; simp at h
  | some x => rfl

theorem edgeParam_range {l : VLayer V} {sdf : V → Option ℚ} {e : GridEdge} (h : SignChange (negAt l sdf) e) :
    0 ≤ edgeParam l sdf e ∧ edgeParam l sdf e ≤ 1 := zeroParam_range h

/-- The colour of the vertex on an edge. -/
def edgeColor (l : VLayer V) (fns : VoxelFns V) (i : Idx) (e : GridEdge) : Color :=
  ((content l (colorIdx l i (surfacePoint l fns.sdf e))).bind fns.color).getD Color.default

theorem edge_color_ok {l : VLayer V} (wf : WellFormed l) (fns : VoxelFns V) {i : Idx} {b : Block ℚ V}
    (hb : block? l i = some b) (hr : BlockInRange l i) {e : GridEdge} (he : e ∈ blockEdges l fns.sdf i) :
    colorVertex l fns b ((surfacePoint l fns.sdf e).map .fin) = .ok (edgeColor l fns i e) := by
  obtain ⟨v, hv, hobs, hedge, hs⟩ := mem_blockEdges he
  obtain ⟨h0, h1⟩ := edgeParam_range hs
  obtain ⟨d, d', hd, hd', e1, e2⟩ := edge_ends hedge
  refine colorVertex_eq wf fns hb hr hv e hedge h0 h1 ?_
  rcases colorIdx_cases wf fns.sdf i e h0 h1 with ⟨h, -⟩ | ⟨h, -⟩
  · rw [h, e1]; exact content_of_sdfAt (hobs d hd)
  · rw [h, e2]; exact content_of_sdfAt (hobs d' hd')

theorem triVerts_map {α β : Type} (P : α → β) (ts : List (α × α × α)) :
    triVerts P ts = (ts.flatMap fun t => [t.1, t.2.1, t.2.2]).map P := by
  unfold triVerts
  rw [List.map_flatMap]
  rfl

/-- The mesh of a block in closed form. -/
noncomputable def blockMesh (sq : ℚ → Fl) (useColor : Bool) (l : VLayer V) (fns : VoxelFns V) (i : Idx) : Mesh where
  vertices := (blockEdges l fns.sdf i).map fun e => (surfacePoint l fns.sdf e).map .fin
  indices := List.range (blockEdges l fns.sdf i).length
  normals := triNormals (Arith.exact sq) (fun e => (surfacePoint l fns.sdf e).map .fin) (blockTriangles l fns.sdf i)
  colors := if useColor then (blockEdges l fns.sdf i).map (edgeColor l fns i) else []
  updated := true

theorem blockEdges_length (l : VLayer V) (sdf : V → Option ℚ) (i : Idx) :
    (blockEdges l sdf i).length = 3 * (blockTriangles l sdf i).length := by
  have := triVerts_length (fun e : GridEdge => e) (blockTriangles l sdf i)
  rw [triVerts_map, List.map_id'] at this
  exact this

theorem meshOfBlock_eq (sq : ℚ → Fl) (useColor : Bool) {l : VLayer V} (wf : WellFormed l) (fns : VoxelFns V) {i : Idx}
    {b : Block ℚ V} (hb : block? l i = some b) (hr : BlockInRange l i) (m : Mesh) :
    meshOfBlock sq useColor l fns b m = .ok (blockMesh sq useColor l fns i) := by
  have hx := extractBlockMesh_eq sq wf fns hb hr (clearMesh m) rfl
  have hv : (addTris sq (surfacePoint l fns.sdf) (clearMesh m) (blockTriangles l fns.sdf i)).vertices =
      (blockEdges l fns.sdf i).map fun e => (surfacePoint l fns.sdf e).map .fin := by
    unfold addTris clearMesh
    simp only [List.nil_append, triVerts_map]
    rfl
  have hi : (addTris sq (surfacePoint l fns.sdf) (clearMesh m) (blockTriangles l fns.sdf i)).indices =
      List.range (blockEdges l fns.sdf i).length := by
    unfold addTris clearMesh
    simp only [List.nil_append, List.length_nil, blockEdges_length, List.range_eq_range']
  have hn : (addTris sq (surfacePoint l fns.sdf) (clearMesh m) (blockTriangles l fns.sdf i)).normals =
      triNormals (Arith.exact sq) (fun e => (surfacePoint l fns.sdf e).map .fin) (blockTriangles l fns.sdf i) := by
    unfold addTris clearMesh
    simp only [List.nil_append]
  have hc : (addTris sq (surfacePoint l fns.sdf) (clearMesh m) (blockTriangles l fns.sdf i)).colors = [] := rfl
  unfold meshOfBlock
  rw [hx, Outcome.bind_ok]
  change (do
    let m ← if useColor then updateMeshColor l fns b (addTris sq (surfacePoint l fns.sdf) (clearMesh m) (blockTriangles l fns.sdf i))
      else .ok (addTris sq (surfacePoint l fns.sdf) (clearMesh m) (blockTriangles l fns.sdf i))
    pure { m with updated := true }) = _
  generalize addTris sq (surfacePoint l fns.sdf) (clearMesh m) (blockTriangles l fns.sdf i) = M at *
  cases useColor with
  | false =>
    simp only [Bool.false_eq_true, if_false, Outcome.bind_ok, Outcome.pure_eq, blockMesh]
    rw [hv, hi, hn, hc]
  | true =>
    have hm : M.vertices.mapM (colorVertex l fns b) = .ok ((blockEdges l fns.sdf i).map (edgeColor l fns i)) := by
      rw [hv, List.mapM_map]
      exact Serial.mapM_ok _ _ _ fun e he => edge_color_ok wf fns hb hr he
    simp only [if_true, updateMeshColor]
    rw [hm]
    have hlen : M.vertices.length ≤ M.indices.length := by rw [hv, hi]; simp
    simp only [Outcome.require, hlen, decide_true, if_true, Outcome.bind_ok, Outcome.pure_eq, blockMesh]
    rw [hv, hi, hn]
    simp

/-! ### Locality -/

/-- The voxels of block `i` and of its upper neighbours are the same in both layers. -/
def SameAbove (l l' : VLayer V) (i : Idx) : Prop :=
  ∀ d, IsCorner d → (block? l (i + d)).map (·.voxels) = (block? l' (i + d)).map (·.voxels)

theorem content_same {l l' : VLayer V} (hcfg : l.cfg = l'.cfg) {i v d : Idx} (h : SameAbove l l' i)
    (hv : InBlock l.cfg.vps v) (hd : IsCorner d) :
    content l (globalIndex l.cfg.vps i v + d) = content l' (globalIndex l.cfg.vps i v + d) := by
  set g := globalIndex l.cfg.vps i v + d with hg
  have key : ∀ iv w e : ℤ, 0 ≤ w → w < l.cfg.vps → (e = 0 ∨ e = 1) →
      (iv * l.cfg.vps + w + e) / (l.cfg.vps : ℤ) = iv ∨ (iv * l.cfg.vps + w + e) / (l.cfg.vps : ℤ) = iv + 1 := by
    intro iv w e h0 h1 he
    by_cases hw : w + e < l.cfg.vps
    · left
      exact (div_mod_of (n := l.cfg.vps) (b := iv) (v := w + e) (by omega) hw (by ring)).1.symm
    · right
      exact (div_mod_of (n := l.cfg.vps) (b := iv + 1) (v := w + e - l.cfg.vps) (by omega) (by omega) (by ring)).1.symm
  have hdiv : ∃ d', IsCorner d' ∧ g.map (· / (l.cfg.vps : ℤ)) = i + d' := by
    obtain ⟨⟨x0, x1⟩, ⟨y0, y1⟩, ⟨z0, z1⟩⟩ := hv
    obtain ⟨dx, dy, dz⟩ := hd
    have X := key i.x v.x d.x x0 x1 dx
    have Y := key i.y v.y d.y y0 y1 dy
    have Z := key i.z v.z d.z z0 z1 dz
    refine ⟨⟨g.x / l.cfg.vps - i.x, g.y / l.cfg.vps - i.y, g.z / l.cfg.vps - i.z⟩, ?_, ?_⟩
    · refine ⟨?_, ?_, ?_⟩
      · rcases X with h | h
        · left; change g.x / (l.cfg.vps : ℤ) - i.x = 0; rw [hg]; change (i.x * l.cfg.vps + v.x + d.x) / (l.cfg.vps : ℤ) - i.x = 0; omega
        · right; change (i.x * l.cfg.vps + v.x + d.x) / (l.cfg.vps : ℤ) - i.x = 1; omega
      · rcases Y with h | h
        · left; change (i.y * l.cfg.vps + v.y + d.y) / (l.cfg.vps : ℤ) - i.y = 0; omega
        · right; change (i.y * l.cfg.vps + v.y + d.y) / (l.cfg.vps : ℤ) - i.y = 1; omega
      · rcases Z with h | h
        · left; change (i.z * l.cfg.vps + v.z + d.z) / (l.cfg.vps : ℤ) - i.z = 0; omega
        · right; change (i.z * l.cfg.vps + v.z + d.z) / (l.cfg.vps : ℤ) - i.z = 1; omega
    · ext <;> simp
  obtain ⟨d', hd', hq⟩ := hdiv
  have hs := h d' hd'
  unfold content
  rw [← hcfg, hq]
  unfold block? at hs
  cases h1 : l.blocks.lookup (i + d') <;> cases h2 : l'.blocks.lookup (i + d') <;> rw [h1, h2] at hs <;> simp at hs ⊢
  rw [hs]

theorem layerTriangles_same {l l' : VLayer V} (sdf : V → Option ℚ) {c : Idx}
    (h : ∀ d, IsCorner d → content l (c + d) = content l' (c + d)) : layerTriangles l sdf c = layerTriangles l' sdf c := by
  have hs : ∀ d, IsCorner d → sdfAt l sdf (c + d) = sdfAt l' sdf (c + d) := fun d hd => by unfold sdfAt; rw [h d hd]
  have ho : CubeObserved l sdf c ↔ CubeObserved l' sdf c := by
    unfold CubeObserved
    constructor <;> intro h' d hd
    · rw [← hs d hd]; exact h' d hd
    · rw [hs d hd]; exact h' d hd
  have ht : cubeTriangles (negAt l sdf) c = cubeTriangles (negAt l' sdf) c := by
    have hneg : ∀ k < 8, negAt l sdf (c + off k) = negAt l' sdf (c + off k) := fun k hk => by
      unfold negAt fieldOf
      rw [hs _ (off_corner k hk)]
    unfold cubeTriangles cfgAt cfgIndex signsAt
    rw [hneg 0 (by omega), hneg 1 (by omega), hneg 2 (by omega), hneg 3 (by omega), hneg 4 (by omega), hneg 5 (by omega),
      hneg 6 (by omega), hneg 7 (by omega)]
  unfold layerTriangles
  by_cases h1 : CubeObserved l sdf c
  · rw [if_pos h1, if_pos (ho.1 h1), ht]
  · rw [if_neg h1, if_neg fun h2 => h1 (ho.2 h2)]

/-- Blocks that agree with their upper neighbours have the same mesh. -/
theorem blockMesh_same (sq : ℚ → Fl) (useColor : Bool) {l l' : VLayer V} (wf : WellFormed l) (hcfg : l.cfg = l'.cfg)
    (fns : VoxelFns V) {i : Idx} (h : SameAbove l l' i) : blockMesh sq useColor l fns i = blockMesh sq useColor l' fns i := by
  have hc : ∀ v d, InBlock l.cfg.vps v → IsCorner d →
      content l (globalIndex l.cfg.vps i v + d) = content l' (globalIndex l.cfg.vps i v + d) :=
    fun v d hv hd => content_same hcfg h hv hd
  have ht : blockTriangles l fns.sdf i = blockTriangles l' fns.sdf i := by
    unfold blockTriangles
    rw [← hcfg]
    refine List.flatMap_congr fun v hv => ?_
    exact layerTriangles_same fns.sdf fun d hd => hc v d (mem_cubeOrder.1 hv) hd
  have he : blockEdges l fns.sdf i = blockEdges l' fns.sdf i := by unfold blockEdges; rw [ht]
  have hends : ∀ e ∈ blockEdges l fns.sdf i, content l e.base = content l' e.base ∧ content l e.tip = content l' e.tip := by
    intro e hm
    obtain ⟨v, hv, -, hedge, -⟩ := mem_blockEdges hm
    obtain ⟨d, d', hd, hd', e1, e2⟩ := edge_ends hedge
    rw [e1, e2]
    exact ⟨hc v d hv hd, hc v d' hv hd'⟩
  have hp : ∀ e ∈ blockEdges l fns.sdf i, surfacePoint l fns.sdf e = surfacePoint l' fns.sdf e := by
    intro e hm
    obtain ⟨h1, h2⟩ := hends e hm
    unfold surfacePoint crossing fieldOf sdfAt
    rw [h1, h2, hcfg]
  have hidx : ∀ p, colorIdx l i p = colorIdx l' i p := by
    intro p
    unfold colorIdx gIdx
    rw [hcfg]
  have hcol : ∀ e ∈ blockEdges l fns.sdf i, edgeColor l fns i e = edgeColor l' fns i e := by
    intro e hm
    obtain ⟨h1, h2⟩ := hends e hm
    obtain ⟨v, hv, -, hedge, hs⟩ := mem_blockEdges hm
    obtain ⟨t0, t1⟩ := edgeParam_range hs
    unfold edgeColor
    rw [← hp e hm, ← hidx]
    rcases colorIdx_cases wf fns.sdf i e t0 t1 with ⟨hh, -⟩ | ⟨hh, -⟩ <;> rw [hh]
    · rw [h1]
    · rw [h2]
  unfold blockMesh
  congr 1
  · rw [← he]
    exact List.map_congr_left fun e hm => by rw [hp e hm]
  · rw [he]
  · rw [← ht]
    unfold triNormals
    refine List.flatMap_congr fun t htm => ?_
    have m : ∀ e, e = t.1 ∨ e = t.2.1 ∨ e = t.2.2 → e ∈ blockEdges l fns.sdf i := by
      intro e hh
      unfold blockEdges
      exact List.mem_flatMap.2 ⟨t, htm, by simpa using hh⟩
    beta_reduce
    rw [hp _ (m _ (Or.inl rfl)), hp _ (m _ (Or.inr (Or.inl rfl))), hp _ (m _ (Or.inr (Or.inr rfl)))]
  · split_ifs
    · rw [← he]
      exact List.map_congr_left hcol
    · rfl

end Vox.MeshInt
