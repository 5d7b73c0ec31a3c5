/-
C54: indices of generated and combined meshes. C55: connected meshes.
-/
import Verif.Lemmas.MeshNormals
import Verif.Props.MeshIntegrator
import Mathlib.Tactic.FieldSimp

namespace Vox.MeshOps

open MC Spec Layer Grid MeshInt

variable {V : Type}

/-! ### C54: block meshes -/

theorem soup_empty (c u : Bool) : TriangleSoup c ⟨[], [], [], [], u⟩ := ⟨rfl, rfl, rfl, by cases c <;> rfl⟩

theorem soup_valid {c : Bool} {m : Mesh} (h : TriangleSoup c m) : ValidIndices m := by
  refine ⟨by rw [h.indices, List.length_range]; exact h.three, ?_⟩
  intro i hi
  rw [h.indices] at hi
  exact List.mem_range.1 hi

theorem soup_positions {c : Bool} {m : Mesh} (h : TriangleSoup c m) : positions m = m.vertices.map some := by
  unfold positions
  rw [h.indices]
  apply List.ext_getElem?
  intro i
  rw [List.getElem?_map, List.getElem?_map]
  rcases Nat.lt_or_ge i m.vertices.length with hi | hi
  · rw [List.getElem?_range hi]; simp [List.getElem?_eq_getElem hi]
  · rw [List.getElem?_eq_none (by simpa using hi), List.getElem?_eq_none hi]; rfl

/-- **C54 (block meshes).** The mesh of an allocated block is a triangle soup: consecutive indices in range, a
multiple of three, a normal and (if asked for) a colour per vertex. -/
theorem C54_block (sq : ℚ → Fl) (useColor : Bool) {l : VLayer V} (wf : WellFormed l) (fns : VoxelFns V) {i : Idx}
    {b : Block ℚ V} (hb : block? l i = some b) (hr : BlockInRange l i) (m : Mesh) :
    ∃ m', meshOfBlock sq useColor l fns b m = .ok m' ∧ TriangleSoup useColor m' := by
  refine ⟨_, meshOfBlock_eq sq useColor wf fns hb hr m, ?_, ?_, ?_, ?_⟩
  · simp only [blockMesh, List.length_map, blockEdges_length]; omega
  · simp [blockMesh]
  · simp [blockMesh, triNormals_length, blockEdges_length]
  · cases useColor <;> simp [blockMesh]

theorem mem_setMesh {ml : MeshMap} {i : Idx} {m : Mesh} {P : Mesh → Prop} (h : ∀ e ∈ ml, P e.2) (hm : P m) :
    ∀ e ∈ setMesh ml i m, P e.2 := by
  intro e he
  unfold setMesh at he
  obtain ⟨e0, h0, rfl⟩ := List.mem_map.1 he
  split_ifs
  · exact hm
  · exact h e0 h0

theorem mem_allocate {ml : MeshMap} {c : Bool} (is : List Idx) (h : ∀ e ∈ ml, TriangleSoup c e.2) :
    ∀ e ∈ is.foldl allocateMesh ml, TriangleSoup c e.2 := by
  induction is generalizing ml with
  | nil => exact h
  | cons i is ih =>
    rw [List.foldl_cons]
    refine ih ?_
    unfold allocateMesh
    cases ml.lookup i with
    | some _ => exact h
    | none =>
      intro e he
      rcases List.mem_cons.1 he with rfl | he
      · exact soup_empty c false
      · exact h e he

theorem meshBlocks_soup (sq : ℚ → Fl) (useColor : Bool) (fns : VoxelFns V) (clear : Bool) {l0 : VLayer V} (wf0 : WellFormed l0)
    (hr : ∀ i, (block? l0 i).isSome = true → BlockInRange l0 i) :
    ∀ (is : List Idx) (l l' : VLayer V) (ml ml' : MeshMap), SameVoxels l0 l → (∀ e ∈ ml, TriangleSoup useColor e.2) →
      meshBlocks sq useColor fns clear is (l, ml) = .ok (l', ml') → ∀ e ∈ ml', TriangleSoup useColor e.2 := by
  intro is
  induction is with
  | nil =>
    intro l l' ml ml' _ h hg
    simp only [meshBlocks, Outcome.ok.injEq, Prod.mk.injEq] at hg
    rw [← hg.2]; exact h
  | cons i is ih =>
    intro l l' ml ml' hs h hg
    unfold meshBlocks at hg
    rw [Outcome.bind_eq_ok] at hg
    obtain ⟨ml1, h1, hg⟩ := hg
    have hml1 : ∀ e ∈ ml1, TriangleSoup useColor e.2 := by
      unfold updateMeshForBlock at h1
      cases hm : ml.lookup i with
      | none => rw [hm] at h1; cases h1
      | some m =>
        rw [hm] at h1
        simp only at h1
        cases hb : block? l i with
        | none =>
          rw [hb] at h1
          simp only [Outcome.ok.injEq] at h1
          rw [← h1]
          exact mem_setMesh h (soup_empty _ _)
        | some b =>
          rw [hb] at h1
          have hri : BlockInRange l i := by
            have := hr i (by rw [← hs.isSome, hb]; rfl)
            unfold BlockInRange at this ⊢
            rw [← hs.cfg]; exact this
          obtain ⟨m', e1, e2⟩ := C54_block sq useColor (hs.wf wf0) fns hb hri m
          simp only [e1, Outcome.bind_ok, Outcome.pure_eq, Outcome.ok.injEq] at h1
          rw [← h1]
          exact mem_setMesh h e2
    cases clear with
    | true =>
      simp only [if_true] at hg
      cases hb : block? l i with
      | none => rw [hb] at hg; cases hg
      | some b =>
        rw [hb] at hg
        exact ih _ _ _ _ (hs.trans (resetMeshFlag_same l i)) hml1 hg
    | false => exact ih _ _ _ _ hs hml1 hg

/-- **C54 (mesh layer).** If all meshes of a mesh layer are triangle soups, so are all meshes after a call of
`generateMesh`, whatever it meshes. -/
theorem C54_generate (sq : ℚ → Fl) (useColor : Bool) (fns : VoxelFns V) (isMutable only clear : Bool) {l l' : VLayer V}
    (wf : WellFormed l) (hr : ∀ i, (block? l i).isSome = true → BlockInRange l i) {ml ml' : MeshMap}
    (h : ∀ e ∈ ml, TriangleSoup useColor e.2)
    (hg : generateMesh sq useColor fns isMutable only clear (l, ml) = .ok (l', ml')) :
    ∀ e ∈ ml', TriangleSoup useColor e.2 := by
  unfold generateMesh at hg
  rw [Outcome.bind_eq_ok] at hg
  obtain ⟨_, -, hg⟩ := hg
  exact meshBlocks_soup sq useColor fns clear wf hr _ _ _ _ _ (SameVoxels.refl l) (mem_allocate _ h) hg

example : ∃ s, generateMesh (fun _ => .fin 1) true (tsdfFns 0) true false true (staleBefore, []) = .ok s := by
  obtain ⟨l', ml', h, -⟩ := generateMesh_ok (fun _ => .fin 1) true (tsdfFns 0) true false true (l := staleBefore)
    (wellFormed_of_check (by decide +kernel)) (by decide +kernel) (by
      intro i hi
      obtain ⟨b, hb⟩ := Option.isSome_iff_exists.1 hi
      have : ∀ i ∈ staleBefore.blocks.map (·.1), BlockInRange staleBefore i := by
        unfold BlockInRange Vec3.All; decide +kernel
      exact this i (List.mem_map.2 ⟨(i, b), mem_keys_of_lookup hb, rfl⟩)) (fun _ => rfl) []
  exact ⟨_, h⟩

/-! ### C54: combining -/

/-- **C54 (concatenation).** Concatenation succeeds exactly if both meshes have colours or both have none, and
likewise normals and triangles; then valid indices stay valid and the triangles are those of the first mesh
followed by those of the second, at the same positions. -/
theorem C54_concatenate (m o : Mesh) (hm : ValidIndices m) (ho : ValidIndices o)
    (hc : m.colors = [] ↔ o.colors = []) (hn : m.normals = [] ↔ o.normals = []) (hi : m.indices = [] ↔ o.indices = []) :
    ∃ r, concatenateMesh m o = .ok r ∧ ValidIndices r ∧ positions r = positions m ++ positions o ∧
      r.vertices = m.vertices ++ o.vertices ∧ r.colors = m.colors ++ o.colors ∧ r.normals = m.normals ++ o.normals := by
  have e : ∀ {α β : Type} (a : List α) (b : List β), (a = [] ↔ b = []) → (!b.isEmpty == !a.isEmpty) = true := by
    intro α β a b h
    cases a <;> cases b <;> simp_all
  unfold concatenateMesh
  simp only [e _ _ hc, e _ _ hn, e _ _ hi, Outcome.check, if_true, Outcome.bind_ok, Outcome.pure_eq]
  refine ⟨_, rfl, ⟨?_, ?_⟩, ?_, rfl, rfl, rfl⟩
  · simp only [List.length_append, List.length_map]
    have := hm.1
    have := ho.1
    omega
  · intro i hi
    simp only [List.mem_append, List.mem_map, List.length_append] at hi ⊢
    rcases hi with hi | ⟨j, hj, rfl⟩
    · have := hm.2 i hi; omega
    · have := ho.2 j hj; omega
  · unfold positions
    simp only [List.map_append, List.map_map]
    congr 1
    · refine List.map_congr_left fun i hi => ?_
      rw [List.getElem?_append_left (hm.2 i hi)]
    · refine List.map_congr_left fun i _ => ?_
      simp only [Function.comp_apply]
      rw [List.getElem?_append_right (by omega)]
      congr 1
      omega

/-- Concatenation aborts when one mesh has colours and the other has none, e.g. when it starts from an empty
mesh. -/
theorem C54_concatenate_abort (m o : Mesh) (hc : ¬ (m.colors = [] ↔ o.colors = [])) : concatenateMesh m o = .fatal := by
  have : (!o.colors.isEmpty == !m.colors.isEmpty) = false := by
    cases h1 : m.colors <;> cases h2 : o.colors <;> simp_all
  unfold concatenateMesh
  simp only [this, Outcome.check, Bool.false_eq_true, if_false]
  rfl

/-- A triangle for the examples. -/
def oneTriangle (z : ℚ) : Mesh :=
  ⟨[⟨.fin 0, .fin 0, .fin z⟩, ⟨.fin 1, .fin 0, .fin z⟩, ⟨.fin 0, .fin 1, .fin z⟩], [0, 1, 2],
   [⟨.fin 0, .fin 0, .fin 1⟩, ⟨.fin 0, .fin 0, .fin 1⟩, ⟨.fin 0, .fin 0, .fin 1⟩], [], true⟩

theorem oneTriangle_soup (z : ℚ) : TriangleSoup false (oneTriangle z) := by
  refine ⟨?_, ?_, ?_, ?_⟩ <;> simp [oneTriangle, List.range_succ]

example : ValidIndices (oneTriangle 0) ∧ ValidIndices (oneTriangle 1) := ⟨soup_valid (oneTriangle_soup 0), soup_valid (oneTriangle_soup 1)⟩

example : (concatenateMesh (oneTriangle 0) (oneTriangle 1) >>= fun m => .ok m.indices) = .ok [0, 1, 2, 3, 4, 5] := by
  decide +kernel

/-- **C54 (layer-wide mesh).** Combining triangle soups of one kind into an empty mesh succeeds; the result is a
triangle soup whose triangles are those of the given meshes, in order, at the same positions and with the same
colours and normals. -/
theorem C54_getMesh (colored : Bool) (ms : List Mesh) (h : ∀ m ∈ ms, TriangleSoup colored m) :
    ∃ r, getMesh ms Mesh.empty = .ok r ∧ TriangleSoup colored r ∧ r.vertices = ms.flatMap (·.vertices) ∧
      r.normals = ms.flatMap (·.normals) ∧ r.colors = ms.flatMap (·.colors) ∧ positions r = ms.flatMap positions := by
  have hlen : ∀ {α : Type} (f : Mesh → List α), (ms.flatMap f).length = (ms.map fun m => (f m).length).sum := by
    intro α f; rw [List.length_flatMap]
  have hsumn : (ms.flatMap (·.normals)).length = (ms.flatMap (·.vertices)).length := by
    rw [hlen, hlen]
    congr 1
    exact List.map_congr_left fun m hm => (h m hm).normals
  have hsumc : (ms.flatMap (·.colors)).length = if colored then (ms.flatMap (·.vertices)).length else 0 := by
    rw [hlen, hlen]
    cases colored with
    | true =>
      simp only [if_true]
      congr 1
      exact List.map_congr_left fun m hm => by simpa using (h m hm).colors
    | false =>
      simp only [Bool.false_eq_true, if_false]
      have : (ms.map fun m => m.colors.length) = ms.map fun _ => 0 :=
        List.map_congr_left fun m hm => by simpa using (h m hm).colors
      rw [this]
      simp
  have hthree : (ms.flatMap (·.vertices)).length % 3 = 0 := by
    clear hsumn hsumc hlen
    induction ms with
    | nil => rfl
    | cons m ms ih =>
      simp only [List.flatMap_cons, List.length_append]
      have := (h m List.mem_cons_self).three
      have := ih fun m' h' => h m' (List.mem_cons_of_mem _ h')
      omega
  -- the combined mesh
  have hcopy : ms.foldlM (copyMesh (combinedFlags ms) (ms.map fun m => m.vertices.length).sum) (0, Mesh.empty) =
      .ok ((ms.flatMap (·.vertices)).length, ⟨ms.flatMap (·.vertices), List.range (ms.flatMap (·.vertices)).length,
        ms.flatMap (·.normals), ms.flatMap (·.colors), false⟩) := by
    by_cases hne : ∃ m ∈ ms, m.vertices ≠ []
    · have hflags : combinedFlags ms = (colored, true, true) := by
        unfold combinedFlags
        cases hf : ms.find? fun m => !m.vertices.isEmpty with
        | none =>
          obtain ⟨m, hm, hv⟩ := hne
          have := List.find?_eq_none.1 hf m hm
          simp at this
          exact absurd this hv
        | some m =>
          have hv : m.vertices ≠ [] := by simpa using List.find?_some hf
          have hm := h m (List.mem_of_find?_eq_some hf)
          have hl : m.vertices.length ≠ 0 := by simpa using hv
          have h1 : m.colors.isEmpty = !colored := by
            have := hm.colors
            cases colored
            · simp at this; simp [this]
            · simp only [if_true] at this
              have h' : m.colors ≠ [] := by intro h''; rw [h''] at this; simp at this; omega
              simpa using h'
          have h2 : m.normals.isEmpty = false := by
            have := hm.normals
            have h' : m.normals ≠ [] := by intro h''; rw [h''] at this; simp at this; omega
            simpa using h'
          have h3 : m.indices.isEmpty = false := by
            have := hm.indices
            have h' : m.indices ≠ [] := by rw [this]; simpa using hv
            simpa using h'
          simp [h1, h2, h3]
      rw [hflags, copyAll_ok (fc := colored) (fn := true) ms (by
        intro m hm
        refine ⟨(h m hm).three, (h m hm).colors, by simpa using (h m hm).normals, ?_⟩
        intro hv
        rw [(h m hm).indices]
        simpa using hv) 0 Mesh.empty (by omega)]
      simp only [extend, Mesh.empty, List.nil_append, Nat.zero_add, hlen, List.range_eq_range']
    · push Not at hne
      have hz : (ms.map fun m => m.vertices.length) = ms.map fun _ => 0 :=
        List.map_congr_left fun m hm => by rw [hne m hm]; rfl
      have hv0 : ms.flatMap (·.vertices) = [] := by
        rw [List.flatMap_eq_nil_iff]; exact hne
      have hn0 : ms.flatMap (·.normals) = [] := by
        refine List.eq_nil_of_length_eq_zero ?_
        rw [hsumn, hv0]; rfl
      have hc0 : ms.flatMap (·.colors) = [] := by
        refine List.eq_nil_of_length_eq_zero ?_
        rw [hsumc, hv0]; cases colored <;> rfl
      rw [hv0, hn0, hc0]
      have : ∀ (fl : Bool × Bool × Bool) (sz : ℕ) (xs : List Mesh), (∀ m ∈ xs, m.vertices = []) →
          xs.foldlM (copyMesh fl sz) (0, Mesh.empty) = .ok (0, Mesh.empty) := by
        intro fl sz xs hx
        induction xs with
        | nil => rfl
        | cons m xs ih =>
          rw [List.foldlM_cons]
          have h0 : copyMesh fl sz (0, Mesh.empty) m = .ok (0, Mesh.empty) := by
            unfold copyMesh
            rw [hx m List.mem_cons_self]
            rfl
          rw [h0, Outcome.bind_ok]
          exact ih fun m' h' => hx m' (List.mem_cons_of_mem _ h')
      rw [this _ _ _ hne]
      rfl
  refine ⟨⟨ms.flatMap (·.vertices), List.range (ms.flatMap (·.vertices)).length, ms.flatMap (·.normals),
    ms.flatMap (·.colors), false⟩, ?_, ⟨hthree, rfl, hsumn, hsumc⟩, rfl, rfl, rfl, ?_⟩
  · unfold getMesh
    rw [hcopy, Outcome.bind_ok]
    have c1 : ((ms.flatMap (·.colors)).isEmpty || decide ((ms.flatMap (·.vertices)).length = (ms.flatMap (·.colors)).length)) = true := by
      rw [hsumc]
      cases colored with
      | true => simp
      | false =>
        have : ms.flatMap (·.colors) = [] := List.eq_nil_of_length_eq_zero hsumc
        simp [this]
    have c2 : ((ms.flatMap (·.normals)).isEmpty || decide ((ms.flatMap (·.vertices)).length = (ms.flatMap (·.normals)).length)) = true := by
      rw [hsumn]; simp
    simp only [c1, c2, Outcome.check, if_true, Outcome.bind_ok, List.length_range, decide_true, Outcome.pure_eq]
  · rw [soup_positions (c := colored) ⟨hthree, rfl, hsumn, hsumc⟩]
    simp only [List.map_flatMap]
    exact List.flatMap_congr fun m hm => (soup_positions (h m hm)).symm

example : ∀ m ∈ [oneTriangle 0, Mesh.empty, oneTriangle 1], TriangleSoup false m := by
  intro m hm
  simp only [List.mem_cons, List.not_mem_nil, or_false] at hm
  rcases hm with rfl | rfl | rfl
  · exact oneTriangle_soup 0
  · exact soup_empty _ _
  · exact oneTriangle_soup 1

/-- **C54 (violated for a mesh that is not empty).** `getMesh` neither clears the mesh handed in nor offsets the
new indices: the triangle of the layer is lost and the old one doubled, without any check failing. -/
theorem C54_getMesh_reused_wrong :
    ∃ r, getMesh [oneTriangle 1] (oneTriangle 0) = .ok r ∧ ValidIndices r ∧
      positions r = positions (oneTriangle 0) ++ positions (oneTriangle 0) ∧
      positions r ≠ positions (oneTriangle 0) ++ positions (oneTriangle 1) := by
  refine ⟨⟨(oneTriangle 0).vertices ++ (oneTriangle 1).vertices, [0, 1, 2, 0, 1, 2],
    (oneTriangle 0).normals ++ (oneTriangle 1).normals, [], true⟩, by decide +kernel, ⟨by decide, by decide⟩, by decide +kernel,
    by decide +kernel⟩

/-! ### C55 -/

theorem connect_start (K : Vec3 Fl → Idx) (colored : Bool) (src : List (Vec3 Fl)) :
    InvT K colored src [] [] ⟨[], 0, Mesh.empty⟩ := by
  refine ⟨⟨rfl, rfl, ?_, rfl, by cases colored <;> rfl, by simp [Mesh.empty]⟩, rfl, by simp [Mesh.empty], rfl⟩
  intro key j
  simp [firstSeen]

/-- **C55 and C54 (connected mesh).** Full statement: connecting any meshes gives one vertex per occupied cell and
keeps exactly the triangles with corners in three different cells. The code needs normals (`C55_no_normals`).
For meshes with a normal per vertex, valid indices and vertices in range of the cell computation it holds: the
cells of the vertices are the cells of the given vertices in order of first occurrence, each once; every vertex
is one of the given ones; the triangles, seen as triples of cells, are the given triangles without those that
have two corners in one cell, in order; all indices are valid; normals (and colours) are complete. Any rounding of
`double` and `float` arithmetic. -/
theorem C55_connected_partial (D F : Arith) (thr : Fl) (K : Vec3 Fl → Idx) (colored : Bool) (ms : List Mesh)
    (hcell : ∀ m ∈ ms, ∀ v ∈ m.vertices, vertexKey D (D.div (.fin 1) thr) v = .ok (K v))
    (hcount : ∀ m ∈ ms, m.vertices.length = m.indices.length) (hvalid : ∀ m ∈ ms, ValidIndices m)
    (hnorm : ∀ m ∈ ms, m.normals.length = m.vertices.length)
    (hcol : ∀ m ∈ ms, m.colors.length = if colored then m.vertices.length else 0) :
    ∃ r, createConnectedMesh D F thr ms Mesh.empty = .ok r ∧ ValidIndices r ∧
      r.vertices.map K = firstSeen (ms.flatMap fun m => m.vertices.map K) ∧
      (∀ v ∈ r.vertices, ∃ m ∈ ms, v ∈ m.vertices) ∧
      cellTriangles K r = (ms.flatMap (cellTriangles K)).filter (fun t => decide (Distinct3 t)) ∧
      r.normals.length = r.vertices.length ∧ r.colors.length = if colored then r.vertices.length else 0 := by
  obtain ⟨st, e1, e2, -⟩ := connectAll_ok (D := D) (F := F) (inv := D.div (.fin 1) thr) (K := K) (colored := colored)
    (src := ms.flatMap (·.vertices)) ms (by
      intro m hm
      refine ⟨hcell m hm, hcount m hm, ?_, (hvalid m hm).2, hnorm m hm, hcol m hm⟩
      rw [hcount m hm]; exact (hvalid m hm).1) (by
      intro m hm v hv
      exact List.mem_flatMap.2 ⟨m, hm, hv⟩) [] [] ⟨[], 0, Mesh.empty⟩ (connect_start K colored _)
  simp only [List.nil_append] at e2
  refine ⟨st.mesh, ?_, ⟨e2.three, e2.valid⟩, e2.cells, ?_, e2.tri, e2.normals, e2.colors⟩
  · unfold createConnectedMesh
    rw [e1, Outcome.bind_ok]
    have c1 : (st.mesh.colors.isEmpty || decide (st.mesh.vertices.length = st.mesh.colors.length)) = true := by
      have := e2.colors
      cases colored with
      | true => simp only [if_true] at this; simp [this]
      | false =>
        have h' : st.mesh.colors = [] := by simpa using this
        simp [h']
    have c2 : (st.mesh.normals.isEmpty || decide (st.mesh.vertices.length = st.mesh.normals.length)) = true := by
      simp [e2.normals]
    simp only [c1, c2, Outcome.check, if_true, Outcome.bind_ok, Outcome.pure_eq]
  · intro v hv
    exact List.mem_flatMap.1 (e2.source v hv)

/-- **C55 (what the vertices carry).** In the connected mesh (hypotheses as in `C55_connected_partial`) every vertex
is the first given vertex in its cell, has the colour of that vertex, and the combined normal of its cell: the
normals of each mesh in the cell are added to the normal so far and the sum is scaled to length one. -/
theorem C55_data_partial (D F : Arith) (thr : Fl) (K : Vec3 Fl → Idx) (colored : Bool) (ms : List Mesh)
    (hcell : ∀ m ∈ ms, ∀ v ∈ m.vertices, vertexKey D (D.div (.fin 1) thr) v = .ok (K v))
    (hcount : ∀ m ∈ ms, m.vertices.length = m.indices.length) (hvalid : ∀ m ∈ ms, ValidIndices m)
    (hnorm : ∀ m ∈ ms, m.normals.length = m.vertices.length)
    (hcol : ∀ m ∈ ms, m.colors.length = if colored then m.vertices.length else 0) :
    ∃ r, createConnectedMesh D F thr ms Mesh.empty = .ok r ∧
      ∀ (j : ℕ) (v : Vec3 Fl), r.vertices[j]? = some v →
        firstIn K (K v) (ms.flatMap fun m => m.vertices.zip m.vertices) = some v ∧
        r.normals[j]? = cellNormal F K (K v) ms ∧
        r.colors[j]? = firstIn K (K v) (ms.flatMap fun m => m.vertices.zip m.colors) := by
  obtain ⟨r, hr, -⟩ := C55_connected_partial D F thr K colored ms hcell hcount hvalid hnorm hcol
  refine ⟨r, hr, ?_⟩
  unfold createConnectedMesh at hr
  rw [Outcome.bind_eq_ok] at hr
  obtain ⟨st, e1, hr⟩ := hr
  rw [Outcome.bind_eq_ok] at hr
  obtain ⟨_, -, hr⟩ := hr
  rw [Outcome.bind_eq_ok] at hr
  obtain ⟨_, -, hr⟩ := hr
  have er : st.mesh = r := Outcome.ok.inj hr
  have hm : ∀ m ∈ ms, Connectable D (D.div (.fin 1) thr) K colored m := by
    intro m hm
    refine ⟨hcell m hm, hcount m hm, ?_, (hvalid m hm).2, hnorm m hm, hcol m hm⟩
    rw [hcount m hm]; exact (hvalid m hm).1
  have hsrc : ∀ m ∈ ms, ∀ v ∈ m.vertices, v ∈ ms.flatMap (·.vertices) := by
    intro m hm v hv
    exact List.mem_flatMap.2 ⟨m, hm, hv⟩
  obtain ⟨st', f1, f2, -⟩ := connectAll_ok (D := D) (F := F) ms hm hsrc [] [] _ (connect_start K colored _)
  rw [e1] at f1
  have := Outcome.ok.inj f1
  subst this
  have hh := connectAll_holds ms hm hsrc [] [] _ st ⟨fun _ => none, fun _ => none, fun _ => none⟩
    (connect_start K colored _) ⟨fun _ => rfl, fun _ => rfl, fun _ => rfl⟩ (by intro key; cases colored <;> rfl) e1
  intro j v hv
  rw [← er] at hv ⊢
  have hl : st.uniques.lookup (K v) = some j := by
    rw [f2.look, ← f2.cells, List.getElem?_map, hv]; rfl
  have h1 := hh.pos (K v)
  have h2 := hh.normal (K v)
  have h3 := hh.color (K v)
  rw [hl, Option.bind_some] at h1 h2 h3
  rw [mesh_pos] at h1
  rw [mesh_normal] at h2
  rw [mesh_color] at h3
  rw [Option.none_or] at h1 h3
  exact ⟨by rw [← h1, hv], h2, h3⟩

/-- With exact arithmetic a combined normal has length one, wherever the square root is exact and the sum is not
too short. -/
theorem C55_unit (sq : ℚ → Fl) (n : Pt) (s : ℚ) (hs : sq (n.x * n.x + n.y * n.y + n.z * n.z) = .fin s)
    (hss : s * s = n.x * n.x + n.y * n.y + n.z * n.z) (hlong : 1 / 1000000 < s) :
    ∃ u : Pt, unitNormal (Arith.exact sq) (n.map .fin) = u.map .fin ∧ u.x * u.x + u.y * u.y + u.z * u.z = 1 ∧
      ∃ k : ℚ, 0 < k ∧ n = ⟨k * u.x, k * u.y, k * u.z⟩ := by
  have hs0 : s ≠ 0 := by rintro rfl; norm_num at hlong
  have hsp : 0 < s := by linarith
  have hnn : 0 ≤ n.x * n.x + n.y * n.y + n.z * n.z := by rw [← hss]; exact mul_self_nonneg s
  have hnorm : (Arith.exact sq).norm (n.map .fin) = .fin s := by
    simp only [Arith.norm, Arith.dot, Arith.exact, Arith.mul, Arith.add, Vec3.map, Arith.sqrtFl, hnn, if_true, hs]
  refine ⟨⟨n.x / s, n.y / s, n.z / s⟩, ?_, ?_, s, hsp, ?_⟩
  · have hlt : Fl.lt (.fin (1 / 1000000)) (.fin s) = true := by simpa [Fl.lt] using hlong
    unfold unitNormal
    rw [hnorm, if_pos hlt]
    simp only [Vec3.map, Arith.div, if_neg hs0, Arith.exact]
  · field_simp
    linarith
  · obtain ⟨x, y, z⟩ := n
    simp only [Vec3.mk.injEq]
    refine ⟨?_, ?_, ?_⟩ <;> field_simp

/-- A length that the square root gets right: 3-4-0. -/
example : (5 : ℚ) * 5 = 3 * 3 + 4 * 4 + 0 * 0 ∧ (1 : ℚ) / 1000000 < 5 := by norm_num

/-- One vertex per cell. -/
theorem C55_one_per_cell (cells : List Idx) : (firstSeen cells).Nodup ∧ ∀ k, k ∈ firstSeen cells ↔ k ∈ cells :=
  ⟨firstSeen_nodup cells, mem_firstSeen cells⟩

theorem roundHalfAway_close (q : ℚ) : |q - roundHalfAway q| ≤ 1 / 2 := by
  unfold roundHalfAway
  rw [abs_le]
  split_ifs
  · have h1 := Int.floor_le (q + 1 / 2)
    have h2 := Int.lt_floor_add_one (q + 1 / 2)
    constructor <;> linarith
  · have h1 := Int.le_ceil (q - 1 / 2)
    have h2 := Int.ceil_lt_add_one (q - 1 / 2)
    constructor <;> linarith

/-- **C55 (no vertex moves further than the threshold).** Two vertices in the same cell differ by at most the
threshold along each axis (cells computed exactly). -/
theorem C55_close (sq : ℚ → Fl) (t : ℚ) (ht : 0 < t) (v w : Pt) (k : Idx)
    (hv : vertexKey (Arith.exact sq) ((Arith.exact sq).div (.fin 1) (.fin t)) (v.map .fin) = .ok k)
    (hw : vertexKey (Arith.exact sq) ((Arith.exact sq).div (.fin 1) (.fin t)) (w.map .fin) = .ok k) :
    |v.x - w.x| ≤ t ∧ |v.y - w.y| ≤ t ∧ |v.z - w.z| ≤ t := by
  have hdiv : (Arith.exact sq).div (.fin 1) (.fin t) = .fin (1 / t) := by
    simp [Arith.div, Arith.exact, ht.ne']
  have key : ∀ (q : ℚ) (n : ℤ), roundKey ((Arith.exact sq).mul (.fin q) (.fin (1 / t))) = .ok n → |q / t - n| ≤ 1 / 2 := by
    intro q n h
    have e : (Arith.exact sq).mul (.fin q) (.fin (1 / t)) = .fin (q / t) := by
      simp only [Arith.mul, Arith.exact, Fl.fin.injEq]; ring
    rw [e] at h
    simp only [roundKey] at h
    split_ifs at h
    cases h
    exact roundHalfAway_close _
  have comb : ∀ (a b : ℚ) (n : ℤ), |a / t - n| ≤ 1 / 2 → |b / t - n| ≤ 1 / 2 → |a - b| ≤ t := by
    intro a b n h1 h2
    rw [abs_le] at h1 h2 ⊢
    have e1 : a = a / t * t := by field_simp
    have e2 : b = b / t * t := by field_simp
    constructor
    · rw [e1, e2]; nlinarith
    · rw [e1, e2]; nlinarith
  have split : ∀ u : Pt, vertexKey (Arith.exact sq) ((Arith.exact sq).div (.fin 1) (.fin t)) (u.map .fin) = .ok k →
      |u.x / t - k.x| ≤ 1 / 2 ∧ |u.y / t - k.y| ≤ 1 / 2 ∧ |u.z / t - k.z| ≤ 1 / 2 := by
    intro u h
    unfold vertexKey at h
    rw [hdiv, Outcome.bind_eq_ok] at h
    obtain ⟨x, hx, h⟩ := h
    rw [Outcome.bind_eq_ok] at h
    obtain ⟨y, hy, h⟩ := h
    rw [Outcome.bind_eq_ok] at h
    obtain ⟨z, hz, h⟩ := h
    simp only [Outcome.pure_eq, Outcome.ok.injEq] at h
    subst h
    exact ⟨key _ _ hx, key _ _ hy, key _ _ hz⟩
  obtain ⟨a1, a2, a3⟩ := split v hv
  obtain ⟨b1, b2, b3⟩ := split w hw
  exact ⟨comb _ _ _ a1 b1, comb _ _ _ a2 b2, comb _ _ _ a3 b3⟩

example : vertexKey (Arith.exact fun _ => .fin 1) ((Arith.exact fun _ => .fin 1).div (.fin 1) (.fin (1 / 10)))
      ((⟨1, 2, 3⟩ : Pt).map .fin) = .ok ⟨10, 20, 30⟩ ∧
    vertexKey (Arith.exact fun _ => .fin 1) ((Arith.exact fun _ => .fin 1).div (.fin 1) (.fin (1 / 10)))
      ((⟨1 + 1 / 50, 2, 3⟩ : Pt).map .fin) = .ok ⟨10, 20, 30⟩ := by decide +kernel

/-- Two triangles sharing an edge, with their own vertices. -/
def twoTriangles (normals : Bool) : Mesh :=
  ⟨[⟨.fin 0, .fin 0, .fin 0⟩, ⟨.fin 1, .fin 0, .fin 0⟩, ⟨.fin 0, .fin 1, .fin 0⟩,
    ⟨.fin 1, .fin 0, .fin 0⟩, ⟨.fin 1, .fin 1, .fin 0⟩, ⟨.fin 0, .fin 1, .fin 0⟩], [0, 1, 2, 3, 4, 5],
   if normals then List.replicate 6 ⟨.fin 0, .fin 0, .fin 1⟩ else [], [], true⟩

/-- Connecting them: four vertices, two triangles. -/
example : (createConnectedMesh (Arith.exact fun _ => .fin 1) (Arith.exact fun _ => .fin 1) (.fin (1 / 1000)) [twoTriangles true]
    Mesh.empty >>= fun m => .ok (m.vertices.length, m.indices)) = .ok (4, [0, 1, 2, 1, 3, 2]) := by decide +kernel

/-- It meets the hypotheses of `C55_connected_partial`. -/
example : (∀ v ∈ (twoTriangles true).vertices, vertexKey (Arith.exact fun _ => .fin 1)
      ((Arith.exact fun _ => .fin 1).div (.fin 1) (.fin (1 / 1000))) v =
        .ok (match v with | ⟨.fin x, .fin y, .fin z⟩ => ⟨⌊x * 1000⌋, ⌊y * 1000⌋, ⌊z * 1000⌋⟩ | _ => ⟨0, 0, 0⟩)) ∧
    (twoTriangles true).vertices.length = (twoTriangles true).indices.length ∧ ValidIndices (twoTriangles true) ∧
    (twoTriangles true).normals.length = (twoTriangles true).vertices.length ∧ (twoTriangles true).colors.length = 0 :=
  ⟨by decide +kernel, by decide, ⟨by decide, by decide⟩, by decide, by decide⟩

/-- A degenerate triangle at the origin with three times the same normal. -/
def pointTriangle (n : Vec3 Fl) : Mesh :=
  ⟨List.replicate 3 ⟨.fin 0, .fin 0, .fin 0⟩, [0, 1, 2], List.replicate 3 n, [], true⟩

/-- **C55 (violated: grouping matters).** The combined normal depends on how the triangles are spread over meshes:
three normals along x in one mesh and three along y in another are combined to x + 3y, in one mesh to 3x + 3y
(before scaling; the square root used here is exact for nine and answers one otherwise). -/
theorem C55_grouping :
    let F := Arith.exact fun q => if q = 9 then .fin 3 else .fin 1
    let x : Vec3 Fl := ⟨.fin 1, .fin 0, .fin 0⟩
    let y : Vec3 Fl := ⟨.fin 0, .fin 1, .fin 0⟩
    (createConnectedMesh F F (.fin 1) [pointTriangle x, pointTriangle y] Mesh.empty >>= fun m => .ok m.normals) =
        .ok [⟨.fin 1, .fin 3, .fin 0⟩] ∧
      (createConnectedMesh F F (.fin 1) [⟨(pointTriangle x).vertices ++ (pointTriangle y).vertices, [0, 1, 2, 3, 4, 5],
        (pointTriangle x).normals ++ (pointTriangle y).normals, [], true⟩] Mesh.empty >>= fun m => .ok m.normals) =
        .ok [⟨.fin 3, .fin 3, .fin 0⟩] := by
  decide +kernel

/-- **C55 (violated without normals).** Connecting a mesh without normals in which two vertices coincide reads
and writes normals that do not exist. -/
theorem C55_no_normals :
    createConnectedMesh (Arith.exact fun _ => .fin 1) (Arith.exact fun _ => .fin 1) (.fin (1 / 1000)) [twoTriangles false]
      Mesh.empty = .ub := by decide +kernel

end Vox.MeshOps
