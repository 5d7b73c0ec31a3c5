/-
Meshing a block: corner values by global index, effect of one cube, effect of the loops.
-/
import Verif.Model.MeshIntegrator
import Verif.Spec.Mesh
import Verif.Lemmas.Grid
import Verif.Props.MarchingCubes
import Verif.Props.Index

namespace Vox.MeshInt

open Spec Layer Grid MC

variable {V : Type}

/-! ### Corner values -/

theorem offsets_corner : ∀ d ∈ cubeOffsets, IsCorner d := by decide

theorem corner_offsets {d : Idx} (h : IsCorner d) : ∃ k < 8, off k = d := by
  obtain ⟨x, y, z⟩ := d
  obtain ⟨h1, h2, h3⟩ := h
  simp only at h1 h2 h3
  rcases h1 with rfl | rfl <;> rcases h2 with rfl | rfl <;> rcases h3 with rfl | rfl
  · exact ⟨0, by decide⟩
  · exact ⟨4, by decide⟩
  · exact ⟨3, by decide⟩
  · exact ⟨7, by decide⟩
  · exact ⟨1, by decide⟩
  · exact ⟨5, by decide⟩
  · exact ⟨2, by decide⟩
  · exact ⟨6, by decide⟩

theorem off_mem : ∀ k < 8, off k ∈ cubeOffsets := by decide

theorem off_corner : ∀ k < 8, IsCorner (off k) := by decide

theorem globalIndex_add (n : ℕ) (i v d : Idx) : globalIndex n i (v + d) = globalIndex n i v + d := by
  unfold globalIndex
  ext <;> simp <;> ring

theorem insideCorner_eq {l : VLayer V} (wf : WellFormed l) (fns : VoxelFns V) {i v d : Idx} {b : Block ℚ V}
    (hb : block? l i = some b) (hv : InBlock l.cfg.vps (v + d)) :
    insideCorner fns b v d = .ok (sdfAt l fns.sdf (globalIndex l.cfg.vps i v + d)) := by
  obtain ⟨x, hx, hc⟩ := voxelByIndex_content wf hb hv
  unfold insideCorner sdfAt
  rw [hx, ← globalIndex_add, hc]
  rfl

theorem blockIndexOfBlock_eq {l : VLayer V} (wf : WellFormed l) {i : Idx} {b : Block ℚ V} (hb : block? l i = some b)
    (hi : i.All IsI32) : blockIndexOfBlock b = .ok i := by
  obtain ⟨h1, h2, h3, -⟩ := wf.block _ _ hb
  unfold blockIndexOfBlock
  have hp : (0 : ℚ) < l.cfg.voxelSize * l.cfg.vps := by
    have := wf.size_pos
    have h' : (0 : ℚ) < l.cfg.vps := by exact_mod_cast wf.side_pos
    positivity
  have := Props.C04_origin_roundtrip hp i
  rw [h1, h2, h3, mul_comm (l.cfg.vps : ℚ)]
  unfold originPoint Vec3.map at this
  rw [this]
  unfold toIdx32
  rw [if_pos hi]

theorem inRange_i32 {l : VLayer V} (wf : WellFormed l) {i : Idx} (h : BlockInRange l i) {d : Idx} (hd : IsCorner d) :
    (i + d).All IsI32 := by
  have hn := wf.side_pos
  have key : ∀ c e : ℤ, (e = 0 ∨ e = 1) → -2 ^ 30 ≤ c * l.cfg.vps ∧ (c + 2) * l.cfg.vps ≤ 2 ^ 30 → IsI32 (c + e) := by
    intro c e he ⟨h1, h2⟩
    have hn' : (1 : ℤ) ≤ l.cfg.vps := by omega
    unfold IsI32
    constructor
    · by_contra hc
      have : c ≤ -2 ^ 31 - 1 := by omega
      nlinarith
    · by_contra hc
      have : 2 ^ 31 - 1 ≤ c := by omega
      nlinarith
  obtain ⟨h1, h2, h3⟩ := h
  obtain ⟨d1, d2, d3⟩ := hd
  exact ⟨key _ _ d1 h1, key _ _ d2 h2, key _ _ d3 h3⟩

theorem borderAxis_cases {n : ℕ} {v d : ℤ} (hv : 0 ≤ v ∧ v < n) (hd : d = 0 ∨ d = 1) :
    ((borderAxis n (v + d)).1 = 0 ∨ (borderAxis n (v + d)).1 = 1) ∧ 0 ≤ (borderAxis n (v + d)).2 ∧
      (borderAxis n (v + d)).2 < n ∧ (borderAxis n (v + d)).1 * n + (borderAxis n (v + d)).2 = v + d := by
  unfold borderAxis
  split_ifs with h1 h2
  · omega
  · refine ⟨Or.inr rfl, by simp only; omega, by simp only; omega, by simp only; omega⟩
  · refine ⟨Or.inl rfl, by simp only; omega, by simp only; omega, by simp only; omega⟩

theorem otherBlockCorner_eq {l : VLayer V} (wf : WellFormed l) (fns : VoxelFns V) {i v d : Idx} {b : Block ℚ V}
    (hb : block? l i = some b) (hr : BlockInRange l i) (hv : InBlock l.cfg.vps v) (hd : IsCorner d) :
    otherBlockCorner l fns b (v + d) = .ok (sdfAt l fns.sdf (globalIndex l.cfg.vps i v + d)) := by
  have hi : i.All IsI32 := by
    have := inRange_i32 wf hr (d := ⟨0, 0, 0⟩) (by decide)
    simpa [Vec3.All] using this
  obtain ⟨vx, vy, vz⟩ := hv
  obtain ⟨dx, dy, dz⟩ := hd
  obtain ⟨x0, x1, x2, x3⟩ := borderAxis_cases vx dx
  obtain ⟨y0, y1, y2, y3⟩ := borderAxis_cases vy dy
  obtain ⟨z0, z1, z2, z3⟩ := borderAxis_cases vz dz
  have hn : (i + ⟨(borderAxis l.cfg.vps (v.x + d.x)).1, (borderAxis l.cfg.vps (v.y + d.y)).1,
      (borderAxis l.cfg.vps (v.z + d.z)).1⟩).All IsI32 := inRange_i32 wf hr ⟨x0, y0, z0⟩
  have hin : InBlock l.cfg.vps ⟨(borderAxis l.cfg.vps (v.x + d.x)).2, (borderAxis l.cfg.vps (v.y + d.y)).2,
      (borderAxis l.cfg.vps (v.z + d.z)).2⟩ := ⟨⟨x1, x2⟩, ⟨y1, y2⟩, ⟨z1, z2⟩⟩
  have hg : globalIndex l.cfg.vps (i + ⟨(borderAxis l.cfg.vps (v.x + d.x)).1, (borderAxis l.cfg.vps (v.y + d.y)).1,
      (borderAxis l.cfg.vps (v.z + d.z)).1⟩) ⟨(borderAxis l.cfg.vps (v.x + d.x)).2,
      (borderAxis l.cfg.vps (v.y + d.y)).2, (borderAxis l.cfg.vps (v.z + d.z)).2⟩ =
      globalIndex l.cfg.vps i v + d := by
    unfold globalIndex
    ext
    · simp only [Vec3.map₂_x, Vec3.add_x]; linarith
    · simp only [Vec3.map₂_y, Vec3.add_y]; linarith
    · simp only [Vec3.map₂_z, Vec3.add_z]; linarith
  unfold otherBlockCorner
  simp only [Vec3.add_x, Vec3.add_y, Vec3.add_z]
  rw [blockIndexOfBlock_eq wf hb hi]
  simp only [Outcome.bind_ok, toIdx32, if_pos hn]
  rw [← hg]
  cases hnb : block? l (i + ⟨(borderAxis l.cfg.vps (v.x + d.x)).1, (borderAxis l.cfg.vps (v.y + d.y)).1,
      (borderAxis l.cfg.vps (v.z + d.z)).1⟩) with
  | none =>
    simp only [Outcome.pure_eq]
    unfold sdfAt
    rw [content_none hnb hin]
    rfl
  | some nb =>
    obtain ⟨e1, -⟩ := wf.block _ _ hnb
    obtain ⟨x, hx, hc⟩ := voxelByIndex_content wf hnb hin
    have hval : isValidVoxelIndex nb.vps ⟨(borderAxis l.cfg.vps (v.x + d.x)).2, (borderAxis l.cfg.vps (v.y + d.y)).2,
        (borderAxis l.cfg.vps (v.z + d.z)).2⟩ = true := by
      rw [e1]
      exact (isValidVoxelIndex_iff (by have := wf.side_le; omega) _).2 hin
    simp only [hval, Outcome.check, if_true, Outcome.bind_ok, hx, Outcome.pure_eq]
    unfold sdfAt
    rw [hc]
    rfl

theorem borderCorner_eq {l : VLayer V} (wf : WellFormed l) (fns : VoxelFns V) {i v d : Idx} {b : Block ℚ V}
    (hb : block? l i = some b) (hr : BlockInRange l i) (hv : InBlock l.cfg.vps v) (hd : IsCorner d) :
    borderCorner l fns b v d = .ok (sdfAt l fns.sdf (globalIndex l.cfg.vps i v + d)) := by
  unfold borderCorner
  split_ifs with h
  · obtain ⟨e1, -⟩ := wf.block _ _ hb
    rw [e1] at h
    exact insideCorner_eq wf fns hb ((isValidVoxelIndex_iff (by have := wf.side_le; omega) _).1 h)
  · exact otherBlockCorner_eq wf fns hb hr hv hd

theorem readCorners_some {rd : Idx → Outcome (Option ℚ)} {F : Idx → Option ℚ} (ds : List Idx)
    (h : ∀ d ∈ ds, rd d = .ok (F d)) (hs : ∀ d ∈ ds, (F d).isSome = true) :
    readCorners rd ds = .ok (some (ds.map fun d => (F d).getD 0)) := by
  induction ds with
  | nil => rfl
  | cons d ds ih =>
    obtain ⟨x, hx⟩ := Option.isSome_iff_exists.1 (hs d List.mem_cons_self)
    unfold readCorners
    rw [h d List.mem_cons_self, ih (fun e he => h e (List.mem_cons_of_mem _ he)) fun e he => hs e (List.mem_cons_of_mem _ he), hx]
    simp [hx]

theorem readCorners_none {rd : Idx → Outcome (Option ℚ)} {F : Idx → Option ℚ} (ds : List Idx)
    (h : ∀ d ∈ ds, rd d = .ok (F d)) (hs : ∃ d ∈ ds, F d = none) : readCorners rd ds = .ok none := by
  induction ds with
  | nil => simp at hs
  | cons d ds ih =>
    unfold readCorners
    rw [h d List.mem_cons_self]
    cases hd : F d with
    | none => rfl
    | some x =>
      have : ∃ d ∈ ds, F d = none := by
        obtain ⟨e, he, hn⟩ := hs
        rcases List.mem_cons.1 he with rfl | he
        · rw [hd] at hn; cases hn
        · exact ⟨e, he, hn⟩
      rw [Outcome.bind_ok]
      simp only
      rw [ih (fun e he => h e (List.mem_cons_of_mem _ he)) this]
      rfl

/-! ### One cube -/

/-- Append the triangles `ts` with vertex positions `P` to a mesh. -/
def addTris (sq : ℚ → Fl) (P : GridEdge → Pt) (m : Mesh) (ts : List (GridEdge × GridEdge × GridEdge)) : Mesh :=
  { m with vertices := m.vertices ++ triVerts (fun e => (P e).map .fin) ts,
           indices := m.indices ++ List.range' m.vertices.length (3 * ts.length),
           normals := m.normals ++ triNormals (Arith.exact sq) (fun e => (P e).map .fin) ts }

theorem addTris_nil (sq : ℚ → Fl) (P : GridEdge → Pt) (m : Mesh) : addTris sq P m [] = m := by
  unfold addTris
  simp [triVerts, triNormals]

theorem addTris_length (sq : ℚ → Fl) (P : GridEdge → Pt) (m : Mesh) (ts : List (GridEdge × GridEdge × GridEdge)) :
    (addTris sq P m ts).vertices.length = m.vertices.length + 3 * ts.length := by
  unfold addTris
  simp [triVerts_length]

theorem addTris_append (sq : ℚ → Fl) (P : GridEdge → Pt) (m : Mesh) (ts us : List (GridEdge × GridEdge × GridEdge)) :
    addTris sq P (addTris sq P m ts) us = addTris sq P m (ts ++ us) := by
  have h := addTris_length sq P m ts
  have h' : (m.vertices ++ triVerts (fun e => (P e).map Fl.fin) ts).length = m.vertices.length + 3 * ts.length := h
  unfold addTris
  simp only [h']
  simp only [List.append_assoc, List.length_append, triVerts, triNormals, List.flatMap_append, Nat.mul_add,
    ← List.range'_append_1]

/-- The effect of `meshCube` on a cube of a grid field (values given for the eight corners only). -/
theorem meshCube_grid (sq : ℚ → Fl) (o : Pt) (s : ℚ) (f : Idx → ℚ) (c : Idx) (m : Mesh) {coords : ℕ → Vec3 Fl}
    {sdf : ℕ → Fl} (hc : ∀ k < 8, coords k = (gridPoint o s (c + off k)).map .fin)
    (hs : ∀ k < 8, sdf k = .fin (f (c + off k))) :
    meshCube (Arith.exact sq) coords sdf (m.vertices.length, m) =
      .ok ((addTris sq (crossing o s f) m (cubeTriangles (fun g => decide (f g < 0)) c)).vertices.length,
        addTris sq (crossing o s f) m (cubeTriangles (fun g => decide (f g < 0)) c)) := by
  have hok := meshCube_ok (Arith.exact sq) coords sdf (by intro k hk h; rw [hs k hk] at h; cases h) m
  have hcfg : vertexConfiguration sdf = cfgAt (fun g => decide (f g < 0)) c := by
    rw [vertexConfiguration_eq]
    apply cfgIndex_congr
    intro k hk
    rw [hs k hk]
    rfl
  rw [hcfg] at hok
  have hval : ∀ e < 12, edgeValue (Arith.exact sq) coords sdf e = (crossing o s f (edgeAt c e)).map .fin := by
    intro e he
    obtain ⟨k1, k2⟩ := ends_lt e he
    unfold edgeValue crossing
    rw [hc _ k1, hc _ k2, hs _ k1, hs _ k2]
    rcases edgeAt_ends c he with ⟨h1, h2⟩ | ⟨h1, h2⟩
    · rw [h1, h2, interpolateVertex_exact]
    · rw [C51_symmetric, h1, h2, interpolateVertex_exact]
  have hv : triVerts (edgeValue (Arith.exact sq) coords sdf) (emitted (cfgAt (fun g => decide (f g < 0)) c)) =
      triVerts (fun e => (crossing o s f e).map .fin) (cubeTriangles (fun g => decide (f g < 0)) c) := by
    unfold triVerts cubeTriangles
    rw [List.flatMap_map]
    apply List.flatMap_congr
    intro t ht
    obtain ⟨l1, l2, l3, -⟩ := chk_emitted _ (cfgIndex_lt _) _ ht
    rw [hval _ l1, hval _ l2, hval _ l3]
  have hn : triNormals (Arith.exact sq) (edgeValue (Arith.exact sq) coords sdf)
      (emitted (cfgAt (fun g => decide (f g < 0)) c)) =
      triNormals (Arith.exact sq) (fun e => (crossing o s f e).map .fin) (cubeTriangles (fun g => decide (f g < 0)) c) := by
    unfold triNormals cubeTriangles
    rw [List.flatMap_map]
    apply List.flatMap_congr
    intro t ht
    obtain ⟨l1, l2, l3, -⟩ := chk_emitted _ (cfgIndex_lt _) _ ht
    rw [hval _ l1, hval _ l2, hval _ l3]
  rw [hv, hn] at hok
  have hl : (emitted (cfgAt (fun g => decide (f g < 0)) c)).length =
      (cubeTriangles (fun g => decide (f g < 0)) c).length := by
    unfold cubeTriangles
    rw [List.length_map]
  rw [hl] at hok
  rw [hok, addTris_length]
  rfl

open Classical in
/-- The triangles of the cube `c` of a layer: none unless all corners are observed. -/
noncomputable def layerTriangles (l : VLayer V) (sdf : V → Option ℚ) (c : Idx) : List (GridEdge × GridEdge × GridEdge) :=
  if CubeObserved l sdf c then cubeTriangles (negAt l sdf) c else []

theorem meshCorners_eq (sq : ℚ → Fl) {l : VLayer V} (wf : WellFormed l) (sdf : V → Option ℚ) {i v : Idx} {b : Block ℚ V}
    (hb : block? l i = some b) {rd : Idx → Outcome (Option ℚ)}
    (h : ∀ d ∈ cubeOffsets, rd d = .ok (sdfAt l sdf (globalIndex l.cfg.vps i v + d))) (m : Mesh) :
    (do
      let r ← readCorners rd cubeOffsets
      meshCorners sq l.cfg.voxelSize (centerOf b v) r (m.vertices.length, m)) =
    .ok ((addTris sq (surfacePoint l sdf) m (layerTriangles l sdf (globalIndex l.cfg.vps i v))).vertices.length,
      addTris sq (surfacePoint l sdf) m (layerTriangles l sdf (globalIndex l.cfg.vps i v))) := by
  unfold layerTriangles
  by_cases ho : CubeObserved l sdf (globalIndex l.cfg.vps i v)
  · rw [if_pos ho, readCorners_some cubeOffsets h fun d hd => ho d (offsets_corner d hd)]
    simp only [Outcome.bind_ok, meshCorners]
    refine meshCube_grid sq ⟨l.cfg.voxelSize / 2, l.cfg.voxelSize / 2, l.cfg.voxelSize / 2⟩ l.cfg.voxelSize
      (fieldOf l sdf) (globalIndex l.cfg.vps i v) m ?_ ?_
    · intro k hk
      unfold cubeCoords
      rw [centerOf_eq wf hb]
      unfold off
      congr 1
      unfold gridPoint voxelCenter
      ext <;> simp <;> ring
    · intro k hk
      congr 1
      have : (cubeOffsets.map fun d => (sdfAt l sdf (globalIndex l.cfg.vps i v + d)).getD 0)[k]? =
          some ((sdfAt l sdf (globalIndex l.cfg.vps i v + off k)).getD 0) := by
        unfold off
        interval_cases k <;> rfl
      rw [this]
      rfl
  · rw [if_neg ho, addTris_nil]
    have : ∃ d ∈ cubeOffsets, sdfAt l sdf (globalIndex l.cfg.vps i v + d) = none := by
      unfold CubeObserved at ho
      push Not at ho
      obtain ⟨d, hd, hn⟩ := ho
      refine ⟨d, ?_, by simpa using hn⟩
      obtain ⟨k, hk, rfl⟩ := corner_offsets hd
      exact off_mem k hk
    rw [readCorners_none cubeOffsets h this]
    rfl

theorem extractBorder_eq (sq : ℚ → Fl) {l : VLayer V} (wf : WellFormed l) (fns : VoxelFns V) {i v : Idx} {b : Block ℚ V}
    (hb : block? l i = some b) (hr : BlockInRange l i) (hv : InBlock l.cfg.vps v) (m : Mesh) :
    extractBorder sq l fns b v (m.vertices.length, m) =
    .ok ((addTris sq (surfacePoint l fns.sdf) m (layerTriangles l fns.sdf (globalIndex l.cfg.vps i v))).vertices.length,
      addTris sq (surfacePoint l fns.sdf) m (layerTriangles l fns.sdf (globalIndex l.cfg.vps i v))) :=
  meshCorners_eq sq wf fns.sdf hb (fun d hd => borderCorner_eq wf fns hb hr hv (offsets_corner d hd)) m

theorem extractInside_eq (sq : ℚ → Fl) {l : VLayer V} (wf : WellFormed l) (fns : VoxelFns V) {i v : Idx} {b : Block ℚ V}
    (hb : block? l i = some b) (hv : v.All fun c => 0 ≤ c ∧ c + 1 < (l.cfg.vps : ℤ)) (m : Mesh) :
    extractInside sq fns l.cfg.voxelSize b v (m.vertices.length, m) =
    .ok ((addTris sq (surfacePoint l fns.sdf) m (layerTriangles l fns.sdf (globalIndex l.cfg.vps i v))).vertices.length,
      addTris sq (surfacePoint l fns.sdf) m (layerTriangles l fns.sdf (globalIndex l.cfg.vps i v))) := by
  refine meshCorners_eq sq wf fns.sdf hb (fun d hd => insideCorner_eq wf fns hb ?_) m
  obtain ⟨h1, h2, h3⟩ := offsets_corner d hd
  obtain ⟨v1, v2, v3⟩ := hv
  refine ⟨?_, ?_, ?_⟩ <;> simp only [Vec3.add_x, Vec3.add_y, Vec3.add_z] <;> omega

/-! ### The loops -/

theorem foldlM_addTris (sq : ℚ → Fl) (P : GridEdge → Pt) (T : Idx → List (GridEdge × GridEdge × GridEdge))
    (step : ℕ × Mesh → Idx → Outcome (ℕ × Mesh)) (vs : List Idx)
    (h : ∀ v ∈ vs, ∀ m : Mesh, step (m.vertices.length, m) v = .ok ((addTris sq P m (T v)).vertices.length, addTris sq P m (T v)))
    (m : Mesh) :
    vs.foldlM step (m.vertices.length, m) = .ok ((addTris sq P m (vs.flatMap T)).vertices.length, addTris sq P m (vs.flatMap T)) := by
  induction vs generalizing m with
  | nil => simp [addTris_nil, List.foldlM]
  | cons v vs ih =>
    rw [List.foldlM_cons, h v List.mem_cons_self, Outcome.bind_ok, ih (fun w hw => h w (List.mem_cons_of_mem _ hw)),
      addTris_append, List.flatMap_cons]

theorem mem_insideOrder {n : ℕ} {v : Idx} : v ∈ insideOrder n ↔ v.All fun c => 0 ≤ c ∧ c + 1 < (n : ℤ) := by
  unfold insideOrder
  simp only [List.mem_flatMap, List.mem_map, List.mem_range, Vec3.All]
  constructor
  · rintro ⟨x, hx, y, hy, z, hz, rfl⟩
    simp only
    omega
  · rintro ⟨h1, h2, h3⟩
    refine ⟨v.x.toNat, by omega, v.y.toNat, by omega, v.z.toNat, by omega, ?_⟩
    ext
    · exact Int.toNat_of_nonneg h1.1
    · exact Int.toNat_of_nonneg h2.1
    · exact Int.toNat_of_nonneg h3.1

theorem mem_borderOrder {n : ℕ} {v : Idx} : v ∈ borderOrder n ↔
    InBlock n v ∧ ¬ v.All fun c => 0 ≤ c ∧ c + 1 < (n : ℤ) := by
  unfold borderOrder InBlock
  simp only [List.mem_append, List.mem_flatMap, List.mem_map, List.mem_range, Vec3.All]
  constructor
  · rintro ((⟨z, hz, y, hy, rfl⟩ | ⟨z, hz, x, hx, rfl⟩) | ⟨y, hy, x, hx, rfl⟩)
    · refine ⟨⟨?_, ?_, ?_⟩, ?_⟩ <;> simp only <;> omega
    · refine ⟨⟨?_, ?_, ?_⟩, ?_⟩ <;> simp only <;> omega
    · refine ⟨⟨?_, ?_, ?_⟩, ?_⟩ <;> simp only <;> omega
  · rintro ⟨⟨h1, h2, h3⟩, hn⟩
    by_cases hx : v.x = (n : ℤ) - 1
    · left; left
      refine ⟨v.z.toNat, by omega, v.y.toNat, by omega, ?_⟩
      ext
      · exact hx.symm
      · exact Int.toNat_of_nonneg h2.1
      · exact Int.toNat_of_nonneg h3.1
    · by_cases hy : v.y = (n : ℤ) - 1
      · left; right
        refine ⟨v.z.toNat, by omega, v.x.toNat, by omega, ?_⟩
        ext
        · exact Int.toNat_of_nonneg h1.1
        · exact hy.symm
        · exact Int.toNat_of_nonneg h3.1
      · right
        refine ⟨v.y.toNat, by omega, v.x.toNat, by omega, ?_⟩
        ext
        · exact Int.toNat_of_nonneg h1.1
        · exact Int.toNat_of_nonneg h2.1
        · show (n : ℤ) - 1 = v.z
          omega

theorem nodup_grid2 {α : Type} (a b : ℕ) (f : ℕ → ℕ → α) (hf : ∀ x y x' y', f x y = f x' y' → x = x' ∧ y = y') :
    ((List.range a).flatMap fun x => (List.range b).map fun y => f x y).Nodup := by
  rw [List.nodup_flatMap]
  constructor
  · intro x _
    exact List.nodup_range.map fun y y' h => (hf _ _ _ _ h).2
  · refine List.nodup_range.pairwise_of_forall_ne ?_
    intro x _ x' _ hne
    simp only [Function.onFun, List.disjoint_left, List.mem_map]
    rintro v ⟨y, -, rfl⟩ ⟨y', -, h⟩
    exact hne (hf _ _ _ _ h).1.symm

theorem insideOrder_nodup (n : ℕ) : (insideOrder n).Nodup := by
  unfold insideOrder
  rw [List.nodup_flatMap]
  constructor
  · intro x _
    exact nodup_grid2 _ _ (fun (y z : ℕ) => (⟨x, y, z⟩ : Idx)) (by
      intro y z y' z' h
      simp only [Vec3.mk.injEq, Nat.cast_inj] at h
      exact ⟨h.2.1, h.2.2⟩)
  · refine List.nodup_range.pairwise_of_forall_ne ?_
    intro x _ x' _ hne
    simp only [Function.onFun, List.disjoint_left, List.mem_flatMap, List.mem_map]
    rintro v ⟨y, -, z, -, rfl⟩ ⟨y', -, z', -, h⟩
    simp only [Vec3.mk.injEq, Nat.cast_inj] at h
    exact hne h.1.symm

theorem borderOrder_nodup (n : ℕ) : (borderOrder n).Nodup := by
  unfold borderOrder
  rw [List.nodup_append, List.nodup_append]
  refine ⟨⟨?_, ?_, ?_⟩, ?_, ?_⟩
  · exact nodup_grid2 _ _ (fun (z y : ℕ) => (⟨(n : ℤ) - 1, y, z⟩ : Idx)) (by
      intro y z y' z' h
      simp only [Vec3.mk.injEq, Nat.cast_inj] at h
      exact ⟨h.2.2, h.2.1⟩)
  · exact nodup_grid2 _ _ (fun (z x : ℕ) => (⟨x, (n : ℤ) - 1, z⟩ : Idx)) (by
      intro y z y' z' h
      simp only [Vec3.mk.injEq, Nat.cast_inj] at h
      exact ⟨h.2.2, h.1⟩)
  · intro v hv w hw
    simp only [List.mem_flatMap, List.mem_map, List.mem_range] at hv hw
    obtain ⟨z, hz, y, hy, rfl⟩ := hv
    obtain ⟨z', hz', x, hx, rfl⟩ := hw
    simp only [ne_eq, Vec3.mk.injEq, not_and]
    omega
  · exact nodup_grid2 _ _ (fun (y x : ℕ) => (⟨x, y, (n : ℤ) - 1⟩ : Idx)) (by
      intro y z y' z' h
      simp only [Vec3.mk.injEq, Nat.cast_inj] at h
      exact ⟨h.2.1, h.1⟩)
  · intro v hv w hw
    simp only [List.mem_append, List.mem_flatMap, List.mem_map, List.mem_range] at hv hw
    obtain ⟨y', hy', x, hx, rfl⟩ := hw
    rcases hv with ⟨z, hz, y, hy, rfl⟩ | ⟨z, hz, x', hx', rfl⟩
    · simp only [ne_eq, Vec3.mk.injEq, not_and]
      omega
    · simp only [ne_eq, Vec3.mk.injEq, not_and]
      omega

/-- The cubes of a block in visiting order. -/
def cubeOrder (n : ℕ) : List Idx := insideOrder n ++ borderOrder n

theorem extractBlockMesh_eq (sq : ℚ → Fl) {l : VLayer V} (wf : WellFormed l) (fns : VoxelFns V) {i : Idx} {b : Block ℚ V}
    (hb : block? l i = some b) (hr : BlockInRange l i) (m : Mesh) (hm : m.vertices = []) :
    extractBlockMesh sq l fns b m = .ok (addTris sq (surfacePoint l fns.sdf) m
      ((cubeOrder l.cfg.vps).flatMap fun v => layerTriangles l fns.sdf (globalIndex l.cfg.vps i v))) := by
  obtain ⟨e1, -⟩ := wf.block _ _ hb
  unfold extractBlockMesh
  have h0 : (0, m) = (m.vertices.length, m) := by rw [hm]; rfl
  rw [h0, e1, foldlM_addTris sq (surfacePoint l fns.sdf) (fun v => layerTriangles l fns.sdf (globalIndex l.cfg.vps i v))]
  · rw [Outcome.bind_ok, foldlM_addTris sq (surfacePoint l fns.sdf)
      (fun v => layerTriangles l fns.sdf (globalIndex l.cfg.vps i v))]
    · rw [Outcome.bind_ok, addTris_append]
      unfold cubeOrder
      rw [List.flatMap_append]
      rfl
    · intro v hv m
      exact extractBorder_eq sq wf fns hb hr (mem_borderOrder.1 hv).1 m
  · intro v hv m
    exact extractInside_eq sq wf fns hb (mem_insideOrder.1 hv) m

end Vox.MeshInt
