/-
Exporting layers: the meshes of all blocks together are the surface in all cubes; polygons from indices.
-/
import Verif.Model.Export
import Verif.Spec.Export
import Verif.Lemmas.MeshSync
import Verif.Lemmas.MeshGenerate
import Verif.Lemmas.SdfCloud
import Verif.Props.Ply
import Verif.Props.SdfCloud

namespace Vox.Export

open Layer Grid MC MeshInt MeshOps Spec PtCloud

variable {V : Type}

/-! ### Cubes -/

/-- The cubes in the order in which they are meshed, for blocks in the order `ks`. -/
def cubesOf (n : ℕ) (ks : List Idx) : List Idx := ks.flatMap fun i => (cubeOrder n).map (globalIndex n i)

theorem block_isSome_iff (l : VLayer V) (i : Idx) : (block? l i).isSome = true ↔ i ∈ l.blocks.map (·.1) := by
  constructor
  · intro h
    obtain ⟨b, hb⟩ := Option.isSome_iff_exists.1 h
    exact List.mem_map.2 ⟨(i, b), mem_keys_of_lookup hb, rfl⟩
  · intro h
    exact lookup_of_mem_keys h

theorem cubesOf_once {l : VLayer V} (wf : WellFormed l) (nd : (l.blocks.map (·.1)).Nodup) {ks : List Idx} (hk : ks.Perm (l.blocks.map (·.1))) :
    EachCubeOnce l (cubesOf l.cfg.vps ks) := by
  constructor
  · unfold cubesOf
    rw [List.nodup_flatMap]
    refine ⟨fun i _ => ?_, ?_⟩
    · refine List.Nodup.map_on ?_ (cubeOrder_nodup _)
      intro v hv w hw e
      have := congrArg (localOf l.cfg.vps) e
      rwa [localOf_globalIndex (mem_cubeOrder.1 hv), localOf_globalIndex (mem_cubeOrder.1 hw)] at this
    · refine (hk.nodup_iff.2 nd).imp ?_
      intro a b hab g h1 h2
      obtain ⟨v, hv, rfl⟩ := List.mem_map.1 h1
      obtain ⟨w, hw, h⟩ := List.mem_map.1 h2
      have := congrArg (blockOf l.cfg.vps) h
      rw [blockOf_globalIndex (mem_cubeOrder.1 hv), blockOf_globalIndex (mem_cubeOrder.1 hw)] at this
      exact hab this.symm
  · intro g
    rw [content_isSome wf, block_isSome_iff, ← hk.mem_iff]
    unfold cubesOf
    rw [List.mem_flatMap]
    constructor
    · rintro ⟨i, hi, h⟩
      obtain ⟨v, hv, rfl⟩ := List.mem_map.1 h
      rw [blockOf_globalIndex (mem_cubeOrder.1 hv)]
      exact hi
    · intro h
      exact ⟨_, h, List.mem_map.2 ⟨_, mem_cubeOrder.2 (localOf_inBlock wf.side_pos g), globalIndex_split g⟩⟩

theorem surfaceIn_ne_nil {l : VLayer V} {sdf : V → Option ℚ} {cs : List Idx} (hc : EachCubeOnce l cs) :
    surfaceIn l sdf cs ≠ [] ↔ HasSurface l sdf := by
  unfold surfaceIn HasSurface
  constructor
  · intro h
    obtain ⟨p, hp⟩ := List.exists_mem_of_ne_nil _ h
    obtain ⟨c, -, hp⟩ := List.mem_flatMap.1 hp
    obtain ⟨t, ht, -⟩ := List.mem_flatMap.1 hp
    exact ⟨c, List.ne_nil_of_mem ht⟩
  · rintro ⟨c, h⟩
    obtain ⟨t, ht⟩ := List.exists_mem_of_ne_nil _ h
    have hm : c ∈ cs := by
      rw [hc.2]
      unfold layerTriangles at ht
      split_ifs at ht with ho
      · have := content_of_sdfAt (ho ⟨0, 0, 0⟩ (by decide))
        have e : c + (⟨0, 0, 0⟩ : Idx) = c := by ext <;> simp
        rwa [e] at this
      · cases ht
    exact List.ne_nil_of_mem (List.mem_flatMap.2 ⟨c, hm, List.mem_flatMap.2 ⟨t, ht, List.mem_cons_self⟩⟩)

/-- A cube has at most five triangles. -/
theorem layerTriangles_le (l : VLayer V) (sdf : V → Option ℚ) (c : Idx) : (layerTriangles l sdf c).length ≤ 5 := by
  have h : ∀ i, i < 256 → (emitted i).length ≤ 5 := by decide +kernel
  unfold layerTriangles
  split_ifs
  · unfold cubeTriangles
    rw [List.length_map]
    exact h _ (cfgIndex_lt _)
  · simp

theorem surfaceIn_le (l : VLayer V) (sdf : V → Option ℚ) (cs : List Idx) : (surfaceIn l sdf cs).length ≤ 15 * cs.length := by
  unfold surfaceIn
  induction cs with
  | nil => simp
  | cons c cs ih =>
    rw [List.flatMap_cons, List.length_append, List.length_cons]
    have := layerTriangles_le l sdf c
    have e : ((layerTriangles l sdf c).flatMap fun t => [surfacePoint l sdf t.1, surfacePoint l sdf t.2.1, surfacePoint l sdf t.2.2]).length =
        3 * (layerTriangles l sdf c).length := by
      generalize layerTriangles l sdf c = ts
      induction ts with
      | nil => rfl
      | cons t ts ih => rw [List.flatMap_cons, List.length_append, ih, List.length_cons]; simp; ring
    omega

theorem cubesOf_length (n : ℕ) (ks : List Idx) : (cubesOf n ks).length = ks.length * n ^ 3 := by
  have h := (C52_each_cube_once n).2.1
  unfold cubesOf
  induction ks with
  | nil => simp
  | cons i ks ih =>
    rw [List.flatMap_cons, List.length_append, ih, List.length_map, List.length_cons]
    have e : (cubeOrder n).length = n ^ 3 := h
    rw [e]; ring

/-! ### The meshes of all blocks -/

theorem updateMeshForBlock_keys {sq : ℚ → Fl} {useColor : Bool} {l : VLayer V} {fns : VoxelFns V} {ml ml' : MeshMap} {i : Idx}
    (h : updateMeshForBlock sq useColor l fns ml i = .ok ml') : ml'.map (·.1) = ml.map (·.1) := by
  unfold updateMeshForBlock at h
  split at h
  · cases h
  · split at h
    · obtain rfl := Outcome.ok.inj h
      exact MeshMsg.keys_setMesh _ _ _
    · obtain ⟨m', -, h⟩ := Outcome.bind_eq_ok.1 h
      obtain rfl := Outcome.ok.inj h
      exact MeshMsg.keys_setMesh _ _ _

theorem meshBlocks_keys {sq : ℚ → Fl} {useColor : Bool} {fns : VoxelFns V} : ∀ (is : List Idx) (l l' : VLayer V) (ml ml' : MeshMap),
    meshBlocks sq useColor fns false is (l, ml) = .ok (l', ml') → ml'.map (·.1) = ml.map (·.1)
  | [], l, l', ml, ml', h => by
    obtain ⟨-, rfl⟩ := Prod.mk.inj (Outcome.ok.inj h)
    rfl
  | i :: is, l, l', ml, ml', h => by
    unfold meshBlocks at h
    obtain ⟨m1, h1, h⟩ := Outcome.bind_eq_ok.1 h
    simp only [Bool.false_eq_true, if_false] at h
    rw [meshBlocks_keys is l l' m1 ml' h, updateMeshForBlock_keys h1]

theorem allocateAll_keys : ∀ (is : List Idx) (ml : MeshMap), MeshKeys ml → MeshKeys (is.foldl allocateMesh ml)
  | [], _, h => h
  | i :: is, _, h => allocateAll_keys is _ (MeshMsg.allocateMesh_keys h i)

/-- The meshes that a fresh mesh layer holds after meshing everything: those of the allocated blocks, in any order. -/
theorem generate_fresh (sq : ℚ → Fl) (useColor : Bool) (fns : VoxelFns V) {l : VLayer V} (wf : WellFormed l) (nd : (l.blocks.map (·.1)).Nodup)
    (hr : ∀ i, (block? l i).isSome = true → BlockInRange l i) {iter : MeshMap → MeshMap} (hi : AnyOrder iter) :
    ∃ (l' : VLayer V) (ml' : MeshMap) (ks : List Idx), generateMesh sq useColor fns false false false (l, []) = .ok (l', ml') ∧ ks.Perm (l.blocks.map (·.1)) ∧
      (iter ml').map (·.2) = ks.map (blockMesh sq useColor l fns) := by
  obtain ⟨l', ml', hg, -, hlook, -⟩ := generateMesh_ok sq useColor fns false false false wf nd hr (by simp) []
  have hkeys : MeshKeys ml' := by
    have h := hg
    unfold generateMesh at h
    obtain ⟨-, -, h⟩ := Outcome.bind_eq_ok.1 h
    unfold MeshKeys
    rw [meshBlocks_keys _ _ _ _ _ h]
    exact allocateAll_keys _ _ (by unfold MeshKeys; simp)
  have hmem : ∀ e ∈ ml', e.1 ∈ l.blocks.map (·.1) ∧ e.2 = blockMesh sq useColor l fns e.1 := by
    rintro ⟨i, m⟩ he
    have h := lookup_of_nodup hkeys he
    rw [hlook] at h
    split_ifs at h with hb
    · exact ⟨hb, (Option.some.inj h).symm⟩
    · cases h
  refine ⟨l', ml', (iter ml').map (·.1), hg, ((hi ml').map _).trans ?_, ?_⟩
  · rw [List.perm_ext_iff_of_nodup hkeys nd]
    intro i
    constructor
    · intro h
      obtain ⟨e, he, rfl⟩ := List.mem_map.1 h
      exact (hmem e he).1
    · intro h
      have e := hlook i
      rw [if_pos (show i ∈ blocksToMesh false l from h)] at e
      exact List.mem_map.2 ⟨_, mem_keys_of_lookup e, rfl⟩
  · rw [List.map_map]
    apply List.map_congr_left
    intro e he
    exact (hmem e ((hi ml').mem_iff.1 he)).2

theorem blockMesh_soup (sq : ℚ → Fl) (useColor : Bool) (l : VLayer V) (fns : VoxelFns V) (i : Idx) :
    TriangleSoup useColor (blockMesh sq useColor l fns i) := by
  refine ⟨?_, ?_, ?_, ?_⟩
  · simp only [blockMesh, List.length_map, blockEdges_length]; omega
  · simp [blockMesh]
  · simp [blockMesh, triNormals_length, blockEdges_length]
  · cases useColor <;> simp [blockMesh]

theorem vertices_surface (sq : ℚ → Fl) (useColor : Bool) (l : VLayer V) (fns : VoxelFns V) (ks : List Idx) :
    (ks.map (blockMesh sq useColor l fns)).flatMap (·.vertices) = (surfaceIn l fns.sdf (cubesOf l.cfg.vps ks)).map fun p => p.map .fin := by
  unfold surfaceIn cubesOf
  rw [List.flatMap_map, List.flatMap_assoc, List.map_flatMap]
  apply List.flatMap_congr
  intro i _
  simp only [blockMesh, blockEdges, blockTriangles, List.flatMap_map, List.map_flatMap, List.flatMap_assoc, List.map_cons, List.map_nil]

/-! ### Connected surfaces -/

theorem soup_cells {c : Bool} {m : Mesh} (K : Vec3 Fl → Idx) (h : TriangleSoup c m) : cellTriangles K m = triples (m.vertices.map fun v => some (K v)) := by
  have e := soup_positions h
  unfold positions at e
  unfold cellTriangles
  have : (m.indices.map fun i => (m.vertices[i]?).map K) = (m.indices.map fun i => m.vertices[i]?).map (Option.map K) := by
    rw [List.map_map]; rfl
  rw [this, e, List.map_map]
  rfl

theorem triples_flatMap {α β : Type} (f : α → List β) : ∀ (l : List α), (∀ a ∈ l, (f a).length % 3 = 0) →
    l.flatMap (fun a => triples (f a)) = triples (l.flatMap f)
  | [], _ => rfl
  | a :: l, h => by
    rw [List.flatMap_cons, List.flatMap_cons, triples_append _ _ (h a List.mem_cons_self),
      triples_flatMap f l fun b hb => h b (List.mem_cons_of_mem _ hb)]

theorem soups_cells {c : Bool} (K : Vec3 Fl → Idx) (ms : List Mesh) (h : ∀ m ∈ ms, TriangleSoup c m) :
    ms.flatMap (cellTriangles K) = triples ((ms.flatMap (·.vertices)).map fun v => some (K v)) := by
  rw [List.map_flatMap, ← triples_flatMap _ _ fun m hm => by rw [List.length_map]; exact (h m hm).three]
  exact List.flatMap_congr fun m hm => soup_cells K (h m hm)

/-! ### Polygons -/

theorem polygon_fold : ∀ (is : List ℕ) (ps : List (List ℕ)), 3 ∣ is.length → (∀ p ∈ ps, p.length = 3) →
    (∀ p ∈ (is.foldl polygonStep (ps, [])).1, p.length = 3) ∧ (is.foldl polygonStep (ps, [])).1.flatten = ps.flatten ++ is
  | [], ps, _, hp => by simpa using hp
  | [_], _, h, _ => by simp at h
  | [_, _], _, h, _ => by simp at h
  | a :: b :: c :: is, ps, h, hp => by
    have e : List.foldl polygonStep (ps, []) (a :: b :: c :: is) = List.foldl polygonStep (ps ++ [[a, b, c]], []) is := by
      simp [polygonStep]
    rw [e]
    obtain ⟨h1, h2⟩ := polygon_fold is (ps ++ [[a, b, c]]) (by simp only [List.length_cons] at h; omega) (by
      intro p h
      rcases List.mem_append.1 h with h | h
      · exact hp p h
      · simp at h; simp [h])
    refine ⟨h1, ?_⟩
    rw [h2]
    simp

end Vox.Export
