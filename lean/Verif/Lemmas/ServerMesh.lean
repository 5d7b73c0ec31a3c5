/-
The meshes of a server: what each operation does to what is shown.
-/
import Verif.Spec.ServerMesh
import Verif.Lemmas.Export
import Verif.Lemmas.LayerMsg

namespace Vox.ServerMesh

open Layer Grid MC MeshInt MeshOps Spec LayerMsg Export PlySpec

variable {V : Type}

/-! ### Meshes -/

theorem shown_of {ml : MeshMap} {i : Idx} {m : Mesh} (h : ml.lookup i = some m) : shownMesh ml i = { m with updated := false } := by
  unfold shownMesh
  rw [h]

theorem shown_none {ml : MeshMap} {i : Idx} (h : ml.lookup i = none) : shownMesh ml i = Mesh.empty := by
  unfold shownMesh
  rw [h]

theorem shown_congr {ml ml' : MeshMap} {i : Idx} (h : ml'.lookup i = ml.lookup i) : shownMesh ml' i = shownMesh ml i := by
  unfold shownMesh
  rw [h]

theorem soup_empty (c : Bool) : TriangleSoup c Mesh.empty := ⟨rfl, rfl, rfl, by cases c <;> rfl⟩

theorem soup_mark {c : Bool} {m : Mesh} (h : TriangleSoup c m) (u : Bool) : TriangleSoup c { m with updated := u } :=
  ⟨h.three, h.indices, h.normals, h.colors⟩

theorem soup_clear (c : Bool) (m : Mesh) (u : Bool) : TriangleSoup c { clearMesh m with updated := u } :=
  ⟨rfl, rfl, rfl, by cases c <;> rfl⟩

/-- A soup without vertices is the empty mesh. -/
theorem soup_nil {c : Bool} {m : Mesh} (h : TriangleSoup c m) (hv : m.vertices = []) : { m with updated := false } = Mesh.empty := by
  obtain ⟨vs, is, ns, cs, u⟩ := m
  obtain ⟨-, h2, h3, h4⟩ := h
  simp only at hv h2 h3 h4
  subst hv
  have h3 := List.length_eq_zero_iff.1 h3
  have h4 : cs = [] := List.length_eq_zero_iff.1 (by rw [h4]; cases c <;> rfl)
  subst h3 h4
  rw [h2]
  rfl

/-- Soups in the whole layer. -/
def Soups (c : Bool) (ml : MeshMap) : Prop := ∀ i m, ml.lookup i = some m → TriangleSoup c m

theorem Soups.shown {c : Bool} {ml : MeshMap} (h : Soups c ml) (i : Idx) : TriangleSoup c (shownMesh ml i) := by
  cases hl : ml.lookup i with
  | none => rw [shown_none hl]; exact soup_empty c
  | some m => rw [shown_of hl]; exact soup_mark (h i m hl) false

theorem meshBlocks_keys_any {sq : ℚ → Fl} {useColor clear : Bool} {fns : VoxelFns V} : ∀ (is : List Idx) (l l' : VLayer V) (ml ml' : MeshMap),
    meshBlocks sq useColor fns clear is (l, ml) = .ok (l', ml') → ml'.map (·.1) = ml.map (·.1)
  | [], l, l', ml, ml', h => by
    obtain ⟨-, rfl⟩ := Prod.mk.inj (Outcome.ok.inj h)
    rfl
  | i :: is, l, l', ml, ml', h => by
    unfold meshBlocks at h
    obtain ⟨ml1, h1, h⟩ := Outcome.bind_eq_ok.1 h
    rw [← updateMeshForBlock_keys h1]
    split at h
    · split at h
      · cases h
      · exact meshBlocks_keys_any is _ _ _ _ h
    · exact meshBlocks_keys_any is _ _ _ _ h

theorem generate_keys {sq : ℚ → Fl} {useColor isMutable only clear : Bool} {fns : VoxelFns V} {l l' : VLayer V} {ml ml' : MeshMap} (hk : MeshKeys ml)
    (h : MeshInt.generateMesh sq useColor fns isMutable only clear (l, ml) = .ok (l', ml')) : MeshKeys ml' := by
  unfold MeshInt.generateMesh at h
  obtain ⟨-, -, h⟩ := Outcome.bind_eq_ok.1 h
  unfold MeshKeys
  rw [meshBlocks_keys_any _ _ _ _ _ h]
  exact allocateAll_keys _ _ hk

/-- Sending changes nothing of what is shown. -/
theorem send_shown {edge inv : Fl} {mode : MeshMsg.ColorMode} {c : Bool} {ml ml' : MeshMap} {msg : MeshMsg.Msg} (hk : MeshKeys ml) (hs : Soups c ml)
    (h : MeshMsg.generateMsg edge inv mode ml = .ok (msg, ml')) :
    MeshKeys ml' ∧ Soups c ml' ∧ ∀ i, shownMesh ml' i = shownMesh ml i := by
  unfold MeshMsg.generateMsg at h
  obtain ⟨st, hst, h⟩ := Outcome.bind_eq_ok.1 h
  have e2 : ml' = st.2 := (congrArg Prod.snd (Outcome.ok.inj h)).symm
  have hnd : ((ml.filter fun e => e.2.updated).map (·.1)).Nodup := (List.filter_sublist.map _).nodup hk
  obtain ⟨new, -, hsub, hl, -⟩ := MeshMsg.exchange (edge := edge) _ _ _ _ hnd hst
  subst e2
  refine ⟨hsub.nodup hk, ?_, ?_⟩
  · intro i m hm
    rw [hl] at hm
    split_ifs at hm with hi
    · cases h0 : ml.lookup i with
      | none => rw [h0] at hm; cases hm
      | some m0 =>
        rw [h0, Option.bind_some] at hm
        split_ifs at hm
        obtain rfl := Option.some.inj hm
        exact soup_mark (hs i m0 h0) false
    · exact hs i m hm
  · intro i
    have e := hl i
    split_ifs at e with hi
    · cases h0 : ml.lookup i with
      | none =>
        rw [h0] at e
        rw [shown_none h0, shown_none e]
      | some m0 =>
        rw [h0, Option.bind_some] at e
        rw [shown_of h0]
        by_cases hv : m0.vertices.isEmpty = true
        · rw [if_pos hv] at e
          rw [shown_none e, soup_nil (hs i m0 h0) (List.isEmpty_iff.1 hv)]
        · rw [if_neg hv] at e
          rw [shown_of e]
    · exact shown_congr e

/-! ### Blocks -/

theorem cubesOf_block {l : VLayer V} (wf : WellFormed l) {i : Idx} (hi : (block? l i).isSome = true) : CubesOfBlock l i (cubesOf l.cfg.vps [i]) := by
  have e : cubesOf l.cfg.vps [i] = (cubeOrder l.cfg.vps).map (globalIndex l.cfg.vps i) := by
    unfold cubesOf
    rw [List.flatMap_cons, List.flatMap_nil, List.append_nil]
  rw [e]
  constructor
  · refine List.Nodup.map_on ?_ (cubeOrder_nodup _)
    intro v hv w hw e
    have := congrArg (localOf l.cfg.vps) e
    rwa [localOf_globalIndex (mem_cubeOrder.1 hv), localOf_globalIndex (mem_cubeOrder.1 hw)] at this
  · intro c
    rw [content_isSome wf]
    constructor
    · intro h
      obtain ⟨v, hv, rfl⟩ := List.mem_map.1 h
      rw [blockOf_globalIndex (mem_cubeOrder.1 hv)]
      exact ⟨hi, rfl⟩
    · rintro ⟨-, rfl⟩
      exact List.mem_map.2 ⟨_, mem_cubeOrder.2 (localOf_inBlock wf.side_pos c), globalIndex_split c⟩

/-- The mesh of an existing block shows it. -/
theorem shows_blockMesh (sq : ℚ → Fl) (useColor : Bool) (fns : VoxelFns V) {l : VLayer V} (wf : WellFormed l) {i : Idx} (hi : (block? l i).isSome = true) :
    ShowsBlock useColor fns.sdf l i { blockMesh sq useColor l fns i with updated := false } := by
  refine ⟨soup_mark (blockMesh_soup sq useColor l fns i) false, _, cubesOf_block wf hi, ?_⟩
  rw [← vertices_surface sq useColor l fns [i]]
  simp

/-- The empty mesh shows a block that does not exist. -/
theorem shows_missing (useColor : Bool) (sdf : V → Option ℚ) {l : VLayer V} (wf : WellFormed l) {i : Idx} (hi : block? l i = none) :
    ShowsBlock useColor sdf l i Mesh.empty := by
  refine ⟨soup_empty _, [], ⟨List.nodup_nil, fun c => ?_⟩, rfl⟩
  simp only [List.not_mem_nil, false_iff, not_and]
  intro h hc
  rw [content_isSome wf, hc, hi] at h
  cases h

/-! ### Meshing -/

theorem _root_.Vox.Spec.MapSound.same {l l' : VLayer V} (h : MapSound l) (hs : SameVoxels l l') : MapSound l' := by
  refine ⟨hs.wf h.wf, by rw [hs.keys]; exact h.nodup, fun i hi => ?_⟩
  have := h.range i (by rw [← hs.isSome]; exact hi)
  unfold BlockInRange at this ⊢
  rw [← hs.cfg]
  exact this

theorem same_content {l l' : VLayer V} (hs : SameVoxels l l') (g : Idx) : content l' g = content l g := by
  unfold content
  rw [← hs.cfg]
  have := hs.block (g.map (· / (l.cfg.vps : ℤ)))
  unfold block? at this
  cases h1 : l'.blocks.lookup (g.map (· / (l.cfg.vps : ℤ))) <;>
    cases h2 : l.blocks.lookup (g.map (· / (l.cfg.vps : ℤ))) <;> rw [h1, h2] at this <;> simp at this ⊢
  rw [this.2.2.2]

/-- Meshing and sending, of the updated blocks or of all. -/
theorem mesh_and_send {env : Env V} {only : Bool} {s s' : State V} {msg : MeshMsg.Msg} (hm : MapSound s.map) (hk : MeshKeys s.meshes)
    (hs : Soups env.useColor s.meshes)
    (h : (do
      let r ← MeshInt.generateMesh env.E.sq env.useColor env.fns true only true (s.map, s.meshes)
      let m ← MeshMsg.generateMsg env.edge env.inv env.mode r.2
      pure (m.1, (⟨r.1, m.2⟩ : State V)) : Outcome (MeshMsg.Msg × State V)) = .ok (msg, s')) :
    SameVoxels s.map s'.map ∧ MeshKeys s'.meshes ∧ Soups env.useColor s'.meshes ∧
      (∀ j, shownMesh s'.meshes j = if j ∈ blocksToMesh only s.map then { blockMesh env.E.sq env.useColor s.map env.fns j with updated := false }
        else shownMesh s.meshes j) ∧
      ∀ j, flagOf s'.map j = (flagOf s.map j).map fun f => if j ∈ blocksToMesh only s.map then false else f := by
  obtain ⟨l1, ml1, e1, e2, e3, e4⟩ := generateMesh_ok env.E.sq env.useColor env.fns true only true hm.wf hm.nodup hm.range (fun _ => rfl) s.meshes
  rw [e1, Outcome.bind_ok] at h
  obtain ⟨⟨msg', ml2⟩, h2, h⟩ := Outcome.bind_eq_ok.1 h
  have e := (Prod.mk.inj (Outcome.ok.inj h)).2
  subst e
  have hk1 := generate_keys hk e1
  have hs1 : Soups env.useColor ml1 := by
    intro i m hi
    rw [e3] at hi
    split_ifs at hi
    · obtain rfl := Option.some.inj hi
      exact blockMesh_soup _ _ _ _ _
    · exact hs i m hi
  obtain ⟨k2, s2, sh⟩ := send_shown hk1 hs1 h2
  refine ⟨e2, k2, s2, fun j => ?_, fun j => ?_⟩
  · dsimp only
    rw [sh]
    have := e3 j
    split_ifs at this ⊢ with hj
    · rw [shown_of this]
    · exact shown_congr this
  · dsimp only
    rw [e4]
    simp

/-! ### Removing what is far away -/

theorem removeDistant_block? (l : VLayer V) (center : Pt) (d : ℚ) (nd : (l.blocks.map (·.1)).Nodup) (i : Idx) :
    block? (removeDistant l center d) i = (block? l i).bind fun b => if sqNorm (b.origin - center) ≤ d * d then some b else none := by
  unfold block? removeDistant
  dsimp only
  have nd' : ((l.blocks.filter fun e => decide (sqNorm (e.2.origin - center) ≤ d * d)).map (·.1)).Nodup := (List.filter_sublist.map _).nodup nd
  apply Option.ext
  intro b
  rw [Layer.lookup_mem_iff nd', List.mem_filter, decide_eq_true_eq, ← Layer.lookup_mem_iff nd]
  cases l.blocks.lookup i with
  | none => simp
  | some b0 =>
    simp only [Option.some.injEq, Option.bind_some]
    constructor
    · rintro ⟨rfl, h⟩
      rw [if_pos h]
    · intro h
      split_ifs at h with h0
      obtain rfl := Option.some.inj h
      exact ⟨rfl, h0⟩

theorem removeDistant_sound {l : VLayer V} (h : MapSound l) (center : Pt) (d : ℚ) : MapSound (removeDistant l center d) := by
  refine ⟨⟨h.wf.size_pos, h.wf.side_pos, h.wf.side_le, ?_⟩, (List.filter_sublist.map _).nodup h.nodup, ?_⟩
  · intro i b hb
    have hb : block? (removeDistant l center d) i = some b := hb
    rw [removeDistant_block? _ _ _ h.nodup] at hb
    obtain ⟨b0, h0, hb⟩ := Option.bind_eq_some_iff.1 hb
    split_ifs at hb
    obtain rfl := Option.some.inj hb
    exact h.wf.block i _ h0
  · intro i hi
    obtain ⟨b, hb⟩ := Option.isSome_iff_exists.1 hi
    rw [removeDistant_block? _ _ _ h.nodup] at hb
    obtain ⟨b0, h0, -⟩ := Option.bind_eq_some_iff.1 hb
    exact h.range i (by rw [h0]; rfl)

theorem clearDistant_keys (cfg : Cfg) (ml : MeshMap) (center : Pt) (d : ℚ) : (clearDistant cfg ml center d).map (·.1) = ml.map (·.1) := by
  unfold clearDistant
  rw [List.map_map]
  refine List.map_congr_left fun e _ => ?_
  simp only [Function.comp_apply]
  split_ifs <;> rfl

theorem clearDistant_lookup (cfg : Cfg) (ml : MeshMap) (center : Pt) (d : ℚ) (i : Idx) :
    (clearDistant cfg ml center d).lookup i =
      (ml.lookup i).map fun m => if d * d < sqNorm (meshOrigin cfg i - center) then { clearMesh m with updated := true } else m := by
  have : clearDistant cfg ml center d = ml.map fun e => (e.1, (fun k m => if d * d < sqNorm (meshOrigin cfg k - center) then
      { clearMesh m with updated := true } else m) e.1 e.2) := by
    unfold clearDistant
    refine List.map_congr_left fun e _ => ?_
    by_cases h : d * d < sqNorm (meshOrigin cfg e.1 - center) <;> simp [h]
  rw [this, lookup_mapVal (fun k m => if d * d < sqNorm (meshOrigin cfg k - center) then { clearMesh m with updated := true } else m)]

theorem clearDistant_shown (cfg : Cfg) (ml : MeshMap) (center : Pt) (d : ℚ) (i : Idx) :
    shownMesh (clearDistant cfg ml center d) i = if d * d < sqNorm (meshOrigin cfg i - center) then Mesh.empty else shownMesh ml i := by
  have h := clearDistant_lookup cfg ml center d i
  cases h0 : ml.lookup i with
  | none =>
    rw [h0] at h
    rw [shown_none h0, shown_none h, ite_self]
  | some m =>
    rw [h0, Option.map_some] at h
    rw [shown_of h, shown_of h0]
    split_ifs <;> rfl

theorem clearDistant_soups {c : Bool} {ml : MeshMap} (h : Soups c ml) (cfg : Cfg) (center : Pt) (d : ℚ) : Soups c (clearDistant cfg ml center d) := by
  intro i m hm
  rw [clearDistant_lookup] at hm
  obtain ⟨m0, h0, rfl⟩ := Option.map_eq_some_iff.1 hm
  split_ifs
  · exact soup_clear _ _ _
  · exact h i m0 h0

/-- The origin of a block is that of its mesh. -/
theorem origin_mesh {l : VLayer V} (wf : WellFormed l) {i : Idx} {b : Block ℚ V} (hb : block? l i = some b) : b.origin = meshOrigin l.cfg i := by
  rw [(wf.block i b hb).2.2.1]
  rfl

/-! ### Messages -/

theorem applyBlock_status {T : VoxelType V} {action : ℕ} {B B' : VLayer V} {m : Idx × List Word} (h : applyBlock T action B m = .ok B') (j : Idx) :
    status B' j = if j = m.1 then some ((status B j).getD (false, Flags.ofBool false)) else status B j := by
  have e : ∀ l : VLayer V, status l j = (block? l j).map fun b => (b.hasData, b.updated) := fun _ => rfl
  unfold applyBlock at h
  split_ifs at h with h1 h2
  · unfold putBlock at h
    dsimp only at h
    rw [← allocateBlock_status T.dflt B m.1 j]
    cases hb : block? (allocateBlock T.dflt B m.1) m.1 with
    | none => rw [hb] at h; cases h
    | some b =>
      rw [hb] at h
      dsimp only at h
      obtain ⟨xs, -, h⟩ := Outcome.bind_eq_ok.1 h
      obtain rfl := Outcome.ok.inj h
      rw [e, e, modifyBlock_block?]
      split_ifs with hj
      · rw [hj, hb]; rfl
      · rfl
  · unfold mergeInto at h
    cases hb : block? B m.1 with
    | none => exact absurd (Or.inr hb) h1
    | some b =>
      rw [hb] at h
      dsimp only at h
      obtain ⟨xs, -, h⟩ := Outcome.bind_eq_ok.1 h
      rw [mergeBlock_noData (self := b) (other := { Block.new T.dflt b.vps b.voxelSize b.origin with voxels := xs }) rfl rfl rfl, Outcome.bind_ok] at h
      obtain rfl := Outcome.ok.inj h
      rw [e, e, modifyBlock_block?]
      split_ifs with hj
      · rw [hj, hb]; rfl
      · rfl
  · obtain rfl := Outcome.ok.inj h
    split_ifs with hj
    · cases hb : block? B m.1 with
      | none => exact absurd (Or.inr hb) h1
      | some b => rw [e, hj, hb]; rfl
    · rfl

/-- Messages leave the flags of existing blocks and set none on new ones. -/
theorem applyBlocks_status {T : VoxelType V} {action : ℕ} (ms : List (Idx × List Word)) : ∀ {B B' : VLayer V}, ms.foldlM (applyBlock T action) B = .ok B' →
    ∀ j, status B' j = status B j ∨ (status B j = none ∧ status B' j = some (false, Flags.ofBool false)) := by
  induction ms with
  | nil =>
    intro B B' h j
    obtain rfl := Outcome.ok.inj h
    exact Or.inl rfl
  | cons m ms ih =>
    intro B B' h j
    rw [List.foldlM_cons] at h
    obtain ⟨B1, h1, h⟩ := Outcome.bind_eq_ok.1 h
    have e := applyBlock_status h1 j
    have h2 := ih h j
    split_ifs at e with hj
    · cases hs : status B j with
      | none =>
        rw [hs, Option.getD_none] at e
        rw [e] at h2
        rcases h2 with h2 | ⟨h2, -⟩
        · exact Or.inr ⟨rfl, h2⟩
        · cases h2
      | some x =>
        rw [hs, Option.getD_some] at e
        rw [e] at h2
        rcases h2 with h2 | ⟨h2, -⟩
        · exact Or.inl h2
        · cases h2
    · rw [e] at h2
      exact h2

/-- What a message does to a map. -/
theorem receive_ok {env : Env V} {m : Msg} {s s' : State V} (hm : MapSound s.map) (hr : InRange s.map m) (hT : Decodes env.T.codec)
    (h : receive env m s = .ok s') :
    s'.meshes = s.meshes ∧ MapSound s'.map ∧
      (m.action ≠ 2 → ∀ j, status s'.map j = status s.map j ∨ (status s.map j = none ∧ status s'.map j = some (false, Flags.ofBool false))) := by
  unfold receive MapServer.mapCallback deserializeMsg deserializeLayer at h
  obtain ⟨l, h0, h⟩ := Outcome.bind_eq_ok.1 h
  obtain rfl := Outcome.ok.inj h
  obtain ⟨⟨l', f⟩, h1, h2⟩ := Outcome.bind_eq_ok.1 h0
  clear h0
  obtain rfl := Outcome.ok.inj h2
  refine ⟨rfl, ?_⟩
  dsimp only
  by_cases c1 : env.T.name ≠ m.layerType
  · rw [if_pos c1] at h1
    obtain ⟨rfl, -⟩ := Prod.mk.inj (Outcome.ok.inj h1)
    exact ⟨hm, fun _ j => Or.inl rfl⟩
  by_cases c2 : sizesDiffer env.ar m s.map = true
  · rw [if_neg c1, if_pos c2] at h1
    obtain ⟨rfl, -⟩ := Prod.mk.inj (Outcome.ok.inj h1)
    exact ⟨hm, fun _ j => Or.inl rfl⟩
  · rw [if_neg c1, if_neg c2] at h1
    obtain ⟨B', h3, h1⟩ := Outcome.bind_eq_ok.1 h1
    obtain ⟨-, -, h1⟩ := Outcome.bind_eq_ok.1 h1
    obtain ⟨rfl, -⟩ := Prod.mk.inj (Outcome.ok.inj h1)
    have hb : ∃ B : VLayer V, (if m.action = 2 then (⟨s.map.cfg, []⟩ : VLayer V) else s.map) = B ∧ B.cfg = s.map.cfg ∧ WellFormed B ∧
        (B.blocks.map (·.1)).Nodup ∧ B.blocks.map (·.1) ⊆ s.map.blocks.map (·.1) ∧ (m.action ≠ 2 → B = s.map) := by
      by_cases ha : m.action = 2
      · rw [if_pos ha]
        refine ⟨_, rfl, rfl, ⟨hm.wf.size_pos, hm.wf.side_pos, hm.wf.side_le, by simp⟩, by simp, by simp, fun h => absurd ha h⟩
      · rw [if_neg ha]
        exact ⟨_, rfl, rfl, hm.wf, hm.nodup, fun _ h => h, fun _ => rfl⟩
    obtain ⟨B, e, hc, wb, nb, hsub, hne⟩ := hb
    rw [e] at h3
    have hany := (applyBlocks_any env.T hT m.action m.blocks wb nb).1
    rw [h3] at hany
    rcases hany with hany | ⟨B1, h4, c4, w4, n4, k4⟩
    · cases hany
    · obtain rfl := Outcome.ok.inj h4
      refine ⟨⟨w4, n4, ?_⟩, ?_⟩
      · intro i hi
        have hrange : BlockInRange s.map i := by
          rcases List.mem_append.1 (k4 ((block_isSome_iff _ _).1 hi)) with h | h
          · obtain ⟨x, hx, rfl⟩ := List.mem_map.1 h
            exact hr x hx
          · exact hm.range i ((block_isSome_iff _ _).2 (hsub h))
        unfold BlockInRange at hrange ⊢
        rw [c4, hc]
        exact hrange
      · intro ha
        rw [← hne ha]
        exact applyBlocks_status _ h3

/-! ### Runs -/

/-- What holds in every run. -/
structure Sound (env : Env V) (s : State V) : Prop where
  map : MapSound s.map
  keys : MeshKeys s.meshes
  soups : Soups env.useColor s.meshes

theorem fresh_sound {env : Env V} {s : State V} (h : Fresh s) : Sound env s := by
  obtain ⟨wf, hb, hm⟩ := h
  refine ⟨⟨wf, by rw [hb]; exact List.nodup_nil, ?_⟩, by rw [hm]; exact List.nodup_nil, by rw [hm]; intro i m h; cases h⟩
  intro i hi
  unfold block? at hi
  rw [hb] at hi
  cases hi

theorem step_sound {env : Env V} {s s' : State V} {e : Event V} (h : Sound env s) (ha : Admissible env s e) (hs : step env s e = .ok s') :
    Sound env s' := by
  cases e with
  | change new =>
    obtain rfl := Outcome.ok.inj hs
    exact ⟨MarkedChange.sound ha, h.keys, h.soups⟩
  | cloud new center =>
    obtain rfl := Outcome.ok.inj hs
    refine ⟨removeDistant_sound (MarkedChange.sound ha) _ _, ?_, clearDistant_soups h.soups _ _ _⟩
    unfold MeshKeys prune
    rw [clearDistant_keys]
    exact h.keys
  | update =>
    obtain ⟨⟨msg, s1⟩, h1, h2⟩ := Outcome.bind_eq_ok.1 hs
    obtain rfl := Outcome.ok.inj h2
    obtain ⟨a, b, c, -, -⟩ := mesh_and_send h.map h.keys h.soups h1
    exact ⟨h.map.same a, b, c⟩
  | generate =>
    obtain ⟨⟨msg, s1⟩, h1, h2⟩ := Outcome.bind_eq_ok.1 hs
    obtain rfl := Outcome.ok.inj h2
    obtain ⟨a, b, c, -, -⟩ := mesh_and_send h.map h.keys h.soups h1
    exact ⟨h.map.same a, b, c⟩
  | clear =>
    obtain rfl := Outcome.ok.inj hs
    exact fresh_sound ⟨⟨h.map.wf.size_pos, h.map.wf.side_pos, h.map.wf.side_le, by simp [clear, MapServer.removeAllBlocks]⟩, rfl, rfl⟩
  | receive m =>
    obtain ⟨a, b, -⟩ := receive_ok h.map ha.1 ha.2 hs
    exact ⟨b, by rw [a]; exact h.keys, by rw [a]; exact h.soups⟩

theorem run_sound {env : Env V} {s₀ s : State V} {es : List (Event V)} (h0 : Fresh s₀) (h : ServerRun env s₀ es s) : Sound env s := by
  induction h with
  | start => exact fresh_sound h0
  | step e h ha hs ih => exact step_sound ih ha hs

/-- Nothing is shown where there is no block. -/
def NoGhosts (s : State V) : Prop := ∀ i, block? s.map i = none → shownMesh s.meshes i = Mesh.empty

theorem block_none_iff {l l' : VLayer V} {i : Idx} (h : (block? l' i).isSome = (block? l i).isSome) : block? l' i = none ↔ block? l i = none := by
  cases h1 : block? l' i <;> cases h2 : block? l i <;> rw [h1, h2] at h <;> simp_all

theorem meshed_ghosts {env : Env V} {only : Bool} {s s' : State V} (hm : MapSound s.map) (hg : NoGhosts s) (hv : SameVoxels s.map s'.map)
    (hs : ∀ j, shownMesh s'.meshes j = if j ∈ blocksToMesh only s.map then { blockMesh env.E.sq env.useColor s.map env.fns j with updated := false }
        else shownMesh s.meshes j) : NoGhosts s' := by
  intro i hi
  rw [block_none_iff (hv.isSome i)] at hi
  rw [hs, if_neg, hg i hi]
  rw [mem_blocksToMesh hm.nodup]
  rintro ⟨b, hb, -⟩
  rw [hi] at hb
  cases hb

theorem step_ghosts {env : Env V} {s s' : State V} {e : Event V} (h : Sound env s) (hg : NoGhosts s) (ha : Admissible env s e)
    (hr : ∀ m, e = .receive m → m.action ≠ 2) (hs : step env s e = .ok s') : NoGhosts s' := by
  cases e with
  | change new =>
    obtain rfl := Outcome.ok.inj hs
    intro i hi
    refine hg i ?_
    cases hb : block? s.map i with
    | none => rfl
    | some b =>
      have := MarkedChange.keeps ha i (by rw [hb]; rfl)
      dsimp only at hi
      rw [hi] at this
      cases this
  | cloud new center =>
    obtain rfl := Outcome.ok.inj hs
    have ha : MarkedChange s.map new := ha
    intro i hi
    unfold prune at hi ⊢
    dsimp only at hi ⊢
    rw [clearDistant_shown]
    rw [removeDistant_block? _ _ _ ha.sound.nodup] at hi
    cases hb : block? new i with
    | none =>
      have : block? s.map i = none := by
        cases hb' : block? s.map i with
        | none => rfl
        | some b =>
          have := ha.keeps i (by rw [hb']; rfl)
          rw [hb] at this
          cases this
      rw [hg i this, ite_self]
    | some b =>
      rw [hb, Option.bind_some, origin_mesh ha.sound.wf hb] at hi
      split_ifs at hi with hd
      rw [if_pos (not_le.1 hd)]
  | update =>
    obtain ⟨⟨msg, s1⟩, h1, h2⟩ := Outcome.bind_eq_ok.1 hs
    obtain rfl := Outcome.ok.inj h2
    obtain ⟨a, -, -, d, -⟩ := mesh_and_send h.map h.keys h.soups h1
    exact meshed_ghosts h.map hg a d
  | generate =>
    obtain ⟨⟨msg, s1⟩, h1, h2⟩ := Outcome.bind_eq_ok.1 hs
    obtain rfl := Outcome.ok.inj h2
    obtain ⟨a, -, -, d, -⟩ := mesh_and_send h.map h.keys h.soups h1
    exact meshed_ghosts h.map hg a d
  | clear =>
    obtain rfl := Outcome.ok.inj hs
    intro i _
    rfl
  | receive m =>
    obtain ⟨a, -, c⟩ := receive_ok h.map ha.1 ha.2 hs
    intro i hi
    rw [a]
    refine hg i ?_
    have e : ∀ l : VLayer V, status l i = none ↔ block? l i = none := fun l => by
      show (block? l i).map _ = none ↔ _
      rw [Option.map_eq_none_iff]
    rcases c (hr m rfl) i with h1 | ⟨h1, -⟩
    · rw [← e, ← h1, e]
      exact hi
    · exact (e _).1 h1

theorem run_ghosts {env : Env V} {s₀ s : State V} {es : List (Event V)} (h0 : Fresh s₀) (h : ServerRun env s₀ es s) (hn : NoReset es) : NoGhosts s := by
  induction h with
  | start =>
    intro i _
    rw [h0.2.2]
    rfl
  | step e h ha hs ih =>
    have hn' := ih fun m hm => hn m (List.mem_append_left _ hm)
    refine step_ghosts (run_sound h0 h) hn' ha ?_ hs
    rintro m rfl
    exact hn m (by simp)

/-- Blocks without a mark have a mesh made from their present voxels at some time of the run. -/
def Own (env : Env V) (s₀ : State V) (es : List (Event V)) (s : State V) : Prop :=
  ∀ i b, block? s.map i = some b → b.updated.get .mesh = false → ∃ es₁ s₁, es₁ <+: es ∧ ServerRun env s₀ es₁ s₁ ∧
    (block? s₁.map i).map (·.voxels) = some b.voxels ∧ ShowsBlock env.useColor env.fns.sdf s₁.map i (shownMesh s.meshes i)

theorem same_voxels {l l' : VLayer V} (hs : SameVoxels l l') {i : Idx} {b' : Block ℚ V} (hb : block? l' i = some b') :
    ∃ b, block? l i = some b ∧ b.voxels = b'.voxels := by
  have h := hs.block i
  rw [hb] at h
  cases h0 : block? l i with
  | none => rw [h0] at h; cases h
  | some b =>
    rw [h0] at h
    simp only [Option.map_some, Option.some.injEq, Prod.mk.injEq] at h
    exact ⟨b, rfl, h.2.2.2.symm⟩

theorem meshed_own {env : Env V} {only : Bool} {s₀ s s' : State V} {es : List (Event V)} (hm : MapSound s.map)
    (hr : ServerRun env s₀ es s) (ho : Own env s₀ es s) (hv : SameVoxels s.map s'.map)
    (hs : ∀ j, shownMesh s'.meshes j = if j ∈ blocksToMesh only s.map then { blockMesh env.E.sq env.useColor s.map env.fns j with updated := false }
        else shownMesh s.meshes j) : ∀ i b, block? s'.map i = some b → ∃ es₁ s₁, es₁ <+: es ∧ ServerRun env s₀ es₁ s₁ ∧
    (block? s₁.map i).map (·.voxels) = some b.voxels ∧ ShowsBlock env.useColor env.fns.sdf s₁.map i (shownMesh s'.meshes i) := by
  intro i b' hb'
  obtain ⟨b, hb, hbv⟩ := same_voxels hv hb'
  rw [hs]
  by_cases hi : i ∈ blocksToMesh only s.map
  · rw [if_pos hi]
    refine ⟨es, s, List.prefix_refl _, hr, by rw [hb, ← hbv]; rfl, shows_blockMesh _ _ _ hm.wf (by rw [hb]; rfl)⟩
  · rw [if_neg hi]
    have hf : b.updated.get .mesh = false := by
      rw [mem_blocksToMesh hm.nodup] at hi
      push Not at hi
      have := hi b hb
      simpa using this.2
    obtain ⟨es1, s1, h1, h2, h3, h4⟩ := ho i b hb hf
    exact ⟨es1, s1, h1, h2, by rw [h3, hbv], h4⟩

theorem step_own {env : Env V} {s₀ s s' : State V} {es : List (Event V)} {e : Event V} (h : Sound env s) (hr : ServerRun env s₀ es s)
    (ho : Own env s₀ es s) (ha : Admissible env s e) (hn : ∀ m, e ≠ .receive m) (hs : step env s e = .ok s') : Own env s₀ (es ++ [e]) s' := by
  cases e with
  | change new =>
    obtain rfl := Outcome.ok.inj hs
    intro i b' hb' hf
    obtain ⟨b, hb, hf0, hv⟩ := MarkedChange.marked ha i b' hb' hf
    obtain ⟨es1, s1, h1, h2, h3, h4⟩ := ho i b hb hf0
    exact ⟨es1, s1, h1.trans (List.prefix_append _ _), h2, by rw [h3, hv], h4⟩
  | cloud new center =>
    obtain rfl := Outcome.ok.inj hs
    have ha : MarkedChange s.map new := ha
    intro i b' hb' hf
    unfold prune at hb' ⊢
    dsimp only at hb' ⊢
    rw [removeDistant_block? _ _ _ ha.sound.nodup] at hb'
    obtain ⟨b1, hb1, hb'⟩ := Option.bind_eq_some_iff.1 hb'
    rw [origin_mesh ha.sound.wf hb1] at hb'
    split_ifs at hb' with hd
    obtain rfl := Option.some.inj hb'
    obtain ⟨b, hb, hf0, hv⟩ := ha.marked i b1 hb1 hf
    obtain ⟨es1, s1, h1, h2, h3, h4⟩ := ho i b hb hf0
    rw [clearDistant_shown, if_neg (not_lt.2 hd)]
    exact ⟨es1, s1, h1.trans (List.prefix_append _ _), h2, by rw [h3, hv], h4⟩
  | update =>
    obtain ⟨⟨msg, s1⟩, h1, h2⟩ := Outcome.bind_eq_ok.1 hs
    obtain rfl := Outcome.ok.inj h2
    obtain ⟨a, -, -, d, -⟩ := mesh_and_send h.map h.keys h.soups h1
    intro i b hb _
    obtain ⟨es1, s1, h1, h2⟩ := meshed_own h.map hr ho a d i b hb
    exact ⟨es1, s1, h1.trans (List.prefix_append _ _), h2⟩
  | generate =>
    obtain ⟨⟨msg, s1⟩, h1, h2⟩ := Outcome.bind_eq_ok.1 hs
    obtain rfl := Outcome.ok.inj h2
    obtain ⟨a, -, -, d, -⟩ := mesh_and_send h.map h.keys h.soups h1
    intro i b hb _
    obtain ⟨es1, s1, h1, h2⟩ := meshed_own h.map hr ho a d i b hb
    exact ⟨es1, s1, h1.trans (List.prefix_append _ _), h2⟩
  | clear =>
    obtain rfl := Outcome.ok.inj hs
    intro i b hb
    cases hb
  | receive m => exact absurd rfl (hn m)

theorem run_own {env : Env V} {s₀ s : State V} {es : List (Event V)} (h0 : Fresh s₀) (h : ServerRun env s₀ es s) (hn : NoMessage es) :
    Own env s₀ es s := by
  induction h with
  | start =>
    intro i b hb
    unfold block? at hb
    rw [h0.2.1] at hb
    cases hb
  | step e h ha hs ih =>
    refine step_own (run_sound h0 h) h (ih fun m hm => hn m (List.mem_append_left _ hm)) ha ?_ hs
    rintro m rfl
    exact hn m (by simp)

/-! ### The file -/

/-- The meshes of a layer that shows a map are, together, its surface. -/
theorem shown_surface {sq : ℚ → Fl} {useColor : Bool} {fns : VoxelFns V} {l : VLayer V} (hm : MapSound l) {ml : MeshMap} (hk : MeshKeys ml)
    (hs : ∀ i, shownMesh ml i = if i ∈ l.blocks.map (·.1) then { blockMesh sq useColor l fns i with updated := false } else Mesh.empty)
    {es : MeshMap} (hp : es.Perm ml) :
    ∃ cs, EachCubeOnce l cs ∧ cs.length = l.blocks.length * l.cfg.vps ^ 3 ∧
      (es.map (·.2)).flatMap (·.vertices) = (surfaceIn l fns.sdf cs).map fun p => p.map .fin := by
  classical
  let ks := es.map (·.1)
  have hks : ks.Nodup := (hp.map _).nodup_iff.2 hk
  let ks' := ks.filter (· ∈ l.blocks.map (·.1)) ++ (l.blocks.map (·.1)).filter (· ∉ ks)
  have hperm : ks'.Perm (l.blocks.map (·.1)) := by
    rw [List.perm_ext_iff_of_nodup ?_ hm.nodup]
    · intro i
      simp only [ks', List.mem_append, List.mem_filter, decide_eq_true_eq]
      constructor
      · rintro (h | h)
        · exact h.2
        · exact h.1
      · intro h
        by_cases hi : i ∈ ks
        · exact Or.inl ⟨hi, h⟩
        · exact Or.inr ⟨h, hi⟩
    · rw [List.nodup_append]
      refine ⟨hks.filter _, hm.nodup.filter _, ?_⟩
      intro a ha b hb e
      subst e
      have h1 := (List.mem_filter.1 ha).1
      have h2 := (List.mem_filter.1 hb).2
      simp only [decide_eq_true_eq] at h2
      exact h2 h1
  refine ⟨cubesOf l.cfg.vps ks', cubesOf_once hm.wf hm.nodup hperm, by rw [cubesOf_length, hperm.length_eq, List.length_map], ?_⟩
  rw [← vertices_surface sq useColor l fns ks']
  have e1 : (es.map (·.2)).flatMap (·.vertices) = ks.flatMap fun i => (shownMesh ml i).vertices := by
    simp only [ks]
    rw [List.flatMap_map, List.flatMap_map]
    apply List.flatMap_congr
    intro e he
    have : ml.lookup e.1 = some e.2 := (Layer.lookup_mem_iff hk).2 (hp.mem_iff.1 he)
    rw [shown_of this]
  have e2 : ks.flatMap (fun i => (shownMesh ml i).vertices) =
      (ks.filter (· ∈ l.blocks.map (·.1))).flatMap fun i => (blockMesh sq useColor l fns i).vertices := by
    generalize ks = ks
    induction ks with
    | nil => rfl
    | cons i is ih =>
      rw [List.flatMap_cons, ih, List.filter_cons, hs]
      by_cases hi : i ∈ l.blocks.map (·.1)
      · rw [if_pos hi, if_pos (by simpa using hi), List.flatMap_cons]
      · rw [if_neg hi, if_neg (by simpa using hi)]
        rfl
  have e3 : ((l.blocks.map (·.1)).filter (· ∉ ks)).flatMap (fun i => (blockMesh sq useColor l fns i).vertices) = [] := by
    rw [List.flatMap_eq_nil_iff]
    intro i hi
    obtain ⟨hi, hn⟩ := List.mem_filter.1 hi
    simp only [decide_eq_true_eq] at hn
    have h0 : ml.lookup i = none := by
      cases h : ml.lookup i with
      | none => rfl
      | some m =>
        exact absurd (List.mem_map.2 ⟨(i, m), hp.mem_iff.2 ((Layer.lookup_mem_iff hk).1 h), rfl⟩) hn
    have h1 := hs i
    rw [shown_none h0, if_pos hi] at h1
    have := congrArg Mesh.vertices h1
    exact this.symm
  rw [e1, e2, List.flatMap_map]
  simp only [ks']
  rw [List.flatMap_append, e3, List.append_nil]

/-- Connecting triangle soups that together are the surface of a map, and saving the result. -/
theorem connected_file {E : Export.Env} {useColor : Bool} {sdf : V → Option ℚ} {thr : Fl} {K : Vec3 Fl → Idx} {l : VLayer V} {cs : List Idx}
    (hc : EachCubeOnce l cs) {ms : List Mesh} (hsoup : ∀ m ∈ ms, TriangleSoup useColor m)
    (hvs : ms.flatMap (·.vertices) = (surfaceIn l sdf cs).map fun p => p.map .fin)
    (hK : ∀ c, ∀ p ∈ surfaceIn l sdf [c], vertexKey E.D (E.D.div (.fin 1) thr) (p.map .fin) = .ok (K (p.map .fin)))
    (hsize : 15 * cs.length ≤ 2 ^ 31) {d : Ply.Disk} (ho : d.opens = true) (hroom : d.room = none) :
    ∃ m, createConnectedMesh E.D E.F thr ms Mesh.empty = .ok m ∧
      (¬ HasSurface l sdf → saveIf d (m, !m.vertices.isEmpty) = .ok (false, none)) ∧
      (HasSurface l sdf → ∃ t, saveIf d (m, !m.vertices.isEmpty) = .ok (true, some t) ∧ FileShows sdf l K t) := by
  have hin : ∀ m ∈ ms, ∀ v ∈ m.vertices, ∃ p ∈ surfaceIn l sdf cs, v = p.map .fin := by
    intro m hm v hv
    have : v ∈ ms.flatMap (·.vertices) := List.mem_flatMap.2 ⟨m, hm, hv⟩
    rw [hvs] at this
    obtain ⟨p, hp, rfl⟩ := List.mem_map.1 this
    exact ⟨p, hp, rfl⟩
  obtain ⟨r, e1, hv, e3, e4, e5, hn, hcol⟩ := C55_connected_partial E.D E.F thr K useColor ms
    (by
      intro m hm v hv
      obtain ⟨p, hp, rfl⟩ := hin m hm v hv
      unfold surfaceIn at hp
      obtain ⟨c, -, hp⟩ := List.mem_flatMap.1 hp
      exact hK c p (by unfold surfaceIn; rw [List.flatMap_cons, List.flatMap_nil, List.append_nil]; exact hp))
    (by intro m hm; rw [(hsoup m hm).indices, List.length_range])
    (fun m hm => soup_valid (hsoup m hm)) (fun m hm => (hsoup m hm).normals) (fun m hm => (hsoup m hm).colors)
  have hcells : (ms.flatMap fun m => m.vertices.map K) = (surfaceIn l sdf cs).map fun p => K (p.map .fin) := by
    rw [← List.map_flatMap, hvs, List.map_map]; rfl
  rw [hcells] at e3
  rw [soups_cells K _ hsoup, hvs, List.map_map] at e5
  have hpt : ∀ v ∈ r.vertices, ∃ p ∈ surfaceIn l sdf cs, v = p.map .fin := by
    intro v hv
    obtain ⟨m, hm, hv⟩ := e4 v hv
    exact hin m hm v hv
  have hb : (!r.vertices.isEmpty) = true ↔ HasSurface l sdf := by
    rw [← surfaceIn_ne_nil hc]
    have hmem := (C55_one_per_cell ((surfaceIn l sdf cs).map fun p => K (p.map .fin))).2
    rw [← e3] at hmem
    constructor
    · intro h h0
      rw [h0] at hmem
      obtain ⟨v, hv⟩ := List.exists_mem_of_ne_nil r.vertices (by simpa using h)
      exact absurd ((hmem (K v)).1 (List.mem_map_of_mem hv)) (by simp)
    · intro h
      obtain ⟨p, hp⟩ := List.exists_mem_of_ne_nil _ h
      obtain ⟨v, hv, -⟩ := List.mem_map.1 ((hmem _).2 (List.mem_map_of_mem hp))
      simpa using List.ne_nil_of_mem hv
  have hlen : r.vertices.length ≤ 2 ^ 31 := by
    have h1 := surfaceIn_le l sdf cs
    have h2 := (firstSeen_nodup ((surfaceIn l sdf cs).map fun p => K (p.map .fin))).length_le_of_subset
      fun k hk => ((C55_one_per_cell _).2 k).1 hk
    rw [← e3, List.length_map, List.length_map] at h2
    omega
  refine ⟨r, e1, ?_, ?_⟩
  · intro h
    unfold saveIf
    rw [if_neg fun h' => h (hb.1 h')]
  · intro hs
    have hps : ∃ ps : List Pt, r.vertices = ps.map (fun p => p.map .fin) ∧ ∀ p ∈ ps, p ∈ surfaceIn l sdf cs := by
      clear hlen hb hcol hn e5 e4 e3 hv e1
      generalize r.vertices = vs at hpt
      induction vs with
      | nil => exact ⟨[], rfl, by simp⟩
      | cons v vs ih =>
        obtain ⟨ps, h1, h2⟩ := ih fun w hw => hpt w (List.mem_cons_of_mem _ hw)
        obtain ⟨p, hp, rfl⟩ := hpt v List.mem_cons_self
        exact ⟨p :: ps, by rw [h1]; rfl, by simpa using ⟨hp, h2⟩⟩
    obtain ⟨ps, hps, hin'⟩ := hps
    have hlen' : r.vertices.length = ps.length := by rw [hps, List.length_map]
    obtain ⟨t, c, sh, p1, p2, p3, hx, hy, hz, -, -, -, -, -, -, -, fs, f1, f2, f3⟩ := Ply.C77_roundtrip (m := r) (Or.inr hn)
      (by
        cases useColor with
        | true => exact Or.inr (by simpa using hcol)
        | false => exact Or.inl (List.length_eq_zero_iff.1 (by simpa using hcol)))
      (Nat.dvd_of_mod_eq_zero hv.1)
      (by
        intro i h
        have := hv.2 i h
        omega) ho hroom
    refine ⟨t, ?_, cs, ps, fs, c, sh, hc, p2, p3, ?_, ?_, ?_, ?_, hin', ?_, ?_, ?_⟩
    · unfold saveIf
      rw [if_pos (hb.2 hs)]
      exact p1
    · rw [hx, hps, List.map_map]; rfl
    · rw [hy, hps, List.map_map]; rfl
    · rw [hz, hps, List.map_map]; rfl
    · rw [f1]
      have : r.indices = [] ↔ fs = [] := by
        rw [← f2]
        constructor
        · intro h
          cases fs with
          | nil => rfl
          | cons f fs =>
            have h3 := f3 f List.mem_cons_self
            rw [List.flatten_cons, List.append_eq_nil_iff] at h
            rw [h.1] at h3
            cases h3
        · rintro rfl; rfl
      simp only [this]
    · rw [← e3, hps, List.map_map]; rfl
    · intro f hf'
      refine ⟨f3 f hf', fun i hi => ?_⟩
      rw [← hlen']
      exact hv.2 i (by rw [← f2]; exact List.mem_flatten.2 ⟨f, hf', hi⟩)
    · rw [List.map_congr_left (g := fun p : Pt => some (K (p.map .fin))) (fun p _ => rfl)]
      have e5' : cellTriangles K r = (triples ((surfaceIn l sdf cs).map fun p => some (K (p.map .fin)))).filter (fun t => decide (Distinct3 t)) := e5
      rw [← e5', f2]
      unfold cellTriangles
      rw [hps]
      congr 1
      apply List.map_congr_left
      intro i _
      rw [List.getElem?_map, Option.map_map]
      rfl

end Vox.ServerMesh
