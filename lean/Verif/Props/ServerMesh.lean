/-
Property C103: the mesh of a server shows its map.
-/
import Verif.Lemmas.ServerMesh
import Verif.Props.Export
import Verif.Props.LayerMsg
import Verif.Props.MeshIntegrator

namespace Vox.ServerMesh

open Layer Grid MC MeshInt MeshOps Spec LayerMsg Export

variable {V : Type}

/-- What shows a block is determined up to the order of the cubes. -/
theorem C103_determined {useColor : Bool} {sdf : V → Option ℚ} {l : VLayer V} {i : Idx} {m m' : Mesh} (h : ShowsBlock useColor sdf l i m)
    (h' : ShowsBlock useColor sdf l i m') : m.vertices.Perm m'.vertices := by
  obtain ⟨-, cs, hc, hv⟩ := h
  obtain ⟨-, cs', hc', hv'⟩ := h'
  rw [hv, hv']
  refine List.Perm.map _ ?_
  unfold surfaceIn
  refine List.Perm.flatMap_right _ ?_
  rw [List.perm_ext_iff_of_nodup hc.1 hc'.1]
  intro c
  rw [hc.2, hc'.2]

/-- **C103 (the mesh service).** After every run of a server without reset messages, `generateMesh` leaves the map alone, and afterwards the mesh layer shows the
surface of the map: at every block index the triangles of the cubes of this block, and nothing where there is no block. -/
theorem C103_generate {env : Env V} {s₀ s s' : State V} {es : List (Event V)} {msg : MeshMsg.Msg} (h0 : Fresh s₀) (h : ServerRun env s₀ es s)
    (hn : NoReset es) (hg : remesh env s = .ok (msg, s')) :
    (∀ g, content s'.map g = content s.map g) ∧ ∀ i, ShowsBlock env.useColor env.fns.sdf s.map i (shownMesh s'.meshes i) := by
  have hs := run_sound h0 h
  obtain ⟨a, -, -, d, -⟩ := mesh_and_send hs.map hs.keys hs.soups hg
  refine ⟨same_content a, fun i => ?_⟩
  rw [d]
  by_cases hi : i ∈ blocksToMesh false s.map
  · rw [if_pos hi]
    exact shows_blockMesh _ _ _ hs.map.wf ((block_isSome_iff _ _).2 hi)
  · rw [if_neg hi]
    have hb : block? s.map i = none := by
      rw [← Option.not_isSome_iff_eq_none, block_isSome_iff]
      exact hi
    rw [run_ghosts h0 h hn i hb]
    exact shows_missing _ _ hs.map.wf hb

/-- **C103 (the saved mesh).** After every run without reset messages the file of `generateMesh` shows the connected surface of the map, for every order in
which the mesh layer is traversed; without a surface there is no file. -/
theorem C103_file {env : Env V} (hE : AnyOrder env.E.iter) {s₀ s s' : State V} {es : List (Event V)} (h0 : Fresh s₀) (h : ServerRun env s₀ es s)
    (hn : NoReset es) (K : Vec3 Fl → Idx)
    (hK : ∀ c, ∀ p ∈ surfaceIn s.map env.fns.sdf [c], vertexKey env.E.D (env.E.D.div (.fin 1) env.thr) (p.map .fin) = .ok (K (p.map .fin)))
    (hsize : 15 * (s.map.blocks.length * s.map.cfg.vps ^ 3) ≤ 2 ^ 31) {d : Ply.Disk} (ho : d.opens = true) (hroom : d.room = none)
    {filename : String} (hf : filename ≠ "") {f : Option (List Char)} (hg : generateMesh env d filename s = .ok (f, s')) :
    (¬ HasSurface s.map env.fns.sdf → f = none) ∧
    (HasSurface s.map env.fns.sdf → ∃ t, f = some t ∧ FileShows env.fns.sdf s.map K t) := by
  have hs := run_sound h0 h
  unfold generateMesh at hg
  obtain ⟨⟨msg, s1⟩, h1, hg⟩ := Outcome.bind_eq_ok.1 hg
  obtain ⟨f', h2, hg⟩ := Outcome.bind_eq_ok.1 hg
  obtain ⟨rfl, rfl⟩ := Prod.mk.inj (Outcome.ok.inj hg)
  obtain ⟨a, k, so, dd, -⟩ := mesh_and_send hs.map hs.keys hs.soups h1
  have hsh : ∀ i, shownMesh s1.meshes i = if i ∈ s.map.blocks.map (·.1) then
      { blockMesh env.E.sq env.useColor s.map env.fns i with updated := false } else Mesh.empty := by
    intro i
    rw [dd]
    by_cases hi : i ∈ s.map.blocks.map (·.1)
    · rw [if_pos hi, if_pos (show i ∈ blocksToMesh false s.map from hi)]
    · rw [if_neg hi, if_neg (show i ∉ blocksToMesh false s.map from hi)]
      refine run_ghosts h0 h hn i ?_
      rw [← Option.not_isSome_iff_eq_none, block_isSome_iff]
      exact hi
  obtain ⟨cs, c1, c2, c3⟩ := shown_surface hs.map k hsh (hE s1.meshes)
  obtain ⟨m, m1, m2, m3⟩ := connected_file (E := env.E) (useColor := env.useColor) (thr := env.thr) c1 (ms := (env.E.iter s1.meshes).map (·.2))
    (by
      intro m hm
      obtain ⟨⟨i, m⟩, he, rfl⟩ := List.mem_map.1 hm
      exact so i m ((Layer.lookup_mem_iff k).2 ((hE _).mem_iff.1 he)))
    c3 hK (by rw [c2]; exact hsize) ho hroom
  unfold meshFile outputMeshes meshLayerToMesh at h2
  rw [if_neg hf, if_pos rfl, m1] at h2
  constructor
  · intro hns
    have e : (do
      let r ← (do
        let r ← (Outcome.ok (m, !m.vertices.isEmpty) : Outcome (Mesh × Bool))
        saveIf d r)
      pure r.2) = Outcome.ok f' := h2
    rw [Outcome.bind_ok, m2 hns, Outcome.bind_ok] at e
    exact (Outcome.ok.inj e).symm
  · intro hsf
    obtain ⟨t, t1, t2⟩ := m3 hsf
    have e : (do
      let r ← (do
        let r ← (Outcome.ok (m, !m.vertices.isEmpty) : Outcome (Mesh × Bool))
        saveIf d r)
      pure r.2) = Outcome.ok f' := h2
    rw [Outcome.bind_ok, t1, Outcome.bind_ok] at e
    exact ⟨t, (Outcome.ok.inj e).symm, t2⟩

/-- **C103 (nothing is left behind).** At every moment of a run without reset messages nothing is shown where the map has no block. -/
theorem C103_no_ghosts {env : Env V} {s₀ s : State V} {es : List (Event V)} (h0 : Fresh s₀) (h : ServerRun env s₀ es s) (hn : NoReset es) {i : Idx}
    (hi : ∀ g, blockOf s.map.cfg.vps g = i → content s.map g = none) : shownMesh s.meshes i = Mesh.empty := by
  have hs := run_sound h0 h
  refine run_ghosts h0 h hn i ?_
  cases hb : block? s.map i with
  | none => rfl
  | some b =>
    have hv : InBlock s.map.cfg.vps (⟨0, 0, 0⟩ : Idx) := by
      have := hs.map.wf.side_pos
      refine ⟨⟨?_, ?_⟩, ⟨?_, ?_⟩, ⟨?_, ?_⟩⟩ <;> simp only <;> omega
    have h1 := hi (globalIndex s.map.cfg.vps i ⟨0, 0, 0⟩) (blockOf_globalIndex hv)
    have h2 : (content s.map (globalIndex s.map.cfg.vps i ⟨0, 0, 0⟩)).isSome = true := by
      rw [content_isSome hs.map.wf, blockOf_globalIndex hv, hb]
      rfl
    rw [h1] at h2
    cases h2

/-- **C103 (removing what is far away).** Blocks and meshes go together: a block stays exactly if its origin is within the distance, and then its mesh stays as
it is; otherwise its mesh is emptied. -/
theorem C103_prune {env : Env V} {s : State V} (hm : MapSound s.map) (center : Pt) (i : Idx) :
    (sqNorm (originPoint i s.map.cfg.blockSize - center) ≤ env.maxDistance * env.maxDistance →
      block? (prune env center s).map i = block? s.map i ∧ shownMesh (prune env center s).meshes i = shownMesh s.meshes i) ∧
    (env.maxDistance * env.maxDistance < sqNorm (originPoint i s.map.cfg.blockSize - center) →
      block? (prune env center s).map i = none ∧ shownMesh (prune env center s).meshes i = Mesh.empty) := by
  unfold prune
  dsimp only
  rw [removeDistant_block? _ _ _ hm.nodup, clearDistant_shown]
  unfold meshOrigin
  constructor
  · intro hd
    refine ⟨?_, by rw [if_neg (not_lt.2 hd)]⟩
    cases hb : block? s.map i with
    | none => rfl
    | some b =>
      rw [Option.bind_some, origin_mesh hm.wf hb, meshOrigin, if_pos hd]
  · intro hd
    refine ⟨?_, by rw [if_pos hd]⟩
    cases hb : block? s.map i with
    | none => rfl
    | some b =>
      rw [Option.bind_some, origin_mesh hm.wf hb, meshOrigin, if_neg (not_le.2 hd)]

/-- **C103 (the mesh timer).** Full statement: after `updateMesh` the mesh layer shows the map, like after `generateMesh`. The code violates it (C53,
`C103_stale_violated`, `C103_received_violated`): a mesh is not made again when a neighbour of its block changes or is removed, nor when voxels come by message. What
holds for every run without messages: after `updateMesh` the mesh of every block shows this block in a map that the server had at some time of the run, with the
voxels that the block has now; and nothing is shown where there is no block. -/
theorem C103_update_partial {env : Env V} {s₀ s s' : State V} {es : List (Event V)} {msg : MeshMsg.Msg} (h0 : Fresh s₀) (h : ServerRun env s₀ es s)
    (hn : NoMessage es) (hg : updateMesh env s = .ok (msg, s')) :
    (∀ g, content s'.map g = content s.map g) ∧
    (∀ i b, block? s'.map i = some b → ∃ es₁ s₁, es₁ <+: es ∧ ServerRun env s₀ es₁ s₁ ∧ (block? s₁.map i).map (·.voxels) = some b.voxels ∧
      ShowsBlock env.useColor env.fns.sdf s₁.map i (shownMesh s'.meshes i)) ∧
    ∀ i, block? s'.map i = none → shownMesh s'.meshes i = Mesh.empty := by
  have hs := run_sound h0 h
  obtain ⟨a, -, -, d, -⟩ := mesh_and_send hs.map hs.keys hs.soups hg
  exact ⟨same_content a, meshed_own hs.map h (run_own h0 h hn) a d, meshed_ghosts hs.map (run_ghosts h0 h fun m hm => absurd hm (hn m)) a d⟩

/-- **C103 (voxels that come by message).** A map message (other than a reset) marks nothing. At a block that was not marked before, `updateMesh` then shows what it
showed before, whatever the voxels have become. -/
theorem C103_received_not_meshed {env : Env V} {s₀ s s₁ s₂ : State V} {es : List (Event V)} {m : Msg} {msg : MeshMsg.Msg} (h0 : Fresh s₀)
    (h : ServerRun env s₀ es s) (hr : InRange s.map m) (hT : Decodes env.T.codec) (ha : m.action ≠ 2) (h1 : receive env m s = .ok s₁)
    (h2 : updateMesh env s₁ = .ok (msg, s₂)) {i : Idx} (hi : ∀ b, block? s.map i = some b → b.updated.get .mesh = false) :
    shownMesh s₂.meshes i = shownMesh s.meshes i := by
  have hs := run_sound h0 h
  obtain ⟨a, b, c⟩ := receive_ok hs.map hr hT h1
  obtain ⟨-, -, -, d, -⟩ := mesh_and_send b (by rw [a]; exact hs.keys) (by rw [a]; exact hs.soups) h2
  rw [d, if_neg, a]
  rw [mem_blocksToMesh b.nodup]
  rintro ⟨b1, hb1, hf⟩
  have e : ∀ l : VLayer V, status l i = (block? l i).map fun b => (b.hasData, b.updated) := fun _ => rfl
  have hst : status s₁.map i = some (b1.hasData, b1.updated) := by rw [e, hb1]; rfl
  have hf := hf rfl
  rcases c ha i with h3 | ⟨-, h3⟩
  · rw [h3, e] at hst
    obtain ⟨b0, hb0, hst⟩ := Option.map_eq_some_iff.1 hst
    have := hi b0 hb0
    rw [(Prod.mk.inj hst).2, hf] at this
    cases this
  · rw [h3] at hst
    have := (Prod.mk.inj (Option.some.inj hst)).2
    rw [← this] at hf
    cases hf

/-- **C103 (reset messages).** A message that empties the map leaves all meshes, and neither `updateMesh` nor `generateMesh` removes one of them. -/
theorem C103_reset_keeps_meshes {env : Env V} {s₀ s s₁ : State V} {es : List (Event V)} {m : Msg} (h0 : Fresh s₀)
    (h : ServerRun env s₀ es s) (hr : InRange s.map m) (hT : Decodes env.T.codec) (h1 : receive env m s = .ok s₁) (he : s₁.map.blocks = []) :
    (∀ msg s₂, updateMesh env s₁ = .ok (msg, s₂) → ∀ i, shownMesh s₂.meshes i = shownMesh s.meshes i) ∧
    ∀ msg s₂, remesh env s₁ = .ok (msg, s₂) → ∀ i, shownMesh s₂.meshes i = shownMesh s.meshes i := by
  have hs := run_sound h0 h
  obtain ⟨a, b, -⟩ := receive_ok hs.map hr hT h1
  constructor <;> intro msg s2 h2 i <;>
  · obtain ⟨-, -, -, d, -⟩ := mesh_and_send b (by rw [a]; exact hs.keys) (by rw [a]; exact hs.soups) h2
    rw [d, if_neg, a]
    rw [mem_blocksToMesh b.nodup]
    rintro ⟨b1, hb1, -⟩
    unfold block? at hb1
    rw [he] at hb1
    cases hb1

/-! ### Concrete servers -/

/-- A voxel at distance `-1` or `1`, with weight 1. -/
def exVoxel (neg : Bool) : TsdfVoxel Word := ⟨if neg then 0xBF800000#32 else 0x3F800000#32, 0x3F800000#32, ⟨10, 20, 30, 255⟩⟩

/-- A block of one voxel. -/
def exBlock (i : Idx) (neg : Bool) (f : Flags) : Block ℚ (TsdfVoxel Word) :=
  { vps := 1, voxelSize := 1, origin := i.map fun (c : ℤ) => (c : ℚ), hasData := true, updated := f, voxels := [exVoxel neg] }

/-- Eight blocks of one voxel; the one at the origin is inside. -/
def exMap (f : Flags) : VLayer (TsdfVoxel Word) where
  cfg := ⟨1, 1⟩
  blocks := cubeOffsets.map fun i => (i, exBlock i (decide (i = ⟨0, 0, 0⟩)) f)

/-- TSDF voxels with the serialization of the code; blocks farther than 10.5 are dropped. -/
def exServer : Env (TsdfVoxel Word) where
  E := exEnv
  useColor := false
  fns := wordFns 0
  T := tsdfType fun a _ => .ok a
  ar := Arith.exact fun _ => .fin 1
  edge := .fin 1
  inv := .fin 1
  mode := .gray
  maxDistance := 21 / 2
  thr := .fin (1 / 1000)

/-- **C103 (voxels as they come by message).** A voxel takes part in the meshes exactly if its weight is a number above the threshold, with the distance
stored in it (if that is a number) and its colour. -/
theorem C103_words (minWeight : ℚ) (v : TsdfVoxel Word) :
    (∀ d, (wordFns minWeight).sdf v = some d ↔ FloatBits.fl32 v.distance = .fin d ∧ ∃ w, FloatBits.fl32 v.weight = .fin w ∧ minWeight < w) ∧
    (∀ c, (wordFns minWeight).color v = some c ↔ v.color = c ∧ ∃ w, FloatBits.fl32 v.weight = .fin w ∧ minWeight < w) := by
  have hw : ∀ {α : Type} (o : Option α) (a : α), ((number v.weight).bind fun w => if w ≤ minWeight then none else o) = some a ↔
      o = some a ∧ ∃ w, FloatBits.fl32 v.weight = .fin w ∧ minWeight < w := by
    intro α o a
    unfold number
    cases FloatBits.fl32 v.weight with
    | fin w =>
      simp only [Option.bind_some, Fl.fin.injEq, exists_eq_left']
      by_cases h : w ≤ minWeight
      · simp [h, not_lt.2 h]
      · simp [h, not_le.1 h]
    | _ => simp
  have hd : ∀ d, number v.distance = some d ↔ FloatBits.fl32 v.distance = .fin d := by
    intro d
    unfold number
    cases FloatBits.fl32 v.distance <;> simp
  refine ⟨fun d => ?_, fun c => ?_⟩
  · rw [← hd]; exact hw _ d
  · have := hw (some v.color) c
    rw [Option.some_inj] at this
    exact this

/-- At weight zero and threshold zero the voxel is left out, at weight one it has distance one. -/
example : (wordFns 0).sdf ⟨0x3f800000, 0, ⟨1, 2, 3, 4⟩⟩ = none ∧ (wordFns 0).sdf ⟨0x3f800000, 0x3f800000, ⟨1, 2, 3, 4⟩⟩ = some 1 := by
  refine ⟨by decide +kernel, by decide +kernel⟩

/-- The server at its start. -/
def exStart : State (TsdfVoxel Word) := ⟨⟨⟨1, 1⟩, []⟩, []⟩

/-- The map as a message. -/
def exMessage : Msg := ⟨.fin 1, 1, "tsdf", 0, cubeOffsets.map fun i => (i, Serial.tsdfCodec.enc (exVoxel (decide (i = ⟨0, 0, 0⟩))))⟩

/-- A reset message without blocks. -/
def exReset : Msg := ⟨.fin 1, 1, "tsdf", 2, []⟩

/-- How many vertices are shown at the origin. -/
def shownCount (s : State V) : ℕ := (shownMesh s.meshes ⟨0, 0, 0⟩).vertices.length

theorem exMap_sound (f : Flags) : MapSound (exMap f) := by
  refine ⟨⟨by norm_num [exMap], by norm_num [exMap], by norm_num [exMap], ?_⟩, ?_, ?_⟩
  · intro i b hb
    have h := mem_keys_of_lookup hb
    obtain ⟨k, -, hk⟩ := List.mem_map.1 h
    obtain ⟨rfl, rfl⟩ := Prod.mk.inj hk
    refine ⟨rfl, rfl, ?_, rfl⟩
    simp [exBlock, exMap, Vec3.map]
  · unfold exMap
    rw [List.map_map]
    exact (by decide : (cubeOffsets.map fun i => i).Nodup)
  · intro i hi
    rw [block_isSome_iff] at hi
    unfold exMap at hi
    rw [List.map_map] at hi
    obtain ⟨k, hk, rfl⟩ := List.mem_map.1 hi
    have : ∀ k ∈ cubeOffsets, (k : Idx).All fun (c : ℤ) => -2 ^ 30 ≤ c * (1 : ℕ) ∧ (c + 2) * (1 : ℕ) ≤ 2 ^ 30 := by
      unfold Vec3.All
      decide +kernel
    exact this k hk

theorem exStart_fresh : Fresh exStart := ⟨⟨by decide, by decide, by decide, by simp [exStart]⟩, rfl, rfl⟩

/-- The first map, all marked, is an admissible change. -/
theorem exMarked : MarkedChange exStart.map (exMap Flags.setAll) := by
  refine ⟨rfl, exMap_sound _, ?_, ?_⟩
  · intro i hi
    cases hi
  · intro i b hb hf
    have h := mem_keys_of_lookup hb
    obtain ⟨k, -, hk⟩ := List.mem_map.1 h
    obtain ⟨rfl, rfl⟩ := Prod.mk.inj hk
    cases hf

theorem _root_.Vox.Spec.MarkedChange.refl {l : VLayer V} (h : MapSound l) : MarkedChange l l :=
  ⟨rfl, h, fun _ h => h, fun _ b hb hf => ⟨b, hb, hf, rfl⟩⟩

theorem exDecodes : Decodes exServer.T.codec := C62_decodes.1

/-- The map after meshing, and after a cloud from far away. -/
def staleRun : Outcome (Bool × ℕ × ℕ) := do
  let s ← step exServer (prune exServer ⟨0, 0, 0⟩ ⟨exMap Flags.setAll, []⟩) .update
  let t ← updateMesh exServer (prune exServer ⟨-10, 0, 0⟩ ⟨exMap (Flags.setAll.put .mesh false), s.meshes⟩)
  let u ← remesh exServer (prune exServer ⟨-10, 0, 0⟩ ⟨exMap (Flags.setAll.put .mesh false), s.meshes⟩)
  pure (decide (s.map = exMap (Flags.setAll.put .mesh false)), shownCount t.2, shownCount u.2)

theorem staleRun_eq : staleRun = .ok (true, 3, 0) := by decide +kernel

/-- **C103 (the mesh timer, violated by removing blocks).** Two clouds, the second from a place from which half of the blocks are too far: after `updateMesh` the
triangle at the origin is still shown, though the map has no surface there any more. -/
theorem C103_stale_violated : ∃ (env : Env (TsdfVoxel Word)) (s₀ s s' : State (TsdfVoxel Word)) (es : List (Event (TsdfVoxel Word))) (msg : MeshMsg.Msg) (i : Idx),
    Fresh s₀ ∧ ServerRun env s₀ es s ∧ NoMessage es ∧ updateMesh env s = .ok (msg, s') ∧ (block? s.map i).isSome = true ∧
    ¬ ShowsBlock env.useColor env.fns.sdf s.map i (shownMesh s'.meshes i) := by
  have h := staleRun_eq
  unfold staleRun at h
  obtain ⟨s, hs, h⟩ := Outcome.bind_eq_ok.1 h
  obtain ⟨⟨mt, t⟩, ht, h⟩ := Outcome.bind_eq_ok.1 h
  obtain ⟨⟨mu, u⟩, hu, h⟩ := Outcome.bind_eq_ok.1 h
  simp only [Outcome.pure_eq, Outcome.ok.injEq, Prod.mk.injEq, decide_eq_true_eq] at h
  obtain ⟨e1, e2, e3⟩ := h
  have r1 : ServerRun exServer exStart [.cloud (exMap Flags.setAll) ⟨0, 0, 0⟩] (prune exServer ⟨0, 0, 0⟩ ⟨exMap Flags.setAll, []⟩) :=
    .step (es := []) (.cloud (exMap Flags.setAll) ⟨0, 0, 0⟩) .start exMarked rfl
  have r2 := ServerRun.step .update r1 trivial hs
  have r3 := ServerRun.step (.cloud (exMap (Flags.setAll.put .mesh false)) ⟨-10, 0, 0⟩) r2
    (show MarkedChange s.map _ by rw [e1]; exact MarkedChange.refl (exMap_sound _)) rfl
  have hn : NoMessage ([.cloud (exMap Flags.setAll) ⟨0, 0, 0⟩] ++ [.update] ++ [.cloud (exMap (Flags.setAll.put .mesh false)) ⟨-10, 0, 0⟩]) := by
    intro m hm
    simp at hm
  refine ⟨_, _, _, t, _, mt, ⟨0, 0, 0⟩, exStart_fresh, r3, hn, ht, ?_, ?_⟩
  · show (block? (removeDistant (exMap (Flags.setAll.put .mesh false)) ⟨-10, 0, 0⟩ (21 / 2)) ⟨0, 0, 0⟩).isSome = true
    decide +kernel
  · intro hsh
    have h2 := (C103_generate exStart_fresh r3 (fun m hm => absurd hm (hn m)) hu).2 ⟨0, 0, 0⟩
    have := (C103_determined hsh h2).length_eq
    unfold shownCount at e2 e3
    omega

/-- A map that comes by message. -/
def receivedRun : Outcome (ℕ × ℕ) := do
  let s ← receive exServer exMessage exStart
  let t ← updateMesh exServer s
  let u ← remesh exServer s
  pure (shownCount t.2, shownCount u.2)

theorem receivedRun_eq : receivedRun = .ok (0, 3) := by decide +kernel

/-- **C103 (the mesh timer, violated by messages).** A map with a surface comes by message: `updateMesh` shows nothing of it. -/
theorem C103_received_violated : ∃ (env : Env (TsdfVoxel Word)) (s₀ s s' : State (TsdfVoxel Word)) (es : List (Event (TsdfVoxel Word))) (msg : MeshMsg.Msg) (i : Idx),
    Fresh s₀ ∧ ServerRun env s₀ es s ∧ NoReset es ∧ updateMesh env s = .ok (msg, s') ∧
    ¬ ShowsBlock env.useColor env.fns.sdf s.map i (shownMesh s'.meshes i) := by
  have h := receivedRun_eq
  unfold receivedRun at h
  obtain ⟨s, hs, h⟩ := Outcome.bind_eq_ok.1 h
  obtain ⟨⟨mt, t⟩, ht, h⟩ := Outcome.bind_eq_ok.1 h
  obtain ⟨⟨mu, u⟩, hu, h⟩ := Outcome.bind_eq_ok.1 h
  simp only [Outcome.pure_eq, Outcome.ok.injEq, Prod.mk.injEq] at h
  obtain ⟨e2, e3⟩ := h
  have r1 : ServerRun exServer exStart [.receive exMessage] s := by
    refine .step (es := []) (.receive exMessage) .start ⟨?_, exDecodes⟩ hs
    unfold InRange BlockInRange Vec3.All
    decide +kernel
  have hn : NoReset [Event.receive (V := TsdfVoxel Word) exMessage] := by
    intro m hm
    simp only [List.mem_singleton, Event.receive.injEq] at hm
    subst hm
    decide
  refine ⟨_, _, s, t, _, mt, ⟨0, 0, 0⟩, exStart_fresh, r1, hn, ht, ?_⟩
  intro hsh
  have h2 := (C103_generate exStart_fresh r1 hn hu).2 ⟨0, 0, 0⟩
  have := (C103_determined hsh h2).length_eq
  unfold shownCount at e2 e3
  omega

/-- A meshed map that is reset by message. -/
def resetRun : Outcome (Bool × ℕ × ℕ) := do
  let s ← step exServer ⟨exMap Flags.setAll, []⟩ .update
  let r ← receive exServer exReset s
  let t ← updateMesh exServer r
  let u ← remesh exServer t.2
  pure (r.map.blocks.isEmpty, shownCount t.2, shownCount u.2)

theorem resetRun_eq : resetRun = .ok (true, 3, 3) := by decide +kernel

/-- **C103 (the mesh service, violated by reset messages).** A map is meshed and then reset by message. The map is empty, but `generateMesh` still shows the
old triangle. -/
theorem C103_reset_violated : ∃ (env : Env (TsdfVoxel Word)) (s₀ s s' : State (TsdfVoxel Word)) (es : List (Event (TsdfVoxel Word))) (msg : MeshMsg.Msg) (i : Idx),
    Fresh s₀ ∧ ServerRun env s₀ es s ∧ remesh env s = .ok (msg, s') ∧ s.map.blocks = [] ∧
    ¬ ShowsBlock env.useColor env.fns.sdf s.map i (shownMesh s'.meshes i) := by
  have h := resetRun_eq
  unfold resetRun at h
  obtain ⟨s, hs, h⟩ := Outcome.bind_eq_ok.1 h
  obtain ⟨r, hr, h⟩ := Outcome.bind_eq_ok.1 h
  obtain ⟨⟨mt, t⟩, ht, h⟩ := Outcome.bind_eq_ok.1 h
  obtain ⟨⟨mu, u⟩, hu, h⟩ := Outcome.bind_eq_ok.1 h
  simp only [Outcome.pure_eq, Outcome.ok.injEq, Prod.mk.injEq] at h
  obtain ⟨e1, -, e3⟩ := h
  have r1 : ServerRun exServer exStart [.change (exMap Flags.setAll)] ⟨exMap Flags.setAll, []⟩ := .step (es := []) (.change _) .start exMarked rfl
  have r2 := ServerRun.step .update r1 trivial hs
  have r3 := ServerRun.step (.receive exReset) r2 (And.intro (fun b hb => by cases hb) exDecodes) hr
  have r4 : ServerRun exServer exStart _ t := ServerRun.step .update r3 trivial (by
    show (do let r ← updateMesh exServer r; pure r.2) = _
    rw [ht]
    rfl)
  have hb : t.map.blocks = [] := by
    have hs3 := run_sound exStart_fresh r3
    obtain ⟨a, -⟩ := mesh_and_send hs3.map hs3.keys hs3.soups ht
    have := a.keys
    rw [List.isEmpty_iff.1 e1] at this
    exact List.map_eq_nil_iff.1 this
  refine ⟨_, _, t, u, _, mu, ⟨0, 0, 0⟩, exStart_fresh, r4, hu, hb, ?_⟩
  intro hsh
  have hs4 := run_sound exStart_fresh r4
  have h2 := shows_missing exServer.useColor exServer.fns.sdf hs4.map.wf (i := ⟨0, 0, 0⟩) (by unfold block?; rw [hb]; rfl)
  have := (C103_determined hsh h2).length_eq
  unfold shownCount at e3
  rw [e3] at this
  cases this

/-! ### The hypotheses can be met -/

/-- A run of a change and the timer, after which the mesh service and the timer succeed: is the map as expected, how many vertices are shown, is there a file? -/
def goodRun : Outcome (Bool × ℕ × ℕ × Bool) := do
  let s ← step exServer ⟨exMap Flags.setAll, []⟩ .update
  let t ← updateMesh exServer s
  let u ← remesh exServer s
  let f ← generateMesh exServer Ply.plain "a.ply" s
  pure (decide (s.map = exMap (Flags.setAll.put .mesh false)), shownCount t.2, shownCount u.2, f.1.isSome)

theorem goodRun_eq : goodRun = .ok (true, 3, 3, true) := by decide +kernel

/-- The map of that run. -/
abbrev exMeshed : VLayer (TsdfVoxel Word) := exMap (Flags.setAll.put .mesh false)

/-- Every point of its surface has a cell. -/
theorem exMeshed_cells : ∀ c, ∀ p ∈ surfaceIn exMeshed (wordFns 0).sdf [c],
    vertexKey exEnv.D (exEnv.D.div (.fin 1) (.fin (1 / 1000))) (p.map .fin) = .ok (exKey (p.map .fin)) := by
  have hs := exMap_sound (Flags.setAll.put .mesh false)
  obtain ⟨cs, m, b, hc, hm, hv, -⟩ := C100_mesh exEnv_order false (wordFns 0) (.fin (1 / 1000)) hs.wf hs.nodup hs.range
  have run : (match layerToMesh exEnv false (wordFns 0) false (.fin (1 / 1000)) exMeshed Mesh.empty with
    | .ok (m, _) => decide (∀ v ∈ m.vertices, vertexKey exEnv.D (exEnv.D.div (.fin 1) (.fin (1 / 1000))) v = .ok (exKey v)) | _ => false) = true := by
    decide +kernel
  rw [hm] at run
  have run := of_decide_eq_true run
  intro c p hp
  have hin : c ∈ cs := by
    rw [hc.2]
    unfold surfaceIn at hp
    rw [List.flatMap_cons, List.flatMap_nil, List.append_nil] at hp
    obtain ⟨t, ht, -⟩ := List.mem_flatMap.1 hp
    unfold layerTriangles at ht
    split_ifs at ht with ho
    · have := content_of_sdfAt (ho ⟨0, 0, 0⟩ (by decide))
      have e : c + (⟨0, 0, 0⟩ : Idx) = c := by ext <;> simp
      rwa [e] at this
    · cases ht
  refine run _ ?_
  rw [hv]
  refine List.mem_map.2 ⟨p, ?_, rfl⟩
  unfold surfaceIn at hp ⊢
  rw [List.flatMap_cons, List.flatMap_nil, List.append_nil] at hp
  exact List.mem_flatMap.2 ⟨c, hin, hp⟩

/-- The hypotheses of `C103_generate`, `C103_file` and `C103_update_partial`: the run, and calls that succeed and show something. -/
example : ∃ (s t u w : State (TsdfVoxel Word)) (mt mu : MeshMsg.Msg) (f : List Char) (es : List (Event (TsdfVoxel Word))),
    Fresh exStart ∧ ServerRun exServer exStart es s ∧ NoReset es ∧ NoMessage es ∧ updateMesh exServer s = .ok (mt, t) ∧ remesh exServer s = .ok (mu, u) ∧
    generateMesh exServer Ply.plain "a.ply" s = .ok (some f, w) ∧ shownCount t = 3 ∧ shownCount u = 3 ∧ s.map = exMeshed ∧
    (∀ c, ∀ p ∈ surfaceIn s.map exServer.fns.sdf [c],
      vertexKey exServer.E.D (exServer.E.D.div (.fin 1) exServer.thr) (p.map .fin) = .ok (exKey (p.map .fin))) ∧
    15 * (s.map.blocks.length * s.map.cfg.vps ^ 3) ≤ 2 ^ 31 ∧ AnyOrder exServer.E.iter ∧ Ply.plain.opens = true ∧ Ply.plain.room = none := by
  have h := goodRun_eq
  unfold goodRun at h
  obtain ⟨s, hs, h⟩ := Outcome.bind_eq_ok.1 h
  obtain ⟨⟨mt, t⟩, ht, h⟩ := Outcome.bind_eq_ok.1 h
  obtain ⟨⟨mu, u⟩, hu, h⟩ := Outcome.bind_eq_ok.1 h
  obtain ⟨⟨f, w⟩, hw, h⟩ := Outcome.bind_eq_ok.1 h
  simp only [Outcome.pure_eq, Outcome.ok.injEq, Prod.mk.injEq, decide_eq_true_eq] at h
  obtain ⟨e1, e2, e3, e4⟩ := h
  obtain ⟨f, rfl⟩ := Option.isSome_iff_exists.1 e4
  have r1 : ServerRun exServer exStart [.change (exMap Flags.setAll)] ⟨exMap Flags.setAll, []⟩ := .step (es := []) (.change _) .start exMarked rfl
  have r2 := ServerRun.step .update r1 trivial hs
  have hn : NoMessage ([.change (exMap Flags.setAll)] ++ [.update]) := by
    intro m hm
    simp at hm
  refine ⟨s, t, u, w, mt, mu, f, _, exStart_fresh, r2, fun m hm => absurd hm (hn m), hn, ht, hu, hw, e2, e3, e1, ?_, ?_, exEnv_order, rfl, rfl⟩
  · rw [e1]
    exact exMeshed_cells
  · rw [e1]
    decide +kernel

/-- Two meshes of one block (`C103_determined`): that of the block, twice. -/
example : ∃ m, ShowsBlock false (wordFns 0).sdf exMeshed ⟨0, 0, 0⟩ m :=
  ⟨_, shows_blockMesh (fun _ => .fin 1) false (wordFns 0) (exMap_sound _).wf (by decide +kernel)⟩

/-- A block that is near and one that is far (`C103_prune`), and an index without a block (`C103_no_ghosts`). -/
example : MapSound exMeshed ∧
    sqNorm (originPoint (⟨0, 1, 1⟩ : Idx) exMeshed.cfg.blockSize - (⟨-10, 0, 0⟩ : Pt)) ≤ exServer.maxDistance * exServer.maxDistance ∧
    exServer.maxDistance * exServer.maxDistance < sqNorm (originPoint (⟨1, 0, 0⟩ : Idx) exMeshed.cfg.blockSize - (⟨-10, 0, 0⟩ : Pt)) ∧
    ∀ g, blockOf exMeshed.cfg.vps g = ⟨5, 0, 0⟩ → content exMeshed g = none := by
  refine ⟨exMap_sound _, by decide +kernel, by decide +kernel, fun g hg => ?_⟩
  rw [← Option.not_isSome_iff_eq_none, content_isSome (exMap_sound _).wf, hg]
  decide +kernel

/-- The hypotheses of `C103_received_not_meshed`: the message brings a block that was not there. -/
example : InRange exStart.map exMessage ∧ Decodes exServer.T.codec ∧ exMessage.action ≠ 2 ∧ block? exStart.map ⟨0, 0, 0⟩ = none ∧
    ∃ s₁ s₂ msg, receive exServer exMessage exStart = .ok s₁ ∧ updateMesh exServer s₁ = .ok (msg, s₂) := by
  refine ⟨?_, exDecodes, by decide, rfl, ?_⟩
  · unfold InRange BlockInRange Vec3.All
    decide +kernel
  · have h := receivedRun_eq
    unfold receivedRun at h
    obtain ⟨s, hs, h⟩ := Outcome.bind_eq_ok.1 h
    obtain ⟨⟨mt, t⟩, ht, h⟩ := Outcome.bind_eq_ok.1 h
    exact ⟨s, t, mt, hs, ht⟩

/-- Those of `C103_reset_keeps_meshes`: a map with a mesh is emptied. -/
example : ∃ s s₁, ServerRun exServer exStart ([.change (exMap Flags.setAll)] ++ [.update]) s ∧ InRange s.map exReset ∧
    receive exServer exReset s = .ok s₁ ∧ s₁.map.blocks = [] := by
  have h := resetRun_eq
  unfold resetRun at h
  obtain ⟨s, hs, h⟩ := Outcome.bind_eq_ok.1 h
  obtain ⟨r, hr, h⟩ := Outcome.bind_eq_ok.1 h
  obtain ⟨⟨mt, t⟩, ht, h⟩ := Outcome.bind_eq_ok.1 h
  obtain ⟨⟨mu, u⟩, hu, h⟩ := Outcome.bind_eq_ok.1 h
  simp only [Outcome.pure_eq, Outcome.ok.injEq, Prod.mk.injEq] at h
  have r1 : ServerRun exServer exStart [.change (exMap Flags.setAll)] ⟨exMap Flags.setAll, []⟩ := .step (es := []) (.change _) .start exMarked rfl
  exact ⟨s, r, ServerRun.step .update r1 trivial hs, fun b hb => (by cases hb), hr, List.isEmpty_iff.1 h.1⟩

end Vox.ServerMesh
