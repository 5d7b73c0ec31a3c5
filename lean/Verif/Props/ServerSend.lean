/-
Properties C74 and C103: the meshes that a server makes of its map can be sent, so that the mesh timer and the mesh service never fail.
-/
import Verif.Lemmas.ServerSend
import Verif.Props.ServerMesh

namespace Vox.ServerMesh

open Layer Grid MC MeshInt MeshOps Spec LayerMsg Export MeshMsg

variable {V : Type}

/-- **C74 (what marching cubes makes is accepted).** The mesh of a block that is near the origin passes the checks of the sender, in every colour mode: the vertices
lie between the cell centres, the normals are bounded, and the colours are there if the mode reads them. -/
theorem C74_marching_cubes {env : Env V} {l : VLayer V} (hc : CanSend env l.cfg) (wf : WellFormed l) (hn : NearOrigin l) {i : Idx} {b : Block ℚ V}
    (hb : block? l i = some b) (hr : BlockInRange l i) {old m : Mesh} (h : meshOfBlock env.E.sq env.useColor l env.fns b old = .ok m) :
    ∃ block, encodeBlock env.inv env.mode i m = .ok block := by
  rw [meshOfBlock_eq _ _ wf _ hb hr] at h
  obtain rfl := Outcome.ok.inj h
  exact blockMesh_sent hc wf hn (by rw [hb]; rfl)

/-- **C103 (never fails).** Full statement: after every run the mesh timer and the mesh service succeed. The code violates it (`C103_small_blocks_violated`, C74): the
process aborts if blocks have one or two voxels per side. It holds, whatever messages came, for blocks of at least four voxels per side, as long as the map stays
less than 2^18 voxels from the origin. -/
theorem C103_never_fails_partial {env : Env V} {s₀ s : State V} {es : List (Event V)} (h0 : Fresh s₀) (h : ServerRun env s₀ es s) (hc : CanSend env s₀.map.cfg)
    (hn : StaysNear env s₀ es) : (∃ msg s', updateMesh env s = .ok (msg, s')) ∧ ∃ msg s', remesh env s = .ok (msg, s') := by
  have hs := run_sound h0 h
  have hc' : CanSend env s.map.cfg := by rw [run_cfg h0 h]; exact hc
  have ha := run_sends h0 h hc hn
  have hnear := hn _ _ (List.prefix_refl _) h
  constructor
  · obtain ⟨msg, s', e, -⟩ := meshes_and_sends (only := true) hc' hnear hs.map hs.keys ha
    exact ⟨msg, s', e⟩
  · obtain ⟨msg, s', e, -⟩ := meshes_and_sends (only := false) hc' hnear hs.map hs.keys ha
    exact ⟨msg, s', e⟩

/-- **C103 (the file never fails).** Under the conditions of `C103_never_fails_partial` and `C103_file` the mesh service with a file name succeeds: the file shows the
connected surface of the map, and there is a file exactly if there is a surface. -/
theorem C103_file_never_fails_partial {env : Env V} (hE : AnyOrder env.E.iter) {s₀ s : State V} {es : List (Event V)} (h0 : Fresh s₀)
    (h : ServerRun env s₀ es s) (hr : NoReset es) (hc : CanSend env s₀.map.cfg) (hn : StaysNear env s₀ es) (K : Vec3 Fl → Idx)
    (hK : ∀ c, ∀ p ∈ surfaceIn s.map env.fns.sdf [c], vertexKey env.E.D (env.E.D.div (.fin 1) env.thr) (p.map .fin) = .ok (K (p.map .fin)))
    (hsize : 15 * (s.map.blocks.length * s.map.cfg.vps ^ 3) ≤ 2 ^ 31) {d : Ply.Disk} (ho : d.opens = true) (hroom : d.room = none)
    {filename : String} (hf : filename ≠ "") : ∃ f s', generateMesh env d filename s = .ok (f, s') ∧
      (¬ HasSurface s.map env.fns.sdf → f = none) ∧ (HasSurface s.map env.fns.sdf → ∃ t, f = some t ∧ FileShows env.fns.sdf s.map K t) := by
  have hs := run_sound h0 h
  obtain ⟨msg, s1, h1⟩ := (C103_never_fails_partial h0 h hc hn).2
  obtain ⟨a, k, so, dd, -⟩ := mesh_and_send hs.map hs.keys hs.soups h1
  have hsh : ∀ i, shownMesh s1.meshes i = if i ∈ s.map.blocks.map (·.1) then
      { blockMesh env.E.sq env.useColor s.map env.fns i with updated := false } else Mesh.empty := by
    intro i
    rw [dd]
    by_cases hi : i ∈ s.map.blocks.map (·.1)
    · rw [if_pos hi, if_pos (show i ∈ blocksToMesh false s.map from hi)]
    · rw [if_neg hi, if_neg (show i ∉ blocksToMesh false s.map from hi)]
      refine run_ghosts h0 h hr i ?_
      rw [← Option.not_isSome_iff_eq_none, block_isSome_iff]
      exact hi
  obtain ⟨cs, c1, c2, c3⟩ := shown_surface hs.map k hsh (hE s1.meshes)
  obtain ⟨m, m1, m2, m3⟩ := connected_file (E := env.E) (useColor := env.useColor) (thr := env.thr) c1 (ms := (env.E.iter s1.meshes).map (·.2))
    (by
      intro m hm
      obtain ⟨⟨i, m⟩, he, rfl⟩ := List.mem_map.1 hm
      exact so i m ((Layer.lookup_mem_iff k).2 ((hE _).mem_iff.1 he)))
    c3 hK (by rw [c2]; exact hsize) ho hroom
  have ef : ∀ r, saveIf d (m, !m.vertices.isEmpty) = .ok r → generateMesh env d filename s = .ok (r.2, s1) := by
    intro r hr
    unfold generateMesh
    rw [h1, Outcome.bind_ok]
    unfold meshFile outputMeshes meshLayerToMesh
    rw [if_neg hf, if_pos rfl, m1, Outcome.bind_ok]
    show (do
      let f ← (do
        let r ← saveIf d (m, !m.vertices.isEmpty)
        pure r.2 : Outcome (Option (List Char)))
      pure (f, s1)) = _
    rw [hr]
    rfl
  by_cases hsf : HasSurface s.map env.fns.sdf
  · obtain ⟨t, t1, t2⟩ := m3 hsf
    exact ⟨_, _, ef _ t1, fun hn => absurd hsf hn, fun _ => ⟨t, rfl, t2⟩⟩
  · exact ⟨_, _, ef _ (m2 hsf), fun _ => rfl, fun hn => absurd hn hsf⟩

/-! ### Blocks of one voxel -/

/-- Eight blocks of one voxel; the last is inside. -/
def exCorner : VLayer (TsdfVoxel Word) where
  cfg := ⟨1, 1⟩
  blocks := cubeOffsets.map fun i => (i, exBlock i (decide (i = ⟨1, 1, 1⟩)) Flags.setAll)

theorem exCorner_marked : MarkedChange exStart.map exCorner := by
  refine ⟨rfl, ⟨⟨by norm_num [exCorner], by norm_num [exCorner], by norm_num [exCorner], ?_⟩, ?_, ?_⟩, ?_, ?_⟩
  · intro i b hb
    have h := mem_keys_of_lookup hb
    obtain ⟨k, -, hk⟩ := List.mem_map.1 h
    obtain ⟨rfl, rfl⟩ := Prod.mk.inj hk
    refine ⟨rfl, rfl, ?_, rfl⟩
    simp [exBlock, exCorner, Vec3.map]
  · unfold exCorner
    rw [List.map_map]
    exact (by decide : (cubeOffsets.map fun i => i).Nodup)
  · intro i hi
    rw [block_isSome_iff] at hi
    unfold exCorner at hi
    rw [List.map_map] at hi
    obtain ⟨k, hk, rfl⟩ := List.mem_map.1 hi
    have : ∀ k ∈ cubeOffsets, (k : Idx).All fun (c : ℤ) => -2 ^ 30 ≤ c * (1 : ℕ) ∧ (c + 2) * (1 : ℕ) ≤ 2 ^ 30 := by
      unfold Vec3.All
      decide +kernel
    exact this k hk
  · intro i hi
    cases hi
  · intro i b hb hf
    have h := mem_keys_of_lookup hb
    obtain ⟨k, -, hk⟩ := List.mem_map.1 h
    obtain ⟨rfl, rfl⟩ := Prod.mk.inj hk
    cases hf

theorem fatal_of {α : Type} {o : Outcome α} (h : (match o with | .fatal => true | _ => false) = true) : o = .fatal := by
  cases o <;> simp_all

/-- **C103 (violation: small blocks).** A server with blocks of one voxel, otherwise like in `C103_never_fails_partial`: a surface near the upper corner of a block is
integrated, and the next call of the timer ends the process, because the squared length of a vertex in units of the block is compared with one (C74). -/
theorem C103_small_blocks_violated : ∃ (env : Env (TsdfVoxel Word)) (s₀ s : State (TsdfVoxel Word)) (es : List (Event (TsdfVoxel Word))),
    Fresh s₀ ∧ ServerRun env s₀ es s ∧ IndexF.Size s₀.map.cfg.blockSize ∧ env.inv = .fin (IndexF.inverse s₀.map.cfg.blockSize) ∧ env.mode = .gray ∧
    NearOrigin s.map ∧ updateMesh env s = .fatal ∧ remesh env s = .fatal := by
  have r1 : ServerRun exServer exStart [.change exCorner] ⟨exCorner, []⟩ := .step (es := []) (.change _) .start exCorner_marked rfl
  refine ⟨exServer, exStart, _, _, exStart_fresh, r1, ?_, ?_, rfl, ?_, fatal_of (by decide +kernel), fatal_of (by decide +kernel)⟩
  · have e : exStart.map.cfg.blockSize = 1 := by norm_num [exStart, Cfg.blockSize]
    rw [e]
    exact ⟨by decide +kernel, by norm_num, by norm_num⟩
  · decide +kernel
  · intro i hi
    rw [block_isSome_iff] at hi
    unfold exCorner at hi
    rw [List.map_map] at hi
    obtain ⟨k, hk, rfl⟩ := List.mem_map.1 hi
    have : ∀ k ∈ cubeOffsets, (|((k : Idx).x : ℚ)| + 2) * (1 : ℕ) ≤ 2 ^ 18 ∧ (|(k.y : ℚ)| + 2) * (1 : ℕ) ≤ 2 ^ 18 ∧ (|(k.z : ℚ)| + 2) * (1 : ℕ) ≤ 2 ^ 18 := by
      decide +kernel
    exact this k hk

/-! ### The hypotheses can be met -/

/-- A server with blocks of four voxels per side, all colours and shades. -/
def exFour : Env (TsdfVoxel Word) := { exServer with useColor := true, mode := .lambertColor, E := { exEnv with sq := fun x => .fin (1 + x) } }

/-- One block with one voxel inside. -/
def exFourMap : VLayer (TsdfVoxel Word) where
  cfg := ⟨1 / 4, 4⟩
  blocks := [(⟨0, 0, 0⟩, { vps := 4, voxelSize := 1 / 4, origin := ⟨0, 0, 0⟩, hasData := true, updated := Flags.setAll,
                           voxels := (List.range 64).map fun k => exVoxel (k == 21) })]

/-- The server at its start. -/
def exFourStart : State (TsdfVoxel Word) := ⟨⟨⟨1 / 4, 4⟩, []⟩, []⟩

theorem exFour_block {i : Idx} {b : Block ℚ (TsdfVoxel Word)} (h : block? exFourMap i = some b) : i = ⟨0, 0, 0⟩ := by
  have := mem_keys_of_lookup h
  unfold exFourMap at this
  exact (Prod.mk.inj (List.mem_singleton.1 this)).1

theorem exFour_marked : MarkedChange exFourStart.map exFourMap := by
  refine ⟨rfl, ⟨⟨by norm_num [exFourMap], by norm_num [exFourMap], by norm_num [exFourMap], ?_⟩, List.nodup_singleton _, ?_⟩, ?_, ?_⟩
  · intro i b hb
    have h := mem_keys_of_lookup hb
    unfold exFourMap at h
    obtain ⟨rfl, rfl⟩ := Prod.mk.inj (List.mem_singleton.1 h)
    refine ⟨rfl, rfl, ?_, ?_⟩
    · simp
    · simp [exFourMap]
  · intro i hi
    obtain ⟨b, hb⟩ := Option.isSome_iff_exists.1 hi
    rw [exFour_block hb]
    unfold BlockInRange Vec3.All
    decide +kernel
  · intro i hi
    cases hi
  · intro i b hb hf
    have h := mem_keys_of_lookup hb
    unfold exFourMap at h
    obtain ⟨rfl, rfl⟩ := Prod.mk.inj (List.mem_singleton.1 h)
    cases hf

theorem exFour_near : NearOrigin exFourMap := by
  intro i hi
  obtain ⟨b, hb⟩ := Option.isSome_iff_exists.1 hi
  rw [exFour_block hb]
  decide +kernel

theorem exFour_cfg : CanSend exFour exFourStart.map.cfg := by
  have e : exFourStart.map.cfg.blockSize = 1 := by norm_num [exFourStart, Cfg.blockSize]
  refine ⟨?_, ?_, le_rfl, fun _ => rfl, fun _ x hx => ⟨1 + x, rfl, by linarith, by nlinarith⟩⟩
  · rw [e]
    exact ⟨by decide +kernel, by norm_num, by norm_num⟩
  · decide +kernel

/-- The run of one integration, in colour and with shading, stays near the origin. -/
example : Fresh exFourStart ∧ ServerRun exFour exFourStart [.change exFourMap] ⟨exFourMap, []⟩ ∧ CanSend exFour exFourStart.map.cfg ∧
    StaysNear exFour exFourStart [.change exFourMap] ∧ exFour.mode = .lambertColor := by
  refine ⟨⟨⟨by decide +kernel, by decide, by decide, by simp [exFourStart]⟩, rfl, rfl⟩, .step (es := []) (.change _) .start exFour_marked rfl, exFour_cfg, ?_, rfl⟩
  intro es₁ s₁ hp hr
  cases hr with
  | start =>
    intro i hi
    cases hi
  | @step es s s₁ e h ha hs =>
    have hl := hp.length_le
    have hes : es = [] := by
      rw [← List.length_eq_zero_iff]
      simp only [List.length_append, List.length_singleton] at hl
      omega
    subst hes
    have he : e = .change exFourMap := by
      obtain ⟨t, ht⟩ := hp
      exact (List.cons.inj ht).1
    subst he
    obtain rfl := Outcome.ok.inj hs
    exact exFour_near

/-- Every point of its surface has a cell. -/
theorem exFour_cells : ∀ c, ∀ p ∈ surfaceIn exFourMap exFour.fns.sdf [c],
    vertexKey exFour.E.D (exFour.E.D.div (.fin 1) exFour.thr) (p.map .fin) = .ok (exKey (p.map .fin)) := by
  have hs := exFour_marked.sound
  obtain ⟨cs, m, b, hc, hm, hv, -⟩ := C100_mesh (E := exFour.E) exEnv_order false (wordFns 0) (.fin (1 / 1000)) hs.wf hs.nodup hs.range
  have run : (match layerToMesh exFour.E false (wordFns 0) false (.fin (1 / 1000)) exFourMap Mesh.empty with
    | .ok (m, _) => decide (∀ v ∈ m.vertices, vertexKey exFour.E.D (exFour.E.D.div (.fin 1) exFour.thr) v = .ok (exKey v)) | _ => false) = true := by
    decide +kernel
  rw [hm] at run
  have run := of_decide_eq_true run
  intro c p hp
  have hin : c ∈ cs := by
    rw [hc.2]
    unfold surfaceIn at hp
    rw [List.flatMap_cons, List.flatMap_nil, List.append_nil] at hp
    obtain ⟨t, ht, -⟩ := List.mem_flatMap.1 hp
    unfold layerTriangles at ht
    split_ifs at ht with ho
    · have := content_of_sdfAt (ho ⟨0, 0, 0⟩ (by decide))
      have e : c + (⟨0, 0, 0⟩ : Idx) = c := by ext <;> simp
      rwa [e] at this
    · cases ht
  refine run _ ?_
  rw [hv]
  refine List.mem_map.2 ⟨p, ?_, rfl⟩
  unfold surfaceIn at hp ⊢
  rw [List.flatMap_cons, List.flatMap_nil, List.append_nil] at hp
  exact List.mem_flatMap.2 ⟨c, hin, hp⟩

/-- What `C103_file_never_fails_partial` asks in addition, and the surface of the block: eight cubes around the inner voxel. -/
example : AnyOrder exFour.E.iter ∧ NoReset [Event.change exFourMap] ∧ 15 * (exFourMap.blocks.length * exFourMap.cfg.vps ^ 3) ≤ 2 ^ 31 ∧
    Ply.plain.opens = true ∧ Ply.plain.room = none ∧
    ∃ b m, block? exFourMap ⟨0, 0, 0⟩ = some b ∧ meshOfBlock exFour.E.sq exFour.useColor exFourMap exFour.fns b Mesh.empty = .ok m ∧ m.vertices.length = 24 := by
  refine ⟨exEnv_order, ?_, by decide +kernel, rfl, rfl, _, _, rfl, meshOfBlock_eq _ _ exFour_marked.sound.wf _ rfl (exFour_marked.sound.range ⟨0, 0, 0⟩ (by decide +kernel)) _, ?_⟩
  · intro m hm
    simp at hm
  · have h : (match meshOfBlock exFour.E.sq exFour.useColor exFourMap exFour.fns ((block? exFourMap ⟨0, 0, 0⟩).get (by decide +kernel)) Mesh.empty with
      | .ok m => m.vertices.length | _ => 0) = 24 := by decide +kernel
    rw [meshOfBlock_eq _ _ exFour_marked.sound.wf _ (Option.some_get _).symm (exFour_marked.sound.range ⟨0, 0, 0⟩ (by decide +kernel)) _] at h
    exact h

end Vox.ServerMesh
