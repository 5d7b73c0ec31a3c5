/-
Property C121: what the TSDF visualizer sends.
-/
import Verif.Lemmas.Visualizer
import Verif.Props.ServerMesh
import Verif.Props.ServerIO

namespace Vox.Visualizer

open Layer Grid MC MeshInt Ieee Spec Vox.IO ServerMesh Export

/-! ### Examples -/

/-- A block of one voxel of side 1, at a corner of the unit cube. -/
def exFileBlock (i : Idx) : Block Word (TsdfVoxel Word) :=
  { vps := 1, voxelSize := 0x3F800000#32, origin := i.map fun c => if c = 0 then 0#32 else 0x3F800000#32, hasData := true,
    updated := Flags.ofBool false, voxels := [exVoxel (decide (i = ⟨0, 0, 0⟩))] }

/-- Eight of them; the voxel at the origin is inside. -/
def exFile : FLayer (TsdfVoxel Word) := { voxelSize := 0x3F800000#32, vps := 1, blocks := cubeOffsets.map fun i => (i, exFileBlock i) }

/-- Its arithmetic and disk. -/
def exVis : Env := ⟨exEnv, .fin 1, .fin 1, ⟨true, none⟩⟩

theorem exFile_readable : readable exFile = true := by decide +kernel

theorem exFile_sound : MapSound (layerOfFile exFile) := by
  have h1 : numberOf 0x3F800000#32 = 1 := by decide +kernel
  have h0 : numberOf 0#32 = 0 := by decide +kernel
  have hcfg : (layerOfFile exFile).cfg = ⟨1, 1⟩ := by
    show (⟨numberOf 0x3F800000#32, 1⟩ : Cfg) = _
    rw [h1]
  have hkeys : (layerOfFile exFile).blocks.map (·.1) = cubeOffsets := by decide +kernel
  refine ⟨⟨by rw [hcfg]; norm_num, by rw [hcfg]; norm_num, by rw [hcfg]; norm_num, ?_⟩, by rw [hkeys]; decide, ?_⟩
  · intro i b hb
    have h := mem_keys_of_lookup hb
    have : ∀ e ∈ (layerOfFile exFile).blocks, e.2.vps = 1 ∧ e.2.voxelSize = 1 ∧ e.2.origin = ⟨e.1.x * (1 * (1 : ℕ)), e.1.y * (1 * (1 : ℕ)), e.1.z * (1 * (1 : ℕ))⟩ ∧
        e.2.voxels.length = 1 := by decide +kernel
    rw [hcfg]
    exact this (i, b) h
  · intro i hi
    rw [block_isSome_iff, hkeys] at hi
    have : ∀ k ∈ cubeOffsets, (k : Idx).All fun (c : ℤ) => -2 ^ 30 ≤ c * (1 : ℕ) ∧ (c + 2) * (1 : ℕ) ≤ 2 ^ 30 := by
      unfold Vec3.All
      decide +kernel
    unfold BlockInRange
    rw [hcfg]
    exact this i hi

/-- What comes out for the example: eight points each, one triangle. -/
def summary (r : Products) : List (String × ℕ) × ℕ × Bool :=
  (r.sent.map fun x => (x.topic, match x.payload with
    | .distances ps => ps.length
    | .mesh m => (m.blocks.map fun b => b.x.length).sum
    | .colors ps => ps.length
    | .polygons m => m.polygons.length), (r.voxelFile.map List.length).getD 0, r.meshFile.isSome)

theorem exRun : (visualize exVis { voxelPath := "v.ply", meshPath := "m.ply" } (layerOfFile exFile)).bind (fun r => .ok (summary r)) =
    .ok ([("tsdf_voxels_near_surface", 8), ("all_tsdf_voxels", 8), ("mesh", 3), ("mesh_as_pointcloud", 3), ("mesh_pcl", 3)], 8, true) := by
  decide +kernel

/-! ### What is sent -/

theorem run_ok {env : Env} {p : Params} {mode : MeshMsg.ColorMode} {l : VLayer (TsdfVoxel Fl)} {r : Products} (h : run env p mode l = .ok r) :
    ∃ near all msg cl ml poly, PtCloud.cloud (PtCloud.tsdfDistanceNear (threshold l.cfg.voxelSize p.factor)) l = .ok near ∧
      PtCloud.cloud PtCloud.tsdfDistance l = .ok all ∧ meshes env mode l = .ok (msg, cl, ml) ∧
      toPolygonMesh env.E true MeshMsg.proximity p.frame ml = .ok poly ∧ meshFile env p.meshPath ml = .ok r.meshFile ∧
      r.sent = [⟨"tsdf_voxels_near_surface", p.frame, .distances near⟩, ⟨"all_tsdf_voxels", p.frame, .distances all⟩, ⟨"mesh", p.frame, .mesh msg⟩,
        ⟨"mesh_as_pointcloud", p.frame, .colors cl⟩, ⟨"mesh_pcl", p.frame, .mesh msg⟩] ∧
      r.voxelFile = if p.voxelPath = "" then none else some all := by
  unfold run at h
  obtain ⟨near, h1, h⟩ := Outcome.bind_eq_ok.1 h
  obtain ⟨all, h2, h⟩ := Outcome.bind_eq_ok.1 h
  obtain ⟨⟨msg, cl, ml⟩, h3, h⟩ := Outcome.bind_eq_ok.1 h
  obtain ⟨poly, h4, h⟩ := Outcome.bind_eq_ok.1 h
  obtain ⟨f, h5, h⟩ := Outcome.bind_eq_ok.1 h
  obtain rfl := Outcome.ok.inj h
  exact ⟨near, all, msg, cl, ml, poly, h1, h2, h3, h4, h5, rfl, rfl⟩

/-- **C121 (what four of the topics show).** A run on a layer sends, all in the given frame and of the advertised type:
the distances of the voxels of weight above 0.001 that are closer to the surface than the given number of voxels; those of all voxels of that weight; a mesh
message from which a display draws the surface of every block; the surface as a cloud of coloured points, the corners of each triangle of each cube once. The surface is
that of the voxels of weight above 0.0001 (`float` constants). The file of the voxels has the same points.

Full statement: the same, and the polygon mesh on its topic; see `C121_type_violated`. Missing besides: positions in `float`. -/
theorem C121_products_partial {env : Env} {p : Params} {mode : MeshMsg.ColorMode} {l : VLayer (TsdfVoxel Fl)} {r : Products} (hE : AnyOrder env.E.iter)
    (hm : MapSound l) {f : ℚ} (hf : p.factor = .fin f) (h1 : 1 / 2 ^ 100 ≤ |l.cfg.voxelSize * f|) (h2 : |l.cfg.voxelSize * f| ≤ 2 ^ 100)
    (h : run env p mode l = .ok r) :
    ∃ (near all : List (Pt × Fl)) (msg : MeshMsg.Msg) (cl : MeshMsg.RgbCloud) (w t v : ℚ),
      received r "tsdf_voxels_near_surface" = [.distances near] ∧ received r "all_tsdf_voxels" = [.distances all] ∧ received r "mesh" = [.mesh msg] ∧
      received r "mesh_as_pointcloud" = [.colors cl] ∧
      (∀ x ∈ r.sent, x.frame = p.frame ∧ (x.topic ≠ "mesh_pcl" → (x.topic, x.payload.type) ∈ advertised)) ∧
      |w - 1 / 1000| < 1 / 10 ^ 9 ∧ |t - l.cfg.voxelSize * f| ≤ 1 / 2 ^ 23 * |l.cfg.voxelSize * f| ∧ |v - 1 / 10000| < 1 / 10 ^ 10 ∧
      Shows (distanceIf w fun d => Fl.lt (Fl.abs d) (.fin t)) l near ∧ Shows (distanceIf w fun _ => true) l all ∧
      (∃ M : Idx → Mesh, (∀ i, ShowsBlock true (meshDistance v) l i (M i)) ∧ DisplayShows env mode msg M) ∧
      (∃ cs, EachCubeOnce l cs ∧ cl.map (·.1) = (surfaceIn l (meshDistance v) cs).map fun q => q.map .fin) ∧
      r.voxelFile = if p.voxelPath = "" then none else some all := by
  obtain ⟨near, all, msg, cl, ml, poly, e1, e2, e3, -, -, e5, e6⟩ := run_ok h
  obtain ⟨t, ht, ht'⟩ := threshold_near h1 h2
  rw [hf, ht] at e1
  obtain ⟨w, hw, hw'⟩ := PtCloud.minWeight_eq
  obtain ⟨near', n1, n2⟩ := PtCloud.cloud_shows (R := Fl) (vis := PtCloud.tsdfDistanceNear (.fin t)) (f := distanceIf w fun d => Fl.lt (Fl.abs d) (.fin t)) hm.wf hm.nodup (by
    intro v q
    unfold PtCloud.tsdfDistanceNear distanceIf
    rw [hw]
    simp only [Bool.and_eq_true])
  obtain ⟨all', a1, a2⟩ := PtCloud.cloud_shows (R := Fl) (vis := PtCloud.tsdfDistance) (f := distanceIf w fun _ => true) hm.wf hm.nodup (by
    intro v q
    unfold PtCloud.tsdfDistance distanceIf
    rw [hw]
    simp)
  obtain rfl := Outcome.ok.inj (e1.symm.trans n1)
  obtain rfl := Outcome.ok.inj (e2.symm.trans a1)
  obtain ⟨m1, m2, -⟩ := meshes_ok hE hm e3
  refine ⟨near, all, msg, cl, w, t, meshMinWeight, ?_, ?_, ?_, ?_, ?_, hw', ht', by decide +kernel, n2, a2, m1, m2, e6⟩
  · unfold received; rw [e5]; rfl
  · unfold received; rw [e5]; rfl
  · unfold received; rw [e5]; rfl
  · unfold received; rw [e5]; rfl
  · rw [e5]
    intro x hx
    simp only [List.mem_cons, List.not_mem_nil, or_false] at hx
    rcases hx with rfl | rfl | rfl | rfl | rfl
    · exact ⟨rfl, fun _ => by show ("tsdf_voxels_near_surface", MsgType.cloud) ∈ advertised; decide⟩
    · exact ⟨rfl, fun _ => by show ("all_tsdf_voxels", MsgType.cloud) ∈ advertised; decide⟩
    · exact ⟨rfl, fun _ => by show ("mesh", MsgType.mesh) ∈ advertised; decide⟩
    · exact ⟨rfl, fun _ => by show ("mesh_as_pointcloud", MsgType.cloud) ∈ advertised; decide⟩
    · exact ⟨rfl, fun hn => absurd rfl hn⟩

/-- A run that sends something on each topic. -/
example : MapSound (layerOfFile exFile) ∧ AnyOrder exVis.E.iter ∧ 1 / 2 ^ 100 ≤ |(layerOfFile exFile).cfg.voxelSize * 2| ∧
    |(layerOfFile exFile).cfg.voxelSize * 2| ≤ 2 ^ 100 ∧ ∃ r, run exVis {} .color (layerOfFile exFile) = .ok r ∧
    (received r "tsdf_voxels_near_surface").length = 1 ∧ (summary r).1 = [("tsdf_voxels_near_surface", 8), ("all_tsdf_voxels", 8), ("mesh", 3), ("mesh_as_pointcloud", 3), ("mesh_pcl", 3)] := by
  refine ⟨exFile_sound, exEnv_order, by decide +kernel, by decide +kernel, ?_⟩
  have h : (run exVis {} .color (layerOfFile exFile)).bind (fun r => .ok ((received r "tsdf_voxels_near_surface").length, (summary r).1)) =
    .ok (1, [("tsdf_voxels_near_surface", 8), ("all_tsdf_voxels", 8), ("mesh", 3), ("mesh_as_pointcloud", 3), ("mesh_pcl", 3)]) := by decide +kernel
  obtain ⟨r, hr, h⟩ := Outcome.bind_eq_ok.1 h
  have h := Prod.mk.inj (Outcome.ok.inj h)
  exact ⟨r, hr, h.1, h.2⟩

/-- **C121 (the default threshold).** By default voxels nearer than exactly two voxel sizes are shown near the surface. -/
theorem C121_default_threshold {p : Params} (hp : p.factor = ({} : Params).factor) {env : Env} {mode : MeshMsg.ColorMode} {l : VLayer (TsdfVoxel Fl)} {r : Products}
    (hm : MapSound l) (hs : rnd32 l.cfg.voxelSize = l.cfg.voxelSize) (hb : |l.cfg.voxelSize| ≤ 2 ^ 100) (h : run env p mode l = .ok r) :
    ∃ (near : List (Pt × Fl)) (w : ℚ), received r "tsdf_voxels_near_surface" = [.distances near] ∧ |w - 1 / 1000| < 1 / 10 ^ 9 ∧
      Shows (distanceIf w fun d => Fl.lt (Fl.abs d) (.fin (2 * l.cfg.voxelSize))) l near := by
  obtain ⟨near, all, msg, cl, ml, poly, e1, -, -, -, -, e5, -⟩ := run_ok h
  rw [hp] at e1
  rw [show (({} : Params).factor) = .fin 2 from rfl, threshold_double hs hb] at e1
  obtain ⟨w, hw, hw'⟩ := PtCloud.minWeight_eq
  obtain ⟨near', n1, n2⟩ := PtCloud.cloud_shows (R := Fl) (vis := PtCloud.tsdfDistanceNear (.fin (2 * l.cfg.voxelSize)))
    (f := distanceIf w fun d => Fl.lt (Fl.abs d) (.fin (2 * l.cfg.voxelSize))) hm.wf hm.nodup (by
    intro v q
    unfold PtCloud.tsdfDistanceNear distanceIf
    rw [hw]
    simp only [Bool.and_eq_true])
  obtain rfl := Outcome.ok.inj (e1.symm.trans n1)
  exact ⟨near, w, by unfold received; rw [e5]; rfl, hw', n2⟩

example : rnd32 (layerOfFile exFile).cfg.voxelSize = (layerOfFile exFile).cfg.voxelSize ∧ |(layerOfFile exFile).cfg.voxelSize| ≤ 2 ^ 100 := by
  decide +kernel

/-- **C121 (the polygon mesh, violated).** Whatever the layer and the parameters: the topic advertised for polygon meshes gets the mesh message, a type that was
not advertised, and the polygon mesh is never sent. -/
theorem C121_type_violated {env : Env} {p : Params} {mode : MeshMsg.ColorMode} {l : VLayer (TsdfVoxel Fl)} {r : Products} (h : run env p mode l = .ok r) :
    ("mesh_pcl", MsgType.polygons) ∈ advertised ∧
    (∃ msg, received r "mesh_pcl" = [.mesh msg] ∧ received r "mesh" = [.mesh msg] ∧ ("mesh_pcl", (Payload.mesh msg).type) ∉ advertised) ∧
    ∀ x ∈ r.sent, x.payload.type ≠ .polygons := by
  obtain ⟨near, all, msg, cl, ml, poly, -, -, -, -, -, e5, -⟩ := run_ok h
  refine ⟨by decide, ⟨msg, by unfold received; rw [e5]; rfl, by unfold received; rw [e5]; rfl,
    by show ("mesh_pcl", MsgType.mesh) ∉ advertised; decide⟩, ?_⟩
  rw [e5]
  intro x hx
  simp only [List.mem_cons, List.not_mem_nil, or_false] at hx
  rcases hx with rfl | rfl | rfl | rfl | rfl <;> exact fun hc => by cases hc

example : ∃ r, run exVis {} .color (layerOfFile exFile) = .ok r := by
  have h : (match run exVis {} .color (layerOfFile exFile) with | .ok _ => true | _ => false) = true := by decide +kernel
  cases hr : run exVis {} .color (layerOfFile exFile) with
  | ok r => exact ⟨r, rfl⟩
  | fatal => rw [hr] at h; cases h
  | ub => rw [hr] at h; cases h

/-! ### Colour modes -/

/-- **C121 (colour modes).** The five names the launch files use give their modes; with any other name nothing is sent, although the files are written. -/
theorem C121_color_modes :
    (∀ s m, colorModeOf s = some m ↔ (s, m) ∈ [("color", MeshMsg.ColorMode.color), ("height", .height), ("normals", .normals), ("lambert", .lambert), ("gray", .gray)]) ∧
    (∀ env p l r, colorModeOf p.colorMode = none → visualize env p l = .ok r → r.sent = [] ∧ ∃ r', run env p .color l = .ok r' ∧
      r.voxelFile = r'.voxelFile ∧ r.meshFile = r'.meshFile) ∧
    ∀ env p l mode, colorModeOf p.colorMode = some mode → visualize env p l = run env p mode l := by
  refine ⟨?_, ?_, ?_⟩
  · intro s m
    unfold colorModeOf
    split_ifs with a b c d e
    · subst a; cases m <;> decide
    · subst b; cases m <;> decide
    · subst c; cases m <;> decide
    · subst d; cases m <;> decide
    · subst e; cases m <;> decide
    · simp [a, b, c, d, e]
  · intro env p l r hn h
    unfold visualize at h
    rw [hn] at h
    obtain ⟨r', h1, h⟩ := Outcome.bind_eq_ok.1 h
    obtain rfl := Outcome.ok.inj h
    exact ⟨rfl, r', h1, rfl, rfl⟩
  · intro env p l mode hs
    unfold visualize
    rw [hs]

/-- Lambert shading with colours, which the servers offer, is not known here. -/
example : colorModeOf "lambert_color" = none ∧ colorModeOf "gray" = some .gray := by decide +kernel

/-! ### Files -/

/-- **C121 (the mesh file).** If a path is given, the layer has a surface and the disk takes the file, it is the connected surface of the layer; without surface there
is no file, nor without path. -/
theorem C121_mesh_file {env : Env} {p : Params} {mode : MeshMsg.ColorMode} {l : VLayer (TsdfVoxel Fl)} {r : Products} (hE : AnyOrder env.E.iter)
    (hm : MapSound l) (K : Vec3 Fl → Idx)
    (hK : ∀ c, ∀ q ∈ surfaceIn l (meshDistance meshMinWeight) [c], MeshOps.vertexKey env.E.D (env.E.D.div (.fin 1) MeshMsg.proximity) (q.map .fin) = .ok (K (q.map .fin)))
    (hsize : 15 * (l.blocks.length * l.cfg.vps ^ 3) ≤ 2 ^ 31) (ho : env.disk.opens = true) (hroom : env.disk.room = none) (h : run env p mode l = .ok r) :
    (p.meshPath = "" → r.meshFile = none) ∧ (¬ HasSurface l (meshDistance meshMinWeight) → r.meshFile = none) ∧
    (p.meshPath ≠ "" → HasSurface l (meshDistance meshMinWeight) → ∃ t, r.meshFile = some t ∧ FileShows (meshDistance meshMinWeight) l K t) := by
  obtain ⟨near, all, msg, cl, ml, poly, -, -, e3, -, e4, -, -⟩ := run_ok h
  obtain ⟨-, -, so, cs, c1, c2, c3⟩ := meshes_ok hE hm e3
  obtain ⟨m, m1, m2, m3⟩ := connected_file (E := env.E) (useColor := true) (thr := MeshMsg.proximity) c1 (ms := (env.E.iter ml).map (·.2))
    (by
      intro m hm
      obtain ⟨e, he, rfl⟩ := List.mem_map.1 hm
      exact so e ((hE _).mem_iff.1 he))
    c3 hK (by rw [c2]; exact hsize) ho hroom
  unfold meshFile at e4
  by_cases hp : p.meshPath = ""
  · rw [if_pos hp] at e4
    have := (Outcome.ok.inj e4).symm
    exact ⟨fun _ => this, fun _ => this, fun h => absurd hp h⟩
  · rw [if_neg hp] at e4
    unfold meshLayerToMesh at e4
    rw [if_pos rfl, m1] at e4
    have e : (do
      let f ← saveIf env.disk (m, !m.vertices.isEmpty)
      pure f.2) = Outcome.ok r.meshFile := e4
    refine ⟨fun h => absurd h hp, fun hn => ?_, fun _ hs => ?_⟩
    · rw [m2 hn, Outcome.bind_ok] at e
      exact (Outcome.ok.inj e).symm
    · obtain ⟨t, t1, t2⟩ := m3 hs
      rw [t1, Outcome.bind_ok] at e
      exact ⟨t, (Outcome.ok.inj e).symm, t2⟩

/-- The cell of a vertex. -/
def visKey (v : Vec3 Fl) : Idx := match MeshOps.vertexKey exVis.E.D (exVis.E.D.div (.fin 1) MeshMsg.proximity) v with | .ok k => k | _ => ⟨0, 0, 0⟩

/-- Every point of the surface of the example has a cell. -/
theorem exFile_cells : ∀ c, ∀ q ∈ surfaceIn (layerOfFile exFile) (meshDistance meshMinWeight) [c],
    MeshOps.vertexKey exVis.E.D (exVis.E.D.div (.fin 1) MeshMsg.proximity) (q.map .fin) = .ok (visKey (q.map .fin)) := by
  obtain ⟨cs, m, b, hc, hm, hv, -⟩ := C100_mesh (E := exVis.E) exEnv_order false (flFns meshMinWeight) MeshMsg.proximity exFile_sound.wf exFile_sound.nodup exFile_sound.range
  have run : (match layerToMesh exVis.E false (flFns meshMinWeight) false MeshMsg.proximity (layerOfFile exFile) Mesh.empty with
    | .ok (m, _) => decide (∀ v ∈ m.vertices, MeshOps.vertexKey exVis.E.D (exVis.E.D.div (.fin 1) MeshMsg.proximity) v = .ok (visKey v)) | _ => false) = true := by
    decide +kernel
  rw [hm] at run
  have run := of_decide_eq_true run
  rw [← flFns_sdf]
  intro c p hp
  have hin : c ∈ cs := by
    rw [hc.2]
    unfold surfaceIn at hp
    rw [List.flatMap_cons, List.flatMap_nil, List.append_nil] at hp
    obtain ⟨t, ht, -⟩ := List.mem_flatMap.1 hp
    unfold layerTriangles at ht
    split_ifs at ht with ho
    · have := content_of_sdfAt (ho ⟨0, 0, 0⟩ (by decide))
      have e : c + (⟨0, 0, 0⟩ : Idx) = c := by ext <;> simp
      rwa [e] at this
    · cases ht
  refine run _ ?_
  rw [hv]
  refine List.mem_map.2 ⟨p, ?_, rfl⟩
  unfold surfaceIn at hp ⊢
  rw [List.flatMap_cons, List.flatMap_nil, List.append_nil] at hp
  exact List.mem_flatMap.2 ⟨c, hin, hp⟩

/-- A run that writes a mesh. -/
example : AnyOrder exVis.E.iter ∧ MapSound (layerOfFile exFile) ∧ 15 * ((layerOfFile exFile).blocks.length * (layerOfFile exFile).cfg.vps ^ 3) ≤ 2 ^ 31 ∧
    exVis.disk.opens = true ∧ exVis.disk.room = none ∧
    ∃ r, run exVis { voxelPath := "v.ply", meshPath := "m.ply" } .color (layerOfFile exFile) = .ok r ∧ r.meshFile.isSome = true := by
  refine ⟨exEnv_order, exFile_sound, by decide +kernel, rfl, rfl, ?_⟩
  have h := exRun
  rw [C121_color_modes.2.2 _ _ _ .color (by decide +kernel)] at h
  obtain ⟨r, hr, h⟩ := Outcome.bind_eq_ok.1 h
  exact ⟨r, hr, congrArg (fun x => x.2.2) (Outcome.ok.inj h)⟩

/-- **C121 (a saved map is shown).** The program on a file that `saveMap` of a TSDF server (or of an ESDF server, whose file has more behind it) wrote ends
well, after visualizing a layer with the voxels of the saved map. -/
theorem C121_saved {io : IO.Env (TsdfVoxel Word)} (hio : EnvOk io fun _ => True) {l : FLayer (TsdfVoxel Word)} (hl : Storable io (fun _ => True) l)
    (hr : readable l = true) (hm : MapSound (layerOfFile l)) (rest : List Proto.Byte) :
    ∃ (file : List Proto.Byte) (L : VLayer (TsdfVoxel Fl)), saveLayer io l = .ok file ∧ MapSound L ∧ L.cfg = (layerOfFile l).cfg ∧
      (∀ g, content L g = content (layerOfFile l) g) ∧
      ∀ (d : ServerIO.Disk) (path : String), path ≠ "" → d.files path = some (file ++ rest) → ∀ (env : Env) (p : Params) (x : Products),
        visualize env p L = .ok x → main io d env path p = .ok (0, some x) := by
  obtain ⟨file, l', h1, h2, h3⟩ := Props.C17_save_load hio hl false rest
  refine ⟨file, layerOfFile l', h1, restricted_sound h3 hm, (restricted_content h3 ⟨0, 0, 0⟩).1, fun g => (restricted_content h3 g).2, ?_⟩
  intro d path hp hd env p x hx
  have e : loadFile io d path = .ok (true, some l') := by
    unfold loadFile
    rw [hd]
    simp only [hp, ne_eq, not_false_eq_true, decide_true, Outcome.check, if_true, Outcome.bind_ok]
    exact h2
  unfold main
  rw [if_neg hp, e, Outcome.bind_ok]
  dsimp only
  rw [if_pos rfl, restricted_readable h3 hr, hx]
  rfl

theorem exFile_storable : Storable Props.tsdfEnv (fun _ => True) exFile where
  size := ⟨1, Props.sampleLayer_size, by norm_num⟩
  vps := by decide
  side := by decide
  words := by decide
  keys := by decide
  count := by decide
  blocks := by
    have h : ∀ e ∈ exFile.blocks, e.2.vps = exFile.vps ∧ e.2.voxelSize = exFile.voxelSize ∧ e.2.voxels.length = numVoxels exFile.vps ∧
        ¬ Vox.FloatBits.IsNaN32 e.2.origin.x ∧ ¬ Vox.FloatBits.IsNaN32 e.2.origin.y ∧ ¬ Vox.FloatBits.IsNaN32 e.2.origin.z ∧
        Props.tsdfEnv.idxOf exFile.voxelSize exFile.vps e.2.origin = .ok e.1 := by decide +kernel
    intro e he
    obtain ⟨a, b, c, x, y, z, i⟩ := h e he
    exact ⟨a, b, c, fun _ _ => trivial, x, y, z, i⟩

/-- The example is saved and shown. -/
example : EnvOk Props.tsdfEnv (fun _ => True) ∧ Storable Props.tsdfEnv (fun _ => True) exFile ∧ readable exFile = true ∧ MapSound (layerOfFile exFile) ∧
    (do
      let file ← saveLayer Props.tsdfEnv exFile
      let x ← main Props.tsdfEnv ⟨fun q => if q = "map.vxblx" then some file else none, fun _ => true⟩ exVis "map.vxblx" {}
      pure (x.1, x.2.map fun r => (summary r).1.map (·.2))) = Outcome.ok (0, some [8, 8, 3, 3, 3]) :=
  ⟨Props.tsdfEnv_ok, exFile_storable, exFile_readable, exFile_sound, by decide +kernel⟩

/-- **C121 (refusal).** Without a path, without a file, or if loading reports failure, the program returns 1 and sends nothing. -/
theorem C121_refused (io : IO.Env (TsdfVoxel Word)) (d : ServerIO.Disk) (env : Env) (p : Params) :
    main io d env "" p = .ok (1, none) ∧ (∀ path, d.files path = none → main io d env path p = .ok (1, none)) ∧
    ∀ path file L, path ≠ "" → d.files path = some file → loadLayer io false file = .ok (false, L) → main io d env path p = .ok (1, none) := by
  refine ⟨rfl, fun path h => ?_, fun path file L hp h hl => ?_⟩
  · by_cases hp : path = ""
    · subst hp; rfl
    · unfold main loadFile
      rw [if_neg hp, h]
      simp only [hp, ne_eq, not_false_eq_true, decide_true, Outcome.check, if_true, Outcome.bind_ok]
      rfl
  · unfold main loadFile
    rw [if_neg hp, h]
    simp only [hp, ne_eq, not_false_eq_true, decide_true, Outcome.check, if_true, Outcome.bind_ok, hl]
    rfl

/-- A file of another layer type, and an empty one, are rejected. -/
example : (∃ L, loadLayer Props.tsdfEnv false [] = .ok (false, L)) ∧ ∃ file L, saveLayer Props.occEnv Props.emptyOcc = .ok file ∧ file ≠ [] ∧
    loadLayer Props.tsdfEnv false file = .ok (false, L) := by
  refine ⟨⟨none, by decide +kernel⟩, ?_⟩
  have h : (do
      let file ← saveLayer Props.occEnv Props.emptyOcc
      let r ← loadLayer Props.tsdfEnv false file
      pure (file.isEmpty, r.1)) = Outcome.ok (false, false) := by decide +kernel
  obtain ⟨file, h1, h⟩ := Outcome.bind_eq_ok.1 h
  obtain ⟨⟨b, L⟩, h2, h⟩ := Outcome.bind_eq_ok.1 h
  have h := Prod.mk.inj (Outcome.ok.inj h)
  obtain rfl : b = false := h.2
  exact ⟨file, L, h1, (fun hc => by rw [hc] at h; cases h.1), h2⟩

end Vox.Visualizer
