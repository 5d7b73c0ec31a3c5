/-
Property C100: exporting a layer (or the meshes of one) to a PLY file or a polygon mesh.
-/
import Verif.Lemmas.Export

namespace Vox.Export

open Layer Grid MC MeshInt MeshOps Spec Ply PlySpec PtCloud

variable {V : Type}

/-- The whole surface as one mesh: for every traversal order of the meshes the vertices are the corners of the triangles of all cubes of the layer, each
cube once, and the indices count them. The flag tells whether there is any. -/
theorem C100_mesh {E : Env} (hE : AnyOrder E.iter) (useColor : Bool) (fns : VoxelFns V) (thr : Fl) {l : VLayer V} (wf : WellFormed l)
    (nd : (l.blocks.map (·.1)).Nodup) (hr : ∀ i, (block? l i).isSome = true → BlockInRange l i) :
    ∃ cs m b, EachCubeOnce l cs ∧ layerToMesh E useColor fns false thr l Mesh.empty = .ok (m, b) ∧
      m.vertices = (surfaceIn l fns.sdf cs).map (fun p => p.map .fin) ∧ TriangleSoup useColor m ∧ (b = true ↔ HasSurface l fns.sdf) ∧
      (surfaceIn l fns.sdf cs).length ≤ 15 * (l.blocks.length * l.cfg.vps ^ 3) := by
  obtain ⟨l', ml', ks, hg, hk, hm⟩ := generate_fresh E.sq useColor fns wf nd hr hE
  obtain ⟨r, e1, e2, e3, -⟩ := C54_getMesh useColor (ks.map (blockMesh E.sq useColor l fns)) (by
    intro m hm
    obtain ⟨i, -, rfl⟩ := List.mem_map.1 hm
    exact blockMesh_soup _ _ _ _ _)
  rw [vertices_surface] at e3
  have hc := cubesOf_once wf nd hk
  refine ⟨cubesOf l.cfg.vps ks, r, !r.vertices.isEmpty, hc, ?_, e3, e2, ?_, ?_⟩
  · unfold layerToMesh meshLayerToMesh
    rw [hg, Outcome.bind_ok, if_neg (by simp), hm, e1]
    rfl
  · rw [← surfaceIn_ne_nil hc, e3]
    simp
  · have h1 := surfaceIn_le l fns.sdf (cubesOf l.cfg.vps ks)
    rw [cubesOf_length, hk.length_eq, List.length_map] at h1
    exact h1

/-- **C100 (isosurface).** The file of a layer with a surface reads back as the triangles of all its cubes, each cube once, three consecutive vertices per
face; coordinates have six digits. -/
theorem C100_isosurface {E : Env} (hE : AnyOrder E.iter) (fns : VoxelFns V) (color : Fl → Fl → V → Outcome (Option Color)) (thr range maxValue : Fl)
    {l : VLayer V} (wf : WellFormed l) (nd : (l.blocks.map (·.1)).Nodup) (hr : ∀ i, (block? l i).isSome = true → BlockInRange l i)
    (hs : HasSurface l fns.sdf) (hsize : 15 * (l.blocks.length * l.cfg.vps ^ 3) ≤ 2 ^ 31) {d : Disk} (ho : d.opens = true) (hroom : d.room = none)
    {filename : String} (hf : filename ≠ "") :
    ∃ cs t c sh, EachCubeOnce l cs ∧ outputLayerAsPly E fns color thr d filename 1 range maxValue l = .ok (true, some t) ∧ readPly t = some c ∧ SixDigits sh ∧
      columnOf c "vertex" "x" = some ((surfaceIn l fns.sdf cs).map fun p => [sh (.fin p.x)]) ∧
      columnOf c "vertex" "y" = some ((surfaceIn l fns.sdf cs).map fun p => [sh (.fin p.y)]) ∧
      columnOf c "vertex" "z" = some ((surfaceIn l fns.sdf cs).map fun p => [sh (.fin p.z)]) ∧
      ∃ fs : List (List ℕ), columnOf c "face" "vertex_indices" = some (fs.map fun f => f.map fun (i : ℕ) => .fin i) ∧
        fs.flatten = List.range (surfaceIn l fns.sdf cs).length ∧ ∀ f ∈ fs, f.length = 3 := by
  obtain ⟨cs, m, b, hc, hm, hv, soup, hb, hlen⟩ := C100_mesh hE true fns thr wf nd hr
  have hbt : b = true := hb.2 hs
  have hl : m.vertices.length = (surfaceIn l fns.sdf cs).length := by rw [hv, List.length_map]
  have hne : surfaceIn l fns.sdf cs ≠ [] := (surfaceIn_ne_nil hc).2 hs
  have hi : m.indices = List.range (surfaceIn l fns.sdf cs).length := by rw [soup.indices, hl]
  have hin : m.indices ≠ [] := by
    rw [hi]
    intro h
    exact hne (List.length_eq_zero_iff.1 (by simpa using congrArg List.length h))
  obtain ⟨t, c, sh, e1, e2, e3, hx, hy, hz, -, -, -, -, -, -, -, fs, f1, f2, f3⟩ := C77_roundtrip (m := m) (Or.inr soup.normals)
    (Or.inr (by simpa using soup.colors)) (Nat.dvd_of_mod_eq_zero (soup_valid soup).1)
    (by
      intro i h
      rw [hi, List.mem_range] at h
      omega) ho hroom
  refine ⟨cs, t, c, sh, hc, ?_, e2, e3, ?_, ?_, ?_, fs, ?_, ?_, f3⟩
  · unfold outputLayerAsPly Outcome.check
    rw [if_pos (by simpa using hf), Outcome.bind_ok, if_neg (by norm_num), if_pos rfl, hm, Outcome.bind_ok]
    unfold saveIf
    rw [if_pos hbt]
    exact e1
  · rw [hx, hv, List.map_map]; rfl
  · rw [hy, hv, List.map_map]; rfl
  · rw [hz, hv, List.map_map]; rfl
  · rw [f1, if_neg hin]
  · rw [f2, hi]

/-- **C100 (no surface).** Without a surface the result is `false` and no file is written. -/
theorem C100_no_surface {E : Env} (hE : AnyOrder E.iter) (fns : VoxelFns V) (color : Fl → Fl → V → Outcome (Option Color)) (thr range maxValue : Fl)
    {l : VLayer V} (wf : WellFormed l) (nd : (l.blocks.map (·.1)).Nodup) (hr : ∀ i, (block? l i).isSome = true → BlockInRange l i)
    (hs : ¬ HasSurface l fns.sdf) (d : Disk) {filename : String} (hf : filename ≠ "") :
    outputLayerAsPly E fns color thr d filename 1 range maxValue l = .ok (false, none) := by
  obtain ⟨cs, m, b, -, hm, -, -, hb, -⟩ := C100_mesh hE true fns thr wf nd hr
  have hbf : b = false := by cases b with
    | false => rfl
    | true => exact absurd (hb.1 rfl) hs
  unfold outputLayerAsPly Outcome.check
  rw [if_pos (by simpa using hf), Outcome.bind_ok, if_neg (by norm_num), if_pos rfl, hm, Outcome.bind_ok]
  unfold saveIf
  rw [hbf]
  rfl

/-- The connected surface as one mesh. `K` is the cell (of the size of the threshold) of a vertex: there is one vertex for each cell that the surface
meets, it is a point of the surface in this cell, and the triangles are those of the surface that do not collapse, in the same order. -/
theorem C100_connected_mesh {E : Env} (hE : AnyOrder E.iter) (useColor : Bool) (fns : VoxelFns V) (thr : Fl) (K : Vec3 Fl → Idx) {l : VLayer V}
    (wf : WellFormed l) (nd : (l.blocks.map (·.1)).Nodup) (hr : ∀ i, (block? l i).isSome = true → BlockInRange l i)
    (hK : ∀ c, ∀ p ∈ surfaceIn l fns.sdf [c], vertexKey E.D (E.D.div (.fin 1) thr) (p.map .fin) = .ok (K (p.map .fin))) :
    ∃ cs m b, EachCubeOnce l cs ∧ layerToMesh E useColor fns true thr l Mesh.empty = .ok (m, b) ∧ ValidIndices m ∧
      m.vertices.map K = firstSeen ((surfaceIn l fns.sdf cs).map fun p => K (p.map .fin)) ∧
      (∀ v ∈ m.vertices, ∃ p ∈ surfaceIn l fns.sdf cs, v = p.map .fin) ∧
      cellTriangles K m = (triples ((surfaceIn l fns.sdf cs).map fun p => some (K (p.map .fin)))).filter (fun t => decide (Distinct3 t)) ∧
      m.normals.length = m.vertices.length ∧ m.colors.length = (if useColor then m.vertices.length else 0) ∧ (b = true ↔ HasSurface l fns.sdf) ∧
      m.vertices.length ≤ 15 * (l.blocks.length * l.cfg.vps ^ 3) := by
  obtain ⟨l', ml', ks, hg, hk, hm⟩ := generate_fresh E.sq useColor fns wf nd hr hE
  have hc := cubesOf_once wf nd hk
  have hsoup : ∀ m ∈ ks.map (blockMesh E.sq useColor l fns), TriangleSoup useColor m := by
    intro m hm
    obtain ⟨i, -, rfl⟩ := List.mem_map.1 hm
    exact blockMesh_soup _ _ _ _ _
  have hvs := vertices_surface E.sq useColor l fns ks
  have hin : ∀ m ∈ ks.map (blockMesh E.sq useColor l fns), ∀ v ∈ m.vertices, ∃ p ∈ surfaceIn l fns.sdf (cubesOf l.cfg.vps ks), v = p.map .fin := by
    intro m hm v hv
    have : v ∈ (ks.map (blockMesh E.sq useColor l fns)).flatMap (·.vertices) := List.mem_flatMap.2 ⟨m, hm, hv⟩
    rw [hvs] at this
    obtain ⟨p, hp, rfl⟩ := List.mem_map.1 this
    exact ⟨p, hp, rfl⟩
  obtain ⟨r, e1, e2, e3, e4, e5, e6, e7⟩ := C55_connected_partial E.D E.F thr K useColor (ks.map (blockMesh E.sq useColor l fns))
    (by
      intro m hm v hv
      obtain ⟨p, hp, rfl⟩ := hin m hm v hv
      unfold surfaceIn at hp
      obtain ⟨c, -, hp⟩ := List.mem_flatMap.1 hp
      exact hK c p (by unfold surfaceIn; rw [List.flatMap_cons, List.flatMap_nil, List.append_nil]; exact hp))
    (by intro m hm; rw [(hsoup m hm).indices, List.length_range])
    (fun m hm => soup_valid (hsoup m hm)) (fun m hm => (hsoup m hm).normals) (fun m hm => (hsoup m hm).colors)
  have hcells : ((ks.map (blockMesh E.sq useColor l fns)).flatMap fun m => m.vertices.map K) =
      (surfaceIn l fns.sdf (cubesOf l.cfg.vps ks)).map fun p => K (p.map .fin) := by
    rw [← List.map_flatMap, hvs, List.map_map]; rfl
  rw [hcells] at e3
  rw [soups_cells K _ hsoup, hvs, List.map_map] at e5
  refine ⟨cubesOf l.cfg.vps ks, r, !r.vertices.isEmpty, hc, ?_, e2, e3, ?_, e5, e6, e7, ?_, ?_⟩
  · unfold layerToMesh meshLayerToMesh
    rw [hg, Outcome.bind_ok, if_pos rfl, hm, e1]
    rfl
  · intro v hv
    obtain ⟨m, hm, hv⟩ := e4 v hv
    exact hin m hm v hv
  · rw [← surfaceIn_ne_nil hc]
    have hmem := (C55_one_per_cell ((surfaceIn l fns.sdf (cubesOf l.cfg.vps ks)).map fun p => K (p.map .fin))).2
    rw [← e3] at hmem
    constructor
    · intro h h0
      rw [h0] at hmem
      obtain ⟨v, hv⟩ := List.exists_mem_of_ne_nil r.vertices (by simpa using h)
      exact absurd ((hmem (K v)).1 (List.mem_map_of_mem hv)) (by simp)
    · intro h
      obtain ⟨p, hp⟩ := List.exists_mem_of_ne_nil _ h
      obtain ⟨v, hv, -⟩ := List.mem_map.1 ((hmem _).2 (List.mem_map_of_mem hp))
      simpa using List.ne_nil_of_mem hv
  · have h1 := surfaceIn_le l fns.sdf (cubesOf l.cfg.vps ks)
    rw [cubesOf_length, hk.length_eq, List.length_map] at h1
    have h2 := (firstSeen_nodup ((surfaceIn l fns.sdf (cubesOf l.cfg.vps ks)).map fun p => K (p.map .fin))).length_le_of_subset
      fun k hk => ((C55_one_per_cell _).2 k).1 hk
    rw [← e3, List.length_map, List.length_map] at h2
    omega

/-- **C100 (connected isosurface).** The file holds one vertex per cell that the surface meets, each a point of the surface, and the faces refer to them:
read back they are the triangles of the surface that do not collapse. -/
theorem C100_connected {E : Env} (hE : AnyOrder E.iter) (fns : VoxelFns V) (color : Fl → Fl → V → Outcome (Option Color)) (thr range maxValue : Fl)
    (K : Vec3 Fl → Idx) {l : VLayer V} (wf : WellFormed l) (nd : (l.blocks.map (·.1)).Nodup)
    (hr : ∀ i, (block? l i).isSome = true → BlockInRange l i)
    (hK : ∀ c, ∀ p ∈ surfaceIn l fns.sdf [c], vertexKey E.D (E.D.div (.fin 1) thr) (p.map .fin) = .ok (K (p.map .fin)))
    (hsize : 15 * (l.blocks.length * l.cfg.vps ^ 3) ≤ 2 ^ 31) {d : Disk} (ho : d.opens = true) (hroom : d.room = none)
    {filename : String} (hf : filename ≠ "") :
    (¬ HasSurface l fns.sdf → outputLayerAsPly E fns color thr d filename 2 range maxValue l = .ok (false, none)) ∧
    (HasSurface l fns.sdf → ∃ (cs : List Idx) (ps : List Pt) (fs : List (List ℕ)) (t : List Char) (c : Content) (sh : Fl → Fl),
      EachCubeOnce l cs ∧ outputLayerAsPly E fns color thr d filename 2 range maxValue l = .ok (true, some t) ∧ readPly t = some c ∧ SixDigits sh ∧
      columnOf c "vertex" "x" = some (ps.map fun p => [sh (.fin p.x)]) ∧
      columnOf c "vertex" "y" = some (ps.map fun p => [sh (.fin p.y)]) ∧
      columnOf c "vertex" "z" = some (ps.map fun p => [sh (.fin p.z)]) ∧
      columnOf c "face" "vertex_indices" = (if fs = [] then none else some (fs.map fun f => f.map fun (i : ℕ) => .fin i)) ∧
      (∀ p ∈ ps, p ∈ surfaceIn l fns.sdf cs) ∧
      (ps.map fun p => K (p.map .fin)) = firstSeen ((surfaceIn l fns.sdf cs).map fun p => K (p.map .fin)) ∧
      (∀ f ∈ fs, f.length = 3 ∧ ∀ i ∈ f, i < ps.length) ∧
      triples (fs.flatten.map fun i => (ps[i]?).map fun p => K (p.map .fin)) =
        (triples ((surfaceIn l fns.sdf cs).map fun p => some (K (p.map .fin)))).filter (fun t => decide (Distinct3 t))) := by
  obtain ⟨cs, m, b, hc, hm, hv, hcell, hpt, htri, hn, hcol, hb, hlen⟩ := C100_connected_mesh hE true fns thr K wf nd hr hK
  constructor
  · intro hs
    have hbf : b = false := by cases b with
      | false => rfl
      | true => exact absurd (hb.1 rfl) hs
    unfold outputLayerAsPly Outcome.check
    rw [if_pos (by simpa using hf), Outcome.bind_ok, if_neg (by norm_num), if_neg (by norm_num), if_pos rfl, hm, Outcome.bind_ok]
    unfold saveIf
    rw [hbf]
    rfl
  · intro hs
    have hbt : b = true := hb.2 hs
    have hps : ∃ ps : List Pt, m.vertices = ps.map (fun p => p.map .fin) ∧ ∀ p ∈ ps, p ∈ surfaceIn l fns.sdf cs := by
      generalize m.vertices = vs at hpt
      induction vs with
      | nil => exact ⟨[], rfl, by simp⟩
      | cons v vs ih =>
        obtain ⟨ps, h1, h2⟩ := ih fun w hw => hpt w (List.mem_cons_of_mem _ hw)
        obtain ⟨p, hp, rfl⟩ := hpt v List.mem_cons_self
        exact ⟨p :: ps, by rw [h1]; rfl, by simpa using ⟨hp, h2⟩⟩
    obtain ⟨ps, hps, hin⟩ := hps
    have hlen' : m.vertices.length = ps.length := by rw [hps, List.length_map]
    obtain ⟨t, c, sh, e1, e2, e3, hx, hy, hz, -, -, -, -, -, -, -, fs, f1, f2, f3⟩ := C77_roundtrip (m := m) (Or.inr hn)
      (Or.inr (by simpa using hcol)) (Nat.dvd_of_mod_eq_zero hv.1)
      (by
        intro i h
        have := hv.2 i h
        omega) ho hroom
    refine ⟨cs, ps, fs, t, c, sh, hc, ?_, e2, e3, ?_, ?_, ?_, ?_, hin, ?_, ?_, ?_⟩
    · unfold outputLayerAsPly Outcome.check
      rw [if_pos (by simpa using hf), Outcome.bind_ok, if_neg (by norm_num), if_neg (by norm_num), if_pos rfl, hm, Outcome.bind_ok]
      unfold saveIf
      rw [if_pos hbt]
      exact e1
    · rw [hx, hps, List.map_map]; rfl
    · rw [hy, hps, List.map_map]; rfl
    · rw [hz, hps, List.map_map]; rfl
    · rw [f1]
      have : m.indices = [] ↔ fs = [] := by
        rw [← f2]
        constructor
        · intro h
          cases fs with
          | nil => rfl
          | cons f fs =>
            have h3 := f3 f List.mem_cons_self
            rw [List.flatten_cons, List.append_eq_nil_iff] at h
            rw [h.1] at h3
            cases h3
        · rintro rfl; rfl
      simp only [this]
    · rw [← hcell, hps, List.map_map]; rfl
    · intro f hf'
      refine ⟨f3 f hf', fun i hi => ?_⟩
      rw [← hlen']
      exact hv.2 i (by rw [← f2]; exact List.mem_flatten.2 ⟨f, hf', hi⟩)
    · rw [← htri, f2]
      unfold cellTriangles
      rw [hps]
      congr 1
      apply List.map_congr_left
      intro i _
      rw [List.getElem?_map, Option.map_map]
      rfl

/-- **C100 (distance field).** The file of the coloured distances holds, once each, the centres of the voxels that have a colour, with this colour, and no
faces; without such voxels there is no file and the result is `false`. -/
theorem C100_cloud (E : Env) (fns : VoxelFns V) {color : Fl → Fl → V → Outcome (Option Color)} {f : V → Option Color} (thr maxValue : Fl) {r : ℚ}
    (hr : 0 < r) {l : VLayer V} (wf : WellFormed l) (nd : (l.blocks.map (·.1)).Nodup)
    (hcol : ∀ g v, content l g = some v → color (.fin r) maxValue v = .ok (f v)) {d : Disk} (ho : d.opens = true) (hroom : d.room = none)
    {filename : String} (hf : filename ≠ "") :
    ∃ P, Shows f l P ∧
      (P = [] → outputLayerAsPly E fns color thr d filename 0 (.fin r) maxValue l = .ok (false, none)) ∧
      (P ≠ [] → ∃ t c sh, outputLayerAsPly E fns color thr d filename 0 (.fin r) maxValue l = .ok (true, some t) ∧ readPly t = some c ∧ SixDigits sh ∧
        columnOf c "vertex" "x" = some (P.map fun p => [sh (.fin p.1.x)]) ∧
        columnOf c "vertex" "y" = some (P.map fun p => [sh (.fin p.1.y)]) ∧
        columnOf c "vertex" "z" = some (P.map fun p => [sh (.fin p.1.z)]) ∧
        columnOf c "vertex" "red" = some (P.map fun p => [.fin p.2.r.toNat]) ∧
        columnOf c "vertex" "green" = some (P.map fun p => [.fin p.2.g.toNat]) ∧
        columnOf c "vertex" "blue" = some (P.map fun p => [.fin p.2.b.toNat]) ∧
        columnOf c "vertex" "alpha" = some (P.map fun p => [.fin p.2.a.toNat]) ∧
        columnOf c "face" "vertex_indices" = none) := by
  let P := (visited l.cfg.vps (l.blocks.map (·.1))).filterMap (entryAt (fun _ => f) l)
  have hrun : voxelGridToPointCloud color (.fin r) maxValue l [] = .ok (P, !P.isEmpty) := by
    unfold voxelGridToPointCloud Outcome.check
    rw [if_pos (by simpa [Fl.lt] using hr), Outcome.bind_ok, points_ok wf hcol]
    rfl
  have hout : outputLayerAsPly E fns color thr d filename 0 (.fin r) maxValue l = saveIf d (cloudMesh P, !P.isEmpty) := by
    unfold outputLayerAsPly Outcome.check
    rw [if_pos (by simpa using hf), Outcome.bind_ok, if_pos rfl, hrun]
    rfl
  refine ⟨P, ⟨entries_nodup wf (visited_cover wf nd), entries_mem wf (visited_cover wf nd)⟩, ?_, ?_⟩
  · intro h
    rw [hout, h]
    rfl
  · intro h
    have hne : ¬ (cloudMesh P).colors = [] := by simpa [cloudMesh] using h
    obtain ⟨t, c, sh, e1, e2, e3, hx, hy, hz, -, -, -, cr, cg, cb, ca, fs, f1, -, -⟩ := C77_roundtrip (m := cloudMesh P) (Or.inl rfl)
      (Or.inr (by simp [cloudMesh])) (by simp [cloudMesh, Mesh.empty]) (by simp [cloudMesh, Mesh.empty]) ho hroom
    rw [if_neg hne] at cr cg cb ca
    refine ⟨t, c, sh, ?_, e2, e3, ?_, ?_, ?_, ?_, ?_, ?_, ?_, ?_⟩
    · rw [hout]
      unfold saveIf
      rw [if_pos (by simpa using h)]
      exact e1
    · rw [hx]; simp [cloudMesh]
    · rw [hy]; simp [cloudMesh]
    · rw [hz]; simp [cloudMesh]
    · rw [cr]; simp [cloudMesh]
    · rw [cg]; simp [cloudMesh]
    · rw [cb]; simp [cloudMesh]
    · rw [ca]; simp [cloudMesh]
    · rw [f1]; simp [cloudMesh, Mesh.empty]

/-- An empty file name or an unknown kind of output ends the process. -/
theorem C100_abort (E : Env) (fns : VoxelFns V) (color : Fl → Fl → V → Outcome (Option Color)) (thr range maxValue : Fl) (l : VLayer V) (d : Disk)
    {filename : String} {type : ℤ} (h : filename = "" ∨ type < 0 ∨ 2 < type) : outputLayerAsPly E fns color thr d filename type range maxValue l = .fatal := by
  unfold outputLayerAsPly Outcome.check
  by_cases hf : filename = ""
  · rw [hf]; rfl
  · rw [if_pos (by simpa using hf), Outcome.bind_ok, if_neg (by rcases h with h | h | h <;> first | exact absurd h hf | omega),
      if_neg (by rcases h with h | h | h <;> first | exact absurd h hf | omega), if_neg (by rcases h with h | h | h <;> first | exact absurd h hf | omega)]

/-! ### Polygon meshes -/

/-- **C100 (polygons).** The polygon mesh of unconnected meshes: the vertices of all meshes in the order of traversal, and polygons of three that name
them consecutively. -/
theorem C100_polygons {E : Env} (hE : AnyOrder E.iter) (colored : Bool) (thr : Fl) (frame : String) {ml : MeshMap}
    (h : ∀ e ∈ ml, TriangleSoup colored e.2) :
    ∃ (pm : PolygonMesh) (ms : MeshMap), toPolygonMesh E false thr frame ml = .ok pm ∧ ms.Perm ml ∧ pm.frame = frame ∧ pm.cloud = ms.flatMap (fun e => e.2.vertices) ∧
      (∀ p ∈ pm.polygons, p.length = 3) ∧ pm.polygons.flatten = List.range pm.cloud.length := by
  obtain ⟨r, e1, e2, e3, -⟩ := C54_getMesh colored ((E.iter ml).map (·.2)) (by
    intro m hm
    obtain ⟨e, he, rfl⟩ := List.mem_map.1 hm
    exact h e ((hE ml).mem_iff.1 he))
  have hp := polygon_fold r.indices [] (Nat.dvd_of_mod_eq_zero (soup_valid e2).1) (by simp)
  refine ⟨⟨frame, r.vertices, (r.indices.foldl polygonStep ([], [])).1⟩, E.iter ml, ?_, hE ml, rfl, ?_, hp.1, ?_⟩
  · unfold toPolygonMesh meshLayerToMesh
    rw [if_neg (by simp), e1]
    rfl
  · rw [e3, List.flatMap_map]
  · rw [hp.2, List.flatten_nil, List.nil_append, e2.indices]

/-- **C100 (connected polygons).** One vertex per cell, and as polygons the triangles of the meshes that do not collapse. -/
theorem C100_connected_polygons {E : Env} (hE : AnyOrder E.iter) (colored : Bool) (thr : Fl) (K : Vec3 Fl → Idx) (frame : String) {ml : MeshMap}
    (h : ∀ e ∈ ml, TriangleSoup colored e.2)
    (hK : ∀ e ∈ ml, ∀ v ∈ e.2.vertices, vertexKey E.D (E.D.div (.fin 1) thr) v = .ok (K v)) :
    ∃ (pm : PolygonMesh) (ms : MeshMap), toPolygonMesh E true thr frame ml = .ok pm ∧ ms.Perm ml ∧ pm.frame = frame ∧
      pm.cloud.map K = firstSeen ((ms.flatMap fun e => e.2.vertices).map K) ∧ (∀ v ∈ pm.cloud, ∃ e ∈ ml, v ∈ e.2.vertices) ∧
      (∀ p ∈ pm.polygons, p.length = 3 ∧ ∀ i ∈ p, i < pm.cloud.length) ∧
      triples (pm.polygons.flatten.map fun i => (pm.cloud[i]?).map K) =
        (triples ((ms.flatMap fun e => e.2.vertices).map fun v => some (K v))).filter (fun t => decide (Distinct3 t)) := by
  have hsoup : ∀ m ∈ (E.iter ml).map (·.2), TriangleSoup colored m := by
    intro m hm
    obtain ⟨e, he, rfl⟩ := List.mem_map.1 hm
    exact h e ((hE ml).mem_iff.1 he)
  obtain ⟨r, e1, e2, e3, e4, e5, -, -⟩ := C55_connected_partial E.D E.F thr K colored ((E.iter ml).map (·.2))
    (by
      intro m hm v hv
      obtain ⟨e, he, rfl⟩ := List.mem_map.1 hm
      exact hK e ((hE ml).mem_iff.1 he) v hv)
    (by intro m hm; rw [(hsoup m hm).indices, List.length_range])
    (fun m hm => soup_valid (hsoup m hm)) (fun m hm => (hsoup m hm).normals) (fun m hm => (hsoup m hm).colors)
  have hp := polygon_fold r.indices [] (Nat.dvd_of_mod_eq_zero e2.1) (by simp)
  rw [List.flatten_nil, List.nil_append] at hp
  rw [soups_cells K _ hsoup, List.flatMap_map] at e5
  rw [← List.map_flatMap, List.flatMap_map] at e3
  refine ⟨⟨frame, r.vertices, (r.indices.foldl polygonStep ([], [])).1⟩, E.iter ml, ?_, hE ml, rfl, e3, ?_, ?_, ?_⟩
  · unfold toPolygonMesh meshLayerToMesh
    rw [if_pos rfl, e1]
    rfl
  · intro v hv
    obtain ⟨m, hm, hv⟩ := e4 v hv
    obtain ⟨e, he, rfl⟩ := List.mem_map.1 hm
    exact ⟨e, (hE ml).mem_iff.1 he, hv⟩
  · intro p hpm
    refine ⟨hp.1 p hpm, fun i hi => e2.2 i ?_⟩
    rw [← hp.2]
    exact List.mem_flatten.2 ⟨p, hpm, hi⟩
  · rw [← e5, hp.2]
    rfl

/-! ### Where it does not hold -/

/-- The surroundings for the examples. -/
def exEnv : Env := ⟨Arith.exact fun _ => .fin 1, Arith.exact fun _ => .fin 1, fun _ => .fin 1, fun ml => ml⟩

theorem exEnv_order : AnyOrder exEnv.iter := fun _ => List.Perm.refl _

/-- The mesh is not emptied: into a mesh that holds something already, an empty layer is converted with success. Of a layer with a surface the mesh gets
other triangles than it has; connecting ends the process. -/
theorem C100_reused_violated :
    (∀ connected, ∃ m, layerToMesh exEnv false (tsdfFns 0) connected (.fin (1 / 1000)) ⟨⟨1, 1⟩, []⟩ (oneTriangle 0) = .ok (m, true)) ∧
    (∃ m m', layerToMesh exEnv false (tsdfFns 0) false (.fin (1 / 1000)) (unitLayer [⟨0, 0, 0⟩] []) Mesh.empty = .ok (m, true) ∧
      layerToMesh exEnv false (tsdfFns 0) false (.fin (1 / 1000)) (unitLayer [⟨0, 0, 0⟩] []) (oneTriangle 0) = .ok (m', true) ∧
      positions m' = positions (oneTriangle 0) ++ positions (oneTriangle 0) ∧ positions m ≠ positions (oneTriangle 0)) ∧
    layerToMesh exEnv false (tsdfFns 0) true (.fin (1 / 1000)) (unitLayer [⟨0, 0, 0⟩] []) (oneTriangle 0) = .fatal := by
  refine ⟨fun connected => ⟨oneTriangle 0, ?_⟩, ?_, by decide +kernel⟩
  · cases connected <;> decide +kernel
  · have h : (match layerToMesh exEnv false (tsdfFns 0) false (.fin (1 / 1000)) (unitLayer [⟨0, 0, 0⟩] []) Mesh.empty,
        layerToMesh exEnv false (tsdfFns 0) false (.fin (1 / 1000)) (unitLayer [⟨0, 0, 0⟩] []) (oneTriangle 0) with
        | .ok (m, true), .ok (m', true) =>
          decide (positions m' = positions (oneTriangle 0) ++ positions (oneTriangle 0) ∧ positions m ≠ positions (oneTriangle 0))
        | _, _ => false) = true := by decide +kernel
    split at h
    · next m m' h1 h2 =>
      obtain ⟨h3, h4⟩ := of_decide_eq_true h
      exact ⟨m, m', h1, h2, h3, h4⟩
    · cases h

/-! ### The hypotheses are met -/

/-- A layer of eight one-voxel blocks, inside at one corner: all that the theorems on surfaces ask for, with a surface. -/
theorem exLayer_ok : WellFormed (unitLayer [⟨0, 0, 0⟩] []) ∧ ((unitLayer [⟨0, 0, 0⟩] []).blocks.map (·.1)).Nodup ∧
    (∀ i, (block? (unitLayer [⟨0, 0, 0⟩] []) i).isSome = true → BlockInRange (unitLayer [⟨0, 0, 0⟩] []) i) := by
  refine ⟨unitLayer_wf, by decide +kernel, ?_⟩
  intro i hi
  rw [block_isSome_iff] at hi
  have : ∀ i ∈ (unitLayer [⟨0, 0, 0⟩] []).blocks.map (·.1), BlockInRange (unitLayer [⟨0, 0, 0⟩] []) i := by
    unfold BlockInRange Vec3.All; decide +kernel
  exact this i hi

theorem exLayer_surface : HasSurface (unitLayer [⟨0, 0, 0⟩] []) (tsdfFns 0).sdf := by
  by_contra h
  obtain ⟨cs, m, b, -, hm, -, -, hb, -⟩ := C100_mesh exEnv_order false (tsdfFns 0) (.fin (1 / 1000)) exLayer_ok.1 exLayer_ok.2.1 exLayer_ok.2.2
  obtain ⟨-, ⟨m1, -, h1, -⟩, -⟩ := C100_reused_violated
  rw [hm] at h1
  exact h (hb.1 (Prod.mk.inj (Outcome.ok.inj h1)).2)

example : 15 * ((unitLayer [⟨0, 0, 0⟩] []).blocks.length * (unitLayer [⟨0, 0, 0⟩] []).cfg.vps ^ 3) ≤ 2 ^ 31 ∧ plain.opens = true ∧ plain.room = none ∧
    ("a.ply" : String) ≠ "" := by decide +kernel

/-- The same with no voxel inside: no surface. -/
example : WellFormed (unitLayer [] []) ∧ ¬ HasSurface (unitLayer [] []) (tsdfFns 0).sdf := by
  have wf : WellFormed (unitLayer [] []) := wellFormed_of_check (by decide +kernel)
  refine ⟨wf, ?_⟩
  have hr : ∀ i, (block? (unitLayer [] []) i).isSome = true → BlockInRange (unitLayer [] []) i := by
    intro i hi
    rw [block_isSome_iff] at hi
    have : ∀ i ∈ (unitLayer [] []).blocks.map (·.1), BlockInRange (unitLayer [] []) i := by
      unfold BlockInRange Vec3.All; decide +kernel
    exact this i hi
  obtain ⟨cs, m, b, -, hm, -, -, hb, -⟩ := C100_mesh exEnv_order false (tsdfFns 0) (.fin (1 / 1000)) wf (by decide +kernel) hr
  have run : (match layerToMesh exEnv false (tsdfFns 0) false (.fin (1 / 1000)) (unitLayer [] []) Mesh.empty with
    | .ok (_, b) => !b | _ => false) = true := by decide +kernel
  rw [hm] at run
  rw [← hb]
  simpa using run

/-- The cell of a vertex for cells of size 1/1000. -/
def exKey (v : Vec3 Fl) : Idx := match vertexKey exEnv.D (exEnv.D.div (.fin 1) (.fin (1 / 1000))) v with | .ok k => k | _ => ⟨0, 0, 0⟩

/-- Every point of the surface has a cell. -/
example : ∀ c, ∀ p ∈ surfaceIn (unitLayer [⟨0, 0, 0⟩] []) (tsdfFns 0).sdf [c],
    vertexKey exEnv.D (exEnv.D.div (.fin 1) (.fin (1 / 1000))) (p.map .fin) = .ok (exKey (p.map .fin)) := by
  obtain ⟨cs, m, b, hc, hm, hv, -⟩ := C100_mesh exEnv_order false (tsdfFns 0) (.fin (1 / 1000)) exLayer_ok.1 exLayer_ok.2.1 exLayer_ok.2.2
  have run : (match layerToMesh exEnv false (tsdfFns 0) false (.fin (1 / 1000)) (unitLayer [⟨0, 0, 0⟩] []) Mesh.empty with
    | .ok (m, _) => decide (∀ v ∈ m.vertices, vertexKey exEnv.D (exEnv.D.div (.fin 1) (.fin (1 / 1000))) v = .ok (exKey v)) | _ => false) = true := by
    decide +kernel
  rw [hm] at run
  have run := of_decide_eq_true run
  intro c p hp
  have hin : c ∈ cs := by
    rw [hc.2]
    unfold surfaceIn at hp
    rw [List.flatMap_cons, List.flatMap_nil, List.append_nil] at hp
    obtain ⟨t, ht, -⟩ := List.mem_flatMap.1 hp
    unfold layerTriangles at ht
    split_ifs at ht with ho
    · have := content_of_sdfAt (ho ⟨0, 0, 0⟩ (by decide))
      have e : c + (⟨0, 0, 0⟩ : Idx) = c := by ext <;> simp
      rwa [e] at this
    · cases ht
  refine run _ ?_
  rw [hv]
  refine List.mem_map.2 ⟨p, ?_, rfl⟩
  unfold surfaceIn at hp ⊢
  rw [List.flatMap_cons, List.flatMap_nil, List.append_nil] at hp
  exact List.mem_flatMap.2 ⟨c, hin, hp⟩

/-- For TSDF voxels with finite numbers every voxel has a colour or none. -/
example (maxValue : Fl) : (0 : ℚ) < 2 ∧ ∀ g v, content (unitLayer [⟨0, 0, 0⟩] []) g = some v →
    (fun r m (v : TsdfVoxel ℚ) => tsdfColor r m ⟨.fin v.distance, .fin v.weight, v.color⟩) (.fin 2) maxValue v =
      .ok ((fun v : TsdfVoxel ℚ => match tsdfColor (.fin 2) maxValue ⟨.fin v.distance, .fin v.weight, v.color⟩ with | .ok o => o | _ => none) v) := by
  refine ⟨by norm_num, fun g v _ => ?_⟩
  obtain ⟨o, ho, -⟩ := C76_tsdf_shown (r := 2) (by norm_num) maxValue (v := ⟨.fin v.distance, .fin v.weight, v.color⟩) (by simp)
  simp only [ho]

/-- Two meshes of one triangle each, of which the corners have cells. -/
example : (∀ e ∈ ([(⟨0, 0, 0⟩, oneTriangle 0), (⟨0, 0, 1⟩, oneTriangle 1)] : MeshMap), TriangleSoup false e.2) ∧
    ∀ e ∈ ([(⟨0, 0, 0⟩, oneTriangle 0), (⟨0, 0, 1⟩, oneTriangle 1)] : MeshMap), ∀ v ∈ e.2.vertices,
      vertexKey exEnv.D (exEnv.D.div (.fin 1) (.fin (1 / 1000))) v = .ok (exKey v) := by
  refine ⟨?_, by decide +kernel⟩
  intro e he
  simp only [List.mem_cons, List.not_mem_nil, or_false] at he
  rcases he with rfl | rfl <;> exact oneTriangle_soup _

end Vox.Export
