/-
C77: meshes written to PLY files and read again.
-/
import Verif.Lemmas.Ply
import Verif.Props.Mesh

namespace Vox.Ply

open MC MeshOps PlySpec Spec

/-- A plain disk. -/
def plain : Disk := ⟨true, none⟩

theorem vertex_column {m : Mesh} {p : String} {k : ℕ} {f : Vec3 Fl × ℕ → Fl} (hk : (vertexProps m).findIdx? (fun q => q.name = p.toList) = some k)
    (hf : ∀ vk : Vec3 Fl × ℕ, (vertexEntries m (normalAt m vk.2) (colorAt m vk.2) vk.1)[k]?.map (·.2.2) = some (f vk)) :
    columnOf (meshContent m) "vertex" p = some (m.vertices.zipIdx.map fun vk => [f vk]) := by
  unfold meshContent
  refine column_first rfl hk rfl fun vk => ?_
  have := hf vk
  rw [List.getElem?_map]
  cases h : (vertexEntries m (normalAt m vk.2) (colorAt m vk.2) vk.1)[k]? with
  | none => rw [h] at this; cases this
  | some a =>
    rw [h] at this
    rw [← Option.some.inj this]
    rfl

/-- A mesh whose lists match is written to a file that reads back as the same mesh: the positions and normals to six digits, the colours and the
triangles exactly. -/
theorem C77_roundtrip {m : Mesh} (hn : m.normals = [] ∨ m.normals.length = m.vertices.length) (hc : m.colors = [] ∨ m.colors.length = m.vertices.length)
    (ht : 3 ∣ m.indices.length) (hi : ∀ i ∈ m.indices, i < 2 ^ 31) {d : Disk} (ho : d.opens = true) (hr : d.room = none) :
    ∃ t c sh, outputMeshAsPly d m = .ok (true, some t) ∧ readPly t = some c ∧ SixDigits sh ∧
      columnOf c "vertex" "x" = some (m.vertices.map fun v => [sh v.x]) ∧
      columnOf c "vertex" "y" = some (m.vertices.map fun v => [sh v.y]) ∧
      columnOf c "vertex" "z" = some (m.vertices.map fun v => [sh v.z]) ∧
      columnOf c "vertex" "normal_x" = (if m.normals = [] then none else some (m.normals.map fun v => [sh v.x])) ∧
      columnOf c "vertex" "normal_y" = (if m.normals = [] then none else some (m.normals.map fun v => [sh v.y])) ∧
      columnOf c "vertex" "normal_z" = (if m.normals = [] then none else some (m.normals.map fun v => [sh v.z])) ∧
      columnOf c "vertex" "red" = (if m.colors = [] then none else some (m.colors.map fun v => [.fin v.r.toNat])) ∧
      columnOf c "vertex" "green" = (if m.colors = [] then none else some (m.colors.map fun v => [.fin v.g.toNat])) ∧
      columnOf c "vertex" "blue" = (if m.colors = [] then none else some (m.colors.map fun v => [.fin v.b.toNat])) ∧
      columnOf c "vertex" "alpha" = (if m.colors = [] then none else some (m.colors.map fun v => [.fin v.a.toNat])) ∧
      ∃ fs : List (List ℕ), columnOf c "face" "vertex_indices" = (if m.indices = [] then none else some (fs.map fun f => f.map fun (i : ℕ) => .fin i)) ∧
        fs.flatten = m.indices ∧ ∀ f ∈ fs, f.length = 3 := by
  refine ⟨_, meshContent m, shown, ?_, read_mesh hi, shown_six, ?_⟩
  · unfold outputMeshAsPly
    rw [if_pos ho, meshText_ok ⟨hn, hc, ht⟩]
    show Outcome.ok (true, some (d.store _)) = _
    unfold Disk.store
    rw [hr]
  have pos : ∀ {p : String} {f : Vec3 Fl → Fl} (k : ℕ), k < 3 → positionProps.findIdx? (fun q => q.name = p.toList) = some k →
      (∀ v, (vecEntries positionProps v)[k]?.map (·.2.2) = some (f v)) →
      columnOf (meshContent m) "vertex" p = some (m.vertices.map fun v => [f v]) := by
    intro p f k hk hp hf
    rw [vertex_column (k := k) (f := fun vk => f vk.1)]
    · rw [zipIdx_fst m.vertices (fun v => [f v])]
    · unfold vertexProps
      rw [List.append_assoc, List.findIdx?_append, hp]
      rfl
    · intro vk
      unfold vertexEntries
      rw [List.append_assoc, List.getElem?_append_left (by simpa [vecEntries, positionProps] using hk)]
      exact hf _
  have nor : ∀ {p : String} {f : Vec3 Fl → Fl} (k : ℕ), k < 3 → normalProps.findIdx? (fun q => q.name = p.toList) = some k →
      positionProps.findIdx? (fun q => q.name = p.toList) = none → colorProps.findIdx? (fun q => q.name = p.toList) = none →
      (∀ v, (vecEntries normalProps v)[k]?.map (·.2.2) = some (f v)) →
      columnOf (meshContent m) "vertex" p = if m.normals = [] then none else some (m.normals.map fun v => [f v]) := by
    intro p f k hk hp hp0 hp1 hf
    split_ifs with h
    · unfold meshContent
      refine column_absent rfl ?_
      unfold vertexProps
      rw [h]
      simp only [List.isEmpty_nil, if_true, List.append_nil]
      rw [List.findIdx?_append, hp0]
      split_ifs
      · rfl
      · rw [hp1]; rfl
    · have hne : ¬ m.normals.isEmpty := by rwa [List.isEmpty_iff]
      rw [vertex_column (k := 3 + k) (f := fun vk => f (normalAt m vk.2))]
      · unfold normalAt
        rw [zipIdx_other m.vertices m.normals _ (fun v => [f v]) (hn.resolve_left h)]
      · unfold vertexProps
        rw [if_neg hne, List.append_assoc, List.findIdx?_append, hp0, List.findIdx?_append, hp]
        simp [positionProps, Nat.add_comm]
      · intro vk
        unfold vertexEntries
        rw [if_neg hne, List.append_assoc, List.getElem?_append_right (by simp [vecEntries, positionProps]),
          List.getElem?_append_left (by simpa [vecEntries, positionProps, normalProps] using hk)]
        rw [show 3 + k - (vecEntries positionProps vk.1).length = k from by simp [vecEntries, positionProps]]
        exact hf _
  have col : ∀ {p : String} {f : Color → Fl} (k : ℕ), k < 4 → colorProps.findIdx? (fun q => q.name = p.toList) = some k →
      positionProps.findIdx? (fun q => q.name = p.toList) = none → normalProps.findIdx? (fun q => q.name = p.toList) = none →
      (∀ v, (colorEntries v)[k]?.map (·.2.2) = some (f v)) →
      columnOf (meshContent m) "vertex" p = if m.colors = [] then none else some (m.colors.map fun v => [f v]) := by
    intro p f k hk hp hp0 hp1 hf
    split_ifs with h
    · unfold meshContent
      refine column_absent rfl ?_
      unfold vertexProps
      rw [h]
      simp only [List.isEmpty_nil, if_true, List.append_nil]
      rw [List.findIdx?_append, hp0]
      split_ifs
      · rfl
      · rw [hp1]; rfl
    · have hne : ¬ m.colors.isEmpty := by rwa [List.isEmpty_iff]
      have key : ∀ (A : List Property) (B : Vec3 Fl × ℕ → List (Property × Token × Fl)), (∀ vk, (B vk).length = A.length) → A.findIdx? (fun q => q.name = p.toList) = none →
          vertexProps m = A ++ colorProps → (∀ vk : Vec3 Fl × ℕ, vertexEntries m (normalAt m vk.2) (colorAt m vk.2) vk.1 = B vk ++ colorEntries (colorAt m vk.2)) →
          columnOf (meshContent m) "vertex" p = some (m.colors.map fun v => [f v]) := by
        intro A B hl hA h1 h2
        rw [vertex_column (k := A.length + k) (f := fun vk => f (colorAt m vk.2))]
        · unfold colorAt
          rw [zipIdx_other m.vertices m.colors _ (fun v => [f v]) (hc.resolve_left h)]
        · rw [h1, List.findIdx?_append, hA, hp]
          simp [Nat.add_comm]
        · intro vk
          rw [h2, List.getElem?_append_right (by rw [hl]; omega), hl, Nat.add_sub_cancel_left]
          exact hf _
      by_cases hz : m.normals.isEmpty
      · refine key positionProps (fun vk => vecEntries positionProps vk.1) (fun _ => rfl) hp0 ?_ fun vk => ?_
        · unfold vertexProps; rw [if_pos hz, if_neg hne, List.append_nil]
        · unfold vertexEntries; rw [if_pos hz, if_neg hne, List.append_nil]
      · refine key (positionProps ++ normalProps) (fun vk => vecEntries positionProps vk.1 ++ vecEntries normalProps (normalAt m vk.2)) (fun _ => rfl) ?_ ?_ fun vk => ?_
        · rw [List.findIdx?_append, hp0, hp1]; rfl
        · unfold vertexProps; rw [if_neg hz, if_neg hne]
        · unfold vertexEntries; rw [if_neg hz, if_neg hne]
  refine ⟨pos 0 (by omega) (by decide +kernel) fun _ => rfl, pos 1 (by omega) (by decide +kernel) fun _ => rfl, pos 2 (by omega) (by decide +kernel) fun _ => rfl,
    nor 0 (by omega) (by decide +kernel) (by decide +kernel) (by decide +kernel) fun _ => rfl,
    nor 1 (by omega) (by decide +kernel) (by decide +kernel) (by decide +kernel) fun _ => rfl,
    nor 2 (by omega) (by decide +kernel) (by decide +kernel) (by decide +kernel) fun _ => rfl,
    col 0 (by omega) (by decide +kernel) (by decide +kernel) (by decide +kernel) fun _ => rfl,
    col 1 (by omega) (by decide +kernel) (by decide +kernel) (by decide +kernel) fun _ => rfl,
    col 2 (by omega) (by decide +kernel) (by decide +kernel) (by decide +kernel) fun _ => rfl,
    col 3 (by omega) (by decide +kernel) (by decide +kernel) (by decide +kernel) fun _ => rfl, ?_⟩
  obtain ⟨n, hnn⟩ := ht
  have hd : m.indices.length / 3 = n := by omega
  refine ⟨(List.range n).map (tri m.indices), ?_, tri_flatten _ _ hnn, ?_⟩
  · unfold meshContent
    have hv : "vertex".toList ≠ "face".toList := by decide +kernel
    rw [column_skip (by exact hv)]
    split_ifs with h1 h2 h2
    · rfl
    · rw [List.isEmpty_iff] at h1; exact absurd h1 h2
    · rw [h2] at h1; exact absurd rfl h1
    · rw [hd, List.map_map]
      have h0 : [faceProp].findIdx? (fun q => q.name = "vertex_indices".toList) = some 0 := by decide +kernel
      exact column_first (k := 0) rfl h0 rfl fun _ => rfl
  · intro f hf
    obtain ⟨k, _, rfl⟩ := List.mem_map.1 hf
    rfl

/-- A coloured triangle with a normal. -/
def sample : Mesh :=
  ⟨[⟨.fin 0, .fin (1 / 3), .fin (-5 / 2)⟩, ⟨.fin 1000000, .nan, .fin 1⟩, ⟨.fin (1 / 100000), .pinf, .ninf⟩], [0, 1, 2],
   List.replicate 3 ⟨.fin 0, .fin 0, .fin 1⟩, [⟨255, 0, 7, 255⟩, ⟨1, 2, 3, 4⟩, ⟨0, 0, 0, 0⟩], true⟩

example : (sample.normals = [] ∨ sample.normals.length = sample.vertices.length) ∧ (sample.colors = [] ∨ sample.colors.length = sample.vertices.length) ∧
    3 ∣ sample.indices.length ∧ (∀ i ∈ sample.indices, i < 2 ^ 31) ∧ plain.opens = true ∧ plain.room = none := by decide +kernel

example : (match outputMeshAsPly plain sample with
    | .ok (true, some t) => decide (t = (line "ply" ++ line "format ascii 1.0" ++ line "element vertex 3" ++ line "property float x" ++ line "property float y" ++
        line "property float z" ++ line "property float normal_x" ++ line "property float normal_y" ++ line "property float normal_z" ++
        line "property uchar red" ++ line "property uchar green" ++ line "property uchar blue" ++ line "property uchar alpha" ++
        line "element face 1" ++ line "property list uchar int vertex_indices" ++ line "end_header" ++
        line "0 0.333333 -2.5 0 0 1 255 0 7 255" ++ line "1e+06 nan 1 0 0 1 1 2 3 4" ++ line "1e-05 inf -inf 0 0 1 0 0 0 0" ++ line "3 0 1 2 "))
    | _ => false) = true := by decide +kernel

/-- The meshes of a layer, written as separate triangles, are read back in order: all positions and normals to six digits, the colours, and the
triangles of consecutive vertices. -/
theorem C77_layer {colored : Bool} {ms : List Mesh} (h : ∀ m ∈ ms, TriangleSoup colored m) (hne : ms.flatMap (·.vertices) ≠ [])
    (hsize : (ms.flatMap (·.vertices)).length ≤ 2 ^ 31) {d : Disk} (ho : d.opens = true) (hr : d.room = none) :
    ∃ t c sh, outputMeshLayerAsPly d (getMesh ms Mesh.empty) = .ok (true, some t) ∧ readPly t = some c ∧ SixDigits sh ∧
      columnOf c "vertex" "x" = some ((ms.flatMap (·.vertices)).map fun v => [sh v.x]) ∧
      columnOf c "vertex" "y" = some ((ms.flatMap (·.vertices)).map fun v => [sh v.y]) ∧
      columnOf c "vertex" "z" = some ((ms.flatMap (·.vertices)).map fun v => [sh v.z]) ∧
      columnOf c "vertex" "normal_z" = some ((ms.flatMap (·.normals)).map fun v => [sh v.z]) ∧
      columnOf c "vertex" "red" = (if colored then some ((ms.flatMap (·.colors)).map fun v => [.fin v.r.toNat]) else none) ∧
      ∃ fs : List (List ℕ), columnOf c "face" "vertex_indices" = some (fs.map fun f => f.map fun (i : ℕ) => .fin i) ∧
        fs.flatten = List.range (ms.flatMap (·.vertices)).length ∧ ∀ f ∈ fs, f.length = 3 := by
  obtain ⟨r, hg, hs, hv, hn, hc, -⟩ := C54_getMesh colored ms h
  have hrv : r.vertices ≠ [] := by rw [hv]; exact hne
  have hpos : 0 < r.vertices.length := List.length_pos_of_ne_nil hrv
  have hin : r.indices ≠ [] := by
    rw [hs.indices]
    intro e
    have := congrArg List.length e
    rw [List.length_range, List.length_nil] at this
    omega
  have hnn : r.normals ≠ [] := by
    intro e
    have := hs.normals
    rw [e, List.length_nil] at this
    omega
  obtain ⟨t, c, sh, e1, e2, e3, hx, hy, hz, -, -, nz, cr, -, -, -, fs, f1, f2, f3⟩ := C77_roundtrip (m := r) (Or.inr hs.normals)
    (by
      cases colored with
      | true => right; simpa using hs.colors
      | false => left; simpa using hs.colors)
    (by rw [hs.indices, List.length_range]; exact Nat.dvd_of_mod_eq_zero hs.three)
    (by
      intro i hi
      rw [hs.indices, List.mem_range, hv] at hi
      omega) ho hr
  refine ⟨t, c, sh, ?_, e2, e3, ?_, ?_, ?_, ?_, ?_, fs, ?_, ?_, f3⟩
  · unfold outputMeshLayerAsPly
    rw [hg, Outcome.bind_ok, if_neg (by rwa [List.isEmpty_iff]), e1]
  · rw [hx, hv]
  · rw [hy, hv]
  · rw [hz, hv]
  · rw [nz, if_neg hnn, hn]
  · rw [cr]
    cases colored with
    | true =>
      have : r.colors ≠ [] := by
        intro e
        have := hs.colors
        rw [e] at this
        simp only [List.length_nil, if_true] at this
        omega
      rw [if_neg this, hc]
      rfl
    | false =>
      have : r.colors = [] := by simpa using hs.colors
      rw [if_pos this]
      rfl
  · rw [f1, if_neg hin]
  · rw [f2, hs.indices, hv]

example : (∀ m ∈ [oneTriangle 0, oneTriangle 1], TriangleSoup false m) ∧ [oneTriangle 0, oneTriangle 1].flatMap (·.vertices) ≠ [] ∧
    ([oneTriangle 0, oneTriangle 1].flatMap (·.vertices)).length ≤ 2 ^ 31 := by
  refine ⟨?_, by decide, by decide⟩
  intro m hm
  rcases List.mem_cons.1 hm with rfl | hm
  · exact oneTriangle_soup 0
  · rw [List.mem_singleton.1 hm]
    exact oneTriangle_soup 1

/-- The connected mesh of a layer is written to a file that can be read, with a position for every vertex and triangles that are in range. -/
theorem C77_connected (D F : Arith) (thr : Fl) (K : Vec3 Fl → Idx) (colored : Bool) (ms : List Mesh)
    (hcell : ∀ m ∈ ms, ∀ v ∈ m.vertices, vertexKey D (D.div (.fin 1) thr) v = .ok (K v))
    (hcount : ∀ m ∈ ms, m.vertices.length = m.indices.length) (hvalid : ∀ m ∈ ms, ValidIndices m)
    (hnorm : ∀ m ∈ ms, m.normals.length = m.vertices.length)
    (hcol : ∀ m ∈ ms, m.colors.length = if colored then m.vertices.length else 0) (hne : ms.flatMap (·.vertices) ≠ [])
    (hsize : (ms.flatMap (·.vertices)).length ≤ 2 ^ 31) {d : Disk} (ho : d.opens = true) (hr : d.room = none) :
    ∃ r t c sh, createConnectedMesh D F thr ms Mesh.empty = .ok r ∧
      outputMeshLayerAsPly d (createConnectedMesh D F thr ms Mesh.empty) = .ok (true, some t) ∧ readPly t = some c ∧ SixDigits sh ∧
      columnOf c "vertex" "x" = some (r.vertices.map fun v => [sh v.x]) ∧
      columnOf c "vertex" "y" = some (r.vertices.map fun v => [sh v.y]) ∧
      columnOf c "vertex" "z" = some (r.vertices.map fun v => [sh v.z]) ∧
      ∀ fs, columnOf c "face" "vertex_indices" = some fs → ∀ f ∈ fs, f.length = 3 ∧ ∀ x ∈ f, ∃ i : ℕ, x = .fin i ∧ i < r.vertices.length := by
  obtain ⟨r, hg, hv, hk, -, -, hn, hc⟩ := C55_connected_partial D F thr K colored ms hcell hcount hvalid hnorm hcol
  have hlen : r.vertices.length ≤ (ms.flatMap (·.vertices)).length := by
    have h1 : r.vertices.length = (firstSeen (ms.flatMap fun m => m.vertices.map K)).length := by rw [← hk, List.length_map]
    have h2 := (firstSeen_nodup (ms.flatMap fun m => m.vertices.map K)).length_le_of_subset fun k hk => ((C55_one_per_cell _).2 k).1 hk
    rw [List.length_flatMap] at h2 ⊢
    simp only [List.length_map] at h2
    omega
  have hrv : r.vertices ≠ [] := by
    intro e
    rw [e, List.map_nil] at hk
    obtain ⟨v, hv⟩ := List.exists_mem_of_ne_nil _ hne
    obtain ⟨m, hm, hv⟩ := List.mem_flatMap.1 hv
    have : K v ∈ firstSeen (ms.flatMap fun m => m.vertices.map K) :=
      ((C55_one_per_cell _).2 _).2 (List.mem_flatMap.2 ⟨m, hm, List.mem_map_of_mem hv⟩)
    rw [← hk] at this
    cases this
  obtain ⟨t, c, sh, e1, e2, e3, hx, hy, hz, -, -, -, -, -, -, -, fs, f1, f2, f3⟩ := C77_roundtrip (m := r) (Or.inr hn)
    (by
      cases colored with
      | true => right; simpa using hc
      | false => left; simpa using hc)
    (Nat.dvd_of_mod_eq_zero hv.1)
    (by
      intro i hi
      have := hv.2 i hi
      omega) ho hr
  refine ⟨r, t, c, sh, hg, ?_, e2, e3, hx, hy, hz, ?_⟩
  · unfold outputMeshLayerAsPly
    rw [hg, Outcome.bind_ok, if_neg (by rwa [List.isEmpty_iff]), e1]
  · intro gs hgs f hf
    rw [f1] at hgs
    split_ifs at hgs with h
    · rw [← Option.some.inj hgs] at hf
      obtain ⟨g, hgm, rfl⟩ := List.mem_map.1 hf
      refine ⟨by rw [List.length_map]; exact f3 g hgm, ?_⟩
      intro x hx
      obtain ⟨i, hi, rfl⟩ := List.mem_map.1 hx
      exact ⟨i, rfl, hv.2 i (by rw [← f2]; exact List.mem_flatten.2 ⟨g, hgm, hi⟩)⟩

/-! ### Where it does not hold -/

/-- Without a whole number of triangles the program ends with an uncaught exception. -/
theorem C77_incomplete {m : Mesh} (hn : m.normals = [] ∨ m.normals.length = m.vertices.length) (hc : m.colors = [] ∨ m.colors.length = m.vertices.length)
    (ht : ¬ 3 ∣ m.indices.length) {d : Disk} (ho : d.opens = true) : outputMeshAsPly d m = .fatal := by
  have hv := foldlM_append (f := fun vk : Vec3 Fl × ℕ => vertexText m vk.1 vk.2) (g := fun vk => vertexLine m (normalAt m vk.2) (colorAt m vk.2) vk.1 ++ ['\n'])
    m.vertices.zipIdx (by
      intro vk hvk
      have := List.snd_lt_of_mem_zipIdx hvk
      exact vertexText_ok hn hc (by simpa using this) _) []
  unfold outputMeshAsPly meshText
  rw [if_pos ho, hv, Outcome.bind_ok, facesText_fatal ht]
  rfl

example : ¬ 3 ∣ { sample with indices := [0, 1, 2, 0] }.indices.length := by decide

/-- With fewer normals than vertices (but some), memory behind the normals is read. -/
theorem C77_short_normals {m : Mesh} (h0 : m.normals ≠ []) (hn : m.normals.length < m.vertices.length) {d : Disk} (ho : d.opens = true) :
    outputMeshAsPly d m = .ub := by
  have hk : m.normals.length < m.vertices.length := hn
  unfold outputMeshAsPly
  rw [if_pos ho, meshText_ub hk]
  · rfl
  unfold vertexText
  rcases normalPart_cases m m.normals.length with ⟨h, -⟩ | ⟨-, h | h⟩
  · rw [h]; rfl
  · exact absurd h h0
  · exact absurd h (lt_irrefl _)

/-- With fewer colours than vertices (but some), memory behind the colours is read. -/
theorem C77_short_colors {m : Mesh} (h0 : m.colors ≠ []) (hn : m.colors.length < m.vertices.length) {d : Disk} (ho : d.opens = true) :
    outputMeshAsPly d m = .ub := by
  have hk : m.colors.length < m.vertices.length := hn
  unfold outputMeshAsPly
  rw [if_pos ho, meshText_ub hk]
  · rfl
  unfold vertexText
  rcases normalPart_cases m m.colors.length with ⟨h, -⟩ | ⟨⟨t, h⟩, -⟩
  · rw [h]; rfl
  rw [h, Outcome.bind_ok]
  rcases colorPart_cases m m.colors.length with ⟨h, -⟩ | ⟨-, h | h⟩
  · rw [h]; rfl
  · exact absurd h h0
  · exact absurd h (lt_irrefl _)

example : { sample with normals := [⟨.fin 0, .fin 0, .fin 1⟩] }.normals.length < sample.vertices.length ∧
    { sample with colors := [⟨0, 0, 0, 0⟩] }.colors.length < sample.vertices.length := by decide

/-- The positions are not recovered exactly: two meshes with different single-precision coordinates give the same file. -/
theorem C77_exact_violated : ∃ (q r : ℚ) (t : List Char), q ≠ r ∧ Ieee.rnd32 q = q ∧ Ieee.rnd32 r = r ∧
    outputMeshAsPly plain ⟨[⟨.fin q, .fin 0, .fin 0⟩], [], [], [], true⟩ = .ok (true, some t) ∧
    outputMeshAsPly plain ⟨[⟨.fin r, .fin 0, .fin 0⟩], [], [], [], true⟩ = .ok (true, some t) := by
  refine ⟨1, 1 + 1 / 2 ^ 23, headerText ⟨[⟨.fin 0, .fin 0, .fin 0⟩], [], [], [], true⟩ ++ line "1 0 0", ?_⟩
  decide +kernel

/-- When the disk is full, success is reported although the file cannot be read. -/
theorem C77_full_disk_violated : ∃ (d : Disk) (m : Mesh) (t : List Char), outputMeshAsPly d m = .ok (true, some t) ∧ readPly t = none ∧
    ∃ t', outputMeshAsPly plain m = .ok (true, some t') ∧ (readPly t').isSome := by
  refine ⟨⟨true, some 400⟩, sample, _, rfl, ?_, _, rfl, ?_⟩ <;> decide +kernel

/-- Indices that a signed 32-bit number cannot hold are written although the header declares such numbers. -/
theorem C77_large_index_violated : ∃ (m : Mesh) (t : List Char), 3 ∣ m.indices.length ∧ (∀ i ∈ m.indices, i < 2 ^ 64) ∧
    outputMeshAsPly plain m = .ok (true, some t) ∧ readPly t = none := by
  refine ⟨⟨[], [0, 1, 2 ^ 31], [], [], true⟩, _, by decide, by decide, rfl, by decide +kernel⟩

end Vox.Ply
