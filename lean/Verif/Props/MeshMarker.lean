/-
C104: markers and point clouds of a mesh layer.
-/
import Verif.Lemmas.MeshMarker
import Verif.Lemmas.HeightColor

namespace Vox.Props

open MC MeshInt Spec Ieee MeshMsg

/-! Data for the examples: two triangles of block 0, one of block 1, an empty mesh. -/

private def exV (x y z : ℚ) : Vec3 Fl := ⟨.fin x, .fin y, .fin z⟩

private def exUp : Vec3 Fl := exV 0 0 1

private def exTwo : Mesh :=
  ⟨[exV 0 0 0, exV 1 0 0, exV 0 1 0, exV 1 0 0, exV 1 1 0, exV 0 1 0], List.range 6, List.replicate 6 exUp, List.replicate 6 ⟨10, 20, 30, 255⟩, true⟩

private def exOne : Mesh := ⟨[exV 2 0 0, exV 3 0 0, exV 2 1 1], List.range 3, List.replicate 3 exUp, List.replicate 3 ⟨200, 100, 0, 128⟩, false⟩

private def exLayer : MeshMap := [(⟨0, 0, 0⟩, exTwo), (⟨5, 0, 0⟩, Mesh.empty), (⟨1, 0, 0⟩, exOne)]

private theorem up_near : NearUnit exUp := ⟨⟨0, 0, 1⟩, rfl, by norm_num, by norm_num, by norm_num⟩

private theorem ex_markable (mode : ColorMode) : ∀ e ∈ exLayer, Markable mode e.2 := by
  intro e he
  simp only [exLayer, List.mem_cons, List.not_mem_nil, or_false] at he
  have rep : ∀ (k : ℕ) n, n ∈ List.replicate k exUp → NearUnit n := fun k n h => by rw [List.eq_of_mem_replicate h]; exact up_near
  rcases he with rfl | rfl | rfl
  · refine ⟨fun _ v hv => ?_, fun _ => by decide, fun _ => ⟨by decide, rep 6⟩⟩
    simp [exTwo, exV] at hv
    rcases hv with rfl | rfl | rfl | rfl | rfl | rfl <;> exact ⟨_, rfl⟩
  · exact ⟨fun _ v hv => absurd hv (by simp [Mesh.empty]), fun _ => by decide, fun _ => ⟨by decide, fun n hn => absurd hn (by simp [Mesh.empty])⟩⟩
  · refine ⟨fun _ v hv => ?_, fun _ => by decide, fun _ => ⟨by decide, rep 3⟩⟩
    simp [exOne, exV] at hv
    rcases hv with rfl | rfl | rfl <;> exact ⟨_, rfl⟩

/-- **C104**, markers: if the meshes have what the colour mode reads, no check fails, nothing is read out of bounds, and the marker gets the
vertices of all meshes, mesh by mesh and in order, behind what it held, each with a colour and alpha that its mode allows (`Tint`). -/
theorem C104_marker {mode : ColorMode} {ml : MeshMap} (h : ∀ e ∈ ml, Markable mode e.2) (mk : Marker) : ∃ mk',
    fillMarker mode ml mk = .ok mk' ∧ mk'.points = mk.points ++ ml.flatMap (·.2.vertices) ∧
      ∃ cs, mk'.colors = mk.colors ++ cs ∧ List.Forall₂ (fun p c => Tint p.1 p.2 c mode) (cornersOf ml) cs := by
  obtain ⟨cs, h1, h2⟩ := fillMarker_ok h mk
  exact ⟨_, h1, rfl, cs, rfl, h2⟩

example : (∀ e ∈ exLayer, Markable .color e.2) ∧ (∀ e ∈ exLayer, Markable .normals e.2) ∧ (∀ e ∈ exLayer, Markable .lambertColor e.2) ∧
    (fillMarker .gray exLayer ⟨[], []⟩).bind (fun mk => .ok (mk.points.length, mk.colors.length)) = .ok (9, 9) :=
  ⟨ex_markable _, ex_markable _, ex_markable _, by decide +kernel⟩

/-- **C104**, number of entries: a marker that had as many colours as points has so afterwards. -/
theorem C104_balanced {mode : ColorMode} {ml : MeshMap} (h : ∀ e ∈ ml, Markable mode e.2) {mk mk' : Marker}
    (hb : mk.points.length = mk.colors.length) (hf : fillMarker mode ml mk = .ok mk') : mk'.points.length = mk'.colors.length := by
  obtain ⟨cs, h1, h2⟩ := fillMarker_ok h mk
  obtain rfl := Outcome.ok.inj (h1.symm.trans hf)
  have e := h2.length_eq
  have l : (cornersOf ml).length = (ml.flatMap (·.2.vertices)).length := by simp [cornersOf, List.length_flatMap]
  simp only [List.length_append]
  omega

example : ∃ mk', fillMarker .lambert exLayer ⟨[], []⟩ = .ok mk' ∧ mk'.points.length = 9 := by
  obtain ⟨mk', h1, h2, -⟩ := C104_marker (ex_markable .lambert) ⟨[], []⟩
  exact ⟨mk', h1, by rw [h2]; decide⟩

/-- **C104**, triangles: a marker is drawn as a list of triangles, three points each. Filled from meshes as block meshing makes them, an
empty marker shows exactly the triangles of the layer. -/
theorem C104_triangles {colored : Bool} {mode : ColorMode} {ml : MeshMap} (h : ∀ e ∈ ml, Markable mode e.2)
    (hs : ∀ e ∈ ml, TriangleSoup colored e.2) : ∃ mk, fillMarker mode ml ⟨[], []⟩ = .ok mk ∧ triples (mk.points.map some) = facesOf ml := by
  obtain ⟨mk, h1, h2, -⟩ := C104_marker h ⟨[], []⟩
  exact ⟨mk, h1, by rw [h2, List.nil_append]; exact faces_triples hs⟩

example : (∀ e ∈ exLayer, TriangleSoup true e.2) ∧ (facesOf exLayer).length = 3 := by
  refine ⟨fun e he => ?_, by decide +kernel⟩
  simp only [exLayer, List.mem_cons, List.not_mem_nil, or_false] at he
  rcases he with rfl | rfl | rfl <;> exact ⟨by decide, by decide, by decide, by decide⟩

/-- **C104**, point clouds: the cloud, whatever it held, has the vertices of all meshes in order, each converted colour is defined, and in
colour mode the bytes are those of the mesh. -/
theorem C104_cloud {mode : ColorMode} {ml : MeshMap} (h : ∀ e ∈ ml, Markable mode e.2) (old : RgbCloud) : ∃ cl,
    fillCloud mode ml old = .ok cl ∧ cl.map (·.1) = ml.flatMap (·.2.vertices) ∧
      (mode = .color → List.Forall₂ (fun p c => ∃ o, p.1.colors[p.2]? = some o ∧ c = ⟨o.r, o.g, o.b⟩) (cornersOf ml) (cl.map (·.2))) := by
  obtain ⟨cs, h1, h2, h3⟩ := fillCloud_ok h []
  refine ⟨_, h1, ?_, fun hc => ?_⟩
  · rw [List.nil_append, List.map_fst_zip (by omega)]
  · rw [List.nil_append, List.map_snd_zip (by omega)]
    exact h3 hc

example : (fillCloud .color exLayer [(exV 9 9 9, ⟨1, 1, 1⟩)]).bind (fun cl => .ok (cl.map (·.2))) =
    .ok (List.replicate 6 ⟨10, 20, 30⟩ ++ List.replicate 3 ⟨200, 100, 0⟩) := by decide +kernel

/-- **C104**, refusal: a mesh with vertices but without any of the colours or normals that the mode reads aborts the program, for markers and for
clouds, wherever it is in the layer. -/
theorem C104_refused {mode : ColorMode} {ml rest : MeshMap} {e : Idx × Mesh} (h : ∀ e ∈ ml, Markable mode e.2) (hv : e.2.vertices ≠ [])
    (hm : (mode = .color ∨ mode = .lambertColor) ∧ e.2.colors = [] ∨ (mode = .normals ∨ mode = .lambert ∨ mode = .lambertColor) ∧ e.2.normals = [])
    (mk : Marker) (old : RgbCloud) : fillMarker mode (ml ++ e :: rest) mk = .fatal ∧ fillCloud mode (ml ++ e :: rest) old = .fatal := by
  have hf : canColor mode e.2 = .fatal := by
    unfold canColor Outcome.check
    rcases hm with ⟨rfl | rfl, hq⟩ | ⟨rfl | rfl | rfl, hq⟩
    · rw [hq]; rfl
    · rw [hq]; rfl
    · rw [hq]; rfl
    · rw [hq]; rfl
    · rw [hq]
      cases e.2.colors <;> rfl
  have ha : ∀ {α : Type} (add : Mesh → α → ℕ → Outcome α) (acc : α), addMesh mode add acc e.2 = .fatal := by
    intro α add acc
    unfold addMesh
    rw [if_neg (by simpa using hv), hf]
    rfl
  constructor
  · obtain ⟨cs, h1, -⟩ := fillMarker_ok h mk
    unfold fillMarker at h1 ⊢
    rw [List.foldlM_append, h1, Outcome.bind_ok, List.foldlM_cons, ha]
    rfl
  · obtain ⟨cs, h1, -⟩ := fillCloud_ok h []
    unfold fillCloud
    rw [List.foldlM_append, h1, Outcome.bind_ok, List.foldlM_cons, ha]
    rfl

example : (∀ e ∈ exLayer, Markable .lambertColor e.2) ∧
    fillMarker .lambertColor (exLayer ++ [(⟨7, 0, 0⟩, { exOne with colors := [] })]) ⟨[], []⟩ = .fatal ∧
    fillCloud .lambert [(⟨7, 0, 0⟩, { exOne with normals := [] })] [] = .fatal := ⟨ex_markable _, by decide +kernel, by decide +kernel⟩

/-- **C104 fails for meshes with fewer colours than vertices**: the check asks only for some colour; the second vertex is read out of
bounds. -/
theorem C104_colors_violated : fillMarker .color [(⟨0, 0, 0⟩, { exTwo with colors := [⟨1, 2, 3, 255⟩] })] ⟨[], []⟩ = .ub ∧
    fillCloud .lambert [(⟨0, 0, 0⟩, { exTwo with normals := [exUp] })] [] = .ub := by decide +kernel

/-- **C104 fails for a marker that is used again**: it shows every triangle twice, and those of removed meshes still. -/
theorem C104_reused_violated : ∃ mk, fillMarker .gray [(⟨1, 0, 0⟩, exOne)] ⟨[], []⟩ = .ok mk ∧
    ∃ mk', fillMarker .gray [] mk = .ok mk' ∧ triples (mk'.points.map some) ≠ facesOf [] := by
  refine ⟨⟨exOne.vertices, List.replicate 3 (⟨.fin (1 / 2), .fin (1 / 2), .fin (1 / 2)⟩, .fin 1)⟩, by decide +kernel, _, rfl, by decide +kernel⟩

/-- **C104 fails for meshes with shared vertices**, as connecting makes them: the indices are ignored. A square of two triangles and four
vertices shows one triangle. -/
theorem C104_shared_violated : ∃ m : Mesh, ValidIndices m ∧ (facesOf [(⟨0, 0, 0⟩, m)]).length = 2 ∧
    ∃ mk, fillMarker .gray [(⟨0, 0, 0⟩, m)] ⟨[], []⟩ = .ok mk ∧ (triples (mk.points.map some)).length = 1 := by
  refine ⟨⟨[exV 0 0 0, exV 1 0 0, exV 0 1 0, exV 1 1 0], [0, 1, 2, 1, 3, 2], [], [], true⟩, ⟨by decide, by decide⟩, by decide +kernel,
    ⟨[exV 0 0 0, exV 1 0 0, exV 0 1 0, exV 1 1 0], List.replicate 4 (⟨.fin (1 / 2), .fin (1 / 2), .fin (1 / 2)⟩, .fin 1)⟩, by decide +kernel,
    by decide +kernel⟩

/-! ## Heights -/

/-- **C69**, rainbow in `double`: the colour of every input is within a little more than one count of the hue of its fractional part. -/
theorem C69_rainbow_double (h : ℚ) : ∃ c, ColorMap.rainbow rnd64 h = .ok c ∧ c.a = 255 ∧ |(c.r.toNat : ℚ) - 255 * hueRed (h - ⌊h⌋)| ≤ 1 + 1 / 2 ^ 20 ∧
    |(c.g.toNat : ℚ) - 255 * hueGreen (h - ⌊h⌋)| ≤ 1 + 1 / 2 ^ 20 ∧ |(c.b.toNat : ℚ) - 255 * hueBlue (h - ⌊h⌋)| ≤ 1 + 1 / 2 ^ 20 :=
  rainbow_double h

example : ColorMap.rainbow rnd64 (-3 / 10) = .ok ⟨50, 0, 255, 255⟩ ∧ 255 * hueRed (-3 / 10 - ⌊(-3 / 10 : ℚ)⌋) = 51 := by decide +kernel

/-- **C104**, heights: between -1 m and 10 m the colour is within a little more than one count of the hue of the place in this range. Full
claim: different heights have different colours; see `C104_height_violated`. -/
theorem C104_height_partial {z : ℚ} (h0 : -1 ≤ z) (h1 : z ≤ 10) : ∃ c, heightColor (.fin z) = .ok (colorToMsg c) ∧
    |(c.r.toNat : ℚ) - 255 * hueRed ((z + 1) / 11)| ≤ 1 + 1 / 2 ^ 12 ∧ |(c.g.toNat : ℚ) - 255 * hueGreen ((z + 1) / 11)| ≤ 1 + 1 / 2 ^ 12 ∧
    |(c.b.toNat : ℚ) - 255 * hueBlue ((z + 1) / 11)| ≤ 1 + 1 / 2 ^ 12 :=
  heightColor_between h0 h1

example : heightColor (.fin 2) = .ok (colorToMsg ⟨92, 255, 0, 255⟩) ∧ heightColor (.fin (9 / 2)) = .ok (colorToMsg ⟨0, 255, 255, 255⟩) := by decide +kernel

/-- **C104**, heights told apart: two heights from -1 m to 10 m that differ by 3 cm, and by 3 cm less than the whole range, have different
colours. -/
theorem C104_height_distinct {z z' : ℚ} (h0 : -1 ≤ z) (h1 : z' ≤ 10) (hd : 3 / 100 ≤ z' - z) (hu : z' - z ≤ 11 - 3 / 100) :
    heightColor (.fin z) ≠ heightColor (.fin z') := by
  obtain ⟨c, e, r, g, b⟩ := heightColor_between (z := z) h0 (by linarith)
  obtain ⟨c', e', r', g', b'⟩ := heightColor_between (z := z') (by linarith) h1
  intro h
  rw [e, e'] at h
  have h := Outcome.ok.inj h
  have inj : ∀ {x y : BitVec 8}, channelToMsg x = channelToMsg y → x = y := by
    intro x y hxy
    have := channel_msg x
    rw [hxy, channel_msg y] at this
    exact (Outcome.ok.inj this).symm
  have hr : c.r = c'.r := inj (congrArg Vec3.x h)
  have hg : c.g = c'.g := inj (congrArg Vec3.y h)
  have hb : c.b = c'.b := inj (congrArg Vec3.z h)
  rw [hr] at r
  rw [hg] at g
  rw [hb] at b
  have close : ∀ {n T T' : ℚ}, |n - 255 * T| ≤ 1 + 1 / 2 ^ 12 → |n - 255 * T'| ≤ 1 + 1 / 2 ^ 12 → |T - T'| < 3 * (3 / 1100) := by
    intro n T T' a a'
    have a := abs_le.1 a
    have a' := abs_le.1 a'
    refine abs_lt.2 ⟨?_, ?_⟩ <;> · norm_num at a a' ⊢; linarith
  rcases ColorMap.hue_inj (x := (z + 1) / 11) (y := (z' + 1) / 11) (d := 3 / 1100) (by norm_num) (by linarith) (by linarith) (by linarith)
    (close r r') (close g g') (close b b') with k | k <;> linarith

example : (-1 : ℚ) ≤ 1 / 2 ∧ (53 / 100 : ℚ) ≤ 10 ∧ (3 / 100 : ℚ) ≤ 53 / 100 - 1 / 2 ∧ (53 / 100 : ℚ) - 1 / 2 ≤ 11 - 3 / 100 := by norm_num

/-- **C104 fails for heights at the ends of the range and outside it**: the map wraps, so that everything at 10 m or higher and everything at
-1 m or lower has the same colour. -/
theorem C104_height_violated {z z' : ℚ} (h : 10 ≤ z) (h' : z' ≤ -1) : heightColor (.fin z) = .ok (colorToMsg ⟨255, 0, 0, 255⟩) ∧
    heightColor (.fin z') = .ok (colorToMsg ⟨255, 0, 0, 255⟩) := ⟨heightColor_above h, heightColor_below h'⟩

example : heightColor (.fin 10) = heightColor (.fin (-1)) ∧ heightColor (.fin (2 ^ 100)) = heightColor (.fin (-3)) ∧
    heightColor (.fin 10) ≠ heightColor (.fin 0) := by decide +kernel

end Vox.Props
