/-
Lemmas about the evaluation program.
-/
import Verif.Spec.EvalProgram
import Verif.Lemmas.Visualizer
import Verif.Lemmas.EsdfServer
import Verif.Lemmas.MeshMarker
import Verif.Props.EvalCloud
import Verif.Lemmas.Rigid

namespace Vox.EvalProgram

open Layer Grid MC MeshInt Spec Vox.IO ServerMesh Export EvalCloud Interp

/-! ### The transformation -/

theorem toV_inMap {p : Params} (hT : ∀ T, p.tVG = some T → Orthonormal T) (x : Pt) : InMap p x (p.toV x) := by
  unfold InMap Params.toV
  cases hp : p.tVG with
  | none => rfl
  | some T =>
    cases p.invert with
    | false => rfl
    | true => exact RigidT.apply_unapply (hT T hp) x

/-! ### Repainting -/

theorem paint_once {l l' : VLayer (TsdfVoxel ℚ)} {x : Pt} {d : ℚ} (h : paint l x d = .ok l') (n : EsdfServer.Once l) : EsdfServer.Once l' := by
  unfold paint at h
  obtain ⟨i, -, h⟩ := Outcome.bind_eq_ok.1 h
  split at h
  · obtain rfl := Outcome.ok.inj h
    exact n
  · obtain ⟨v, -, h⟩ := Outcome.bind_eq_ok.1 h
    obtain ⟨y, -, h⟩ := Outcome.bind_eq_ok.1 h
    obtain ⟨c, -, h⟩ := Outcome.bind_eq_ok.1 h
    exact EsdfServer.writeVoxel_once h n

theorem evaluate_once {paints : Bool} {toV : Pt → Pt} {l : VLayer (TsdfVoxel ℚ)} {cloud : List Pt} {r : Stats × Option ℚ × VLayer (TsdfVoxel ℚ)}
    (h : evaluate paints toV l cloud = .ok r) (n : EsdfServer.Once l) : EsdfServer.Once r.2.2 := by
  unfold evaluate at h
  obtain ⟨s, h1, h⟩ := Outcome.bind_eq_ok.1 h
  obtain rfl := Outcome.ok.inj h
  refine EsdfServer.foldlM_keep (P := fun s : Stats × VLayer (TsdfVoxel ℚ) => EsdfServer.Once s.2) _ ?_ h1 n
  intro x _ s s' hs hn
  unfold evalPoint at hs
  obtain ⟨j, -, hs⟩ := Outcome.bind_eq_ok.1 hs
  obtain ⟨k, hk, hs⟩ := Outcome.bind_eq_ok.1 hs
  obtain rfl := Outcome.ok.inj hs
  unfold recolor at hk
  split at hk
  · obtain rfl := Outcome.ok.inj hk
    exact hn
  · split_ifs at hk
    · exact paint_once hk hn
    · obtain rfl := Outcome.ok.inj hk
      exact hn

theorem fns_sdf (w : ℚ) : (tsdfFns w).sdf = heavyDistance w := by
  funext v
  unfold tsdfFns heavyDistance
  dsimp only
  by_cases h : w < v.weight
  · rw [if_neg (not_le.2 h), if_pos h]
  · rw [if_pos (not_lt.1 h), if_neg h]

theorem same_sdfAt {l l' : VLayer (TsdfVoxel ℚ)} (h : SameField l l') (w : ℚ) (g : Idx) : sdfAt l' (heavyDistance w) g = sdfAt l (heavyDistance w) g := by
  have := h.2.2 g
  unfold sdfAt
  cases h1 : content l' g <;> cases h2 : content l g <;> rw [h1, h2] at this <;> simp_all [heavyDistance]

theorem same_surface {l l' : VLayer (TsdfVoxel ℚ)} (h : SameField l l') (w : ℚ) (cs : List Idx) :
    surfaceIn l' (heavyDistance w) cs = surfaceIn l (heavyDistance w) cs := by
  have e : sdfAt l' (heavyDistance w) = sdfAt l (heavyDistance w) := funext (same_sdfAt h w)
  have f : fieldOf l' (heavyDistance w) = fieldOf l (heavyDistance w) := by unfold fieldOf; rw [e]
  unfold surfaceIn layerTriangles surfacePoint CubeObserved negAt
  rw [e, f, h.1]

theorem same_cubes {l l' : VLayer (TsdfVoxel ℚ)} (h : SameField l l') {cs : List Idx} (hc : EachCubeOnce l' cs) : EachCubeOnce l cs := by
  refine ⟨hc.1, fun c => ?_⟩
  rw [hc.2]
  have := congrArg Option.isSome (h.2.2 c)
  rw [Option.isSome_map, Option.isSome_map] at this
  rw [this]

theorem same_sound {l l' : VLayer (TsdfVoxel ℚ)} (h : SameField l l') (hm : MapSound l) (wf : WellFormed l') (n : EsdfServer.Once l') : MapSound l' := by
  refine ⟨wf, n, fun i hi => ?_⟩
  have := congrArg Option.isSome (h.2.1 i)
  unfold status at this
  rw [Option.isSome_map, Option.isSome_map] at this
  have := hm.range i (this.symm.trans hi)
  unfold BlockInRange at this ⊢
  rw [h.1]
  exact this

/-! ### The marker -/

theorem foldMarker_points {mode : MeshMsg.ColorMode} {m : Mesh} : ∀ (ks : List ℕ) (mk mk' : MeshMsg.Marker), (∀ k ∈ ks, k < m.vertices.length) →
    ks.foldlM (MeshMsg.markerVertex mode m) mk = .ok mk' → mk'.points = mk.points ++ ks.filterMap fun k => m.vertices[k]?
  | [], mk, mk', _, h => by
    obtain rfl := Outcome.ok.inj h
    simp
  | k :: ks, mk, mk', hk, h => by
    rw [List.foldlM_cons] at h
    obtain ⟨a, h1, h2⟩ := Outcome.bind_eq_ok.1 h
    rw [foldMarker_points ks a mk' (fun j hj => hk j (List.mem_cons_of_mem _ hj)) h2]
    unfold MeshMsg.markerVertex MeshOps.at_ at h1
    have hlt := hk k List.mem_cons_self
    rw [List.getElem?_eq_getElem hlt] at h1
    obtain ⟨v, hv, h1⟩ := Outcome.bind_eq_ok.1 h1
    obtain rfl := Outcome.ok.inj hv
    obtain ⟨c, -, h1⟩ := Outcome.bind_eq_ok.1 h1
    obtain ⟨b, -, h1⟩ := Outcome.bind_eq_ok.1 h1
    obtain rfl := Outcome.ok.inj h1
    rw [List.filterMap_cons, List.getElem?_eq_getElem hlt]
    simp

/-- A marker of a mesh layer gets the vertices of its meshes. -/
theorem fillMarker_points {mode : MeshMsg.ColorMode} : ∀ (ml : MeshMap) (mk mk' : MeshMsg.Marker), MeshMsg.fillMarker mode ml mk = .ok mk' →
    mk'.points = mk.points ++ (ml.map (·.2)).flatMap (·.vertices)
  | [], mk, mk', h => by
    obtain rfl := Outcome.ok.inj h
    simp
  | e :: ml, mk, mk', h => by
    unfold MeshMsg.fillMarker at h
    rw [List.foldlM_cons] at h
    obtain ⟨a, h1, h2⟩ := Outcome.bind_eq_ok.1 h
    rw [fillMarker_points ml a mk' h2, List.map_cons, List.flatMap_cons]
    unfold MeshMsg.addMesh at h1
    split_ifs at h1 with hv
    · obtain rfl := Outcome.ok.inj h1
      rw [List.isEmpty_iff.1 hv, List.nil_append]
    · obtain ⟨-, -, h1⟩ := Outcome.bind_eq_ok.1 h1
      rw [foldMarker_points _ _ _ (fun k hk => List.mem_range.1 hk) h1, Visualizer.range_points, List.append_assoc]

/-! ### The display -/

theorem mesh_ok (E : Export.Env) {l : VLayer (TsdfVoxel ℚ)} (hm : MapSound l) :
    ∃ l' ml, generateMesh E.sq true (tsdfFns Visualizer.meshMinWeight) true false true (l, []) = .ok (l', ml) ∧ MeshKeys ml ∧
      ∀ j, ml.lookup j = if j ∈ l.blocks.map (·.1) then some (blockMesh E.sq true l (tsdfFns Visualizer.meshMinWeight) j) else none := by
  obtain ⟨l1, ml1, e1, -, e3, -⟩ := generateMesh_ok E.sq true (tsdfFns Visualizer.meshMinWeight) true false true hm.wf hm.nodup hm.range (by simp) []
  exact ⟨l1, ml1, e1, generate_keys (by unfold MeshKeys; simp) e1, e3⟩

theorem visualize_shows {E : Export.Env} (hE : AnyOrder E.iter) {p : Params} {l : VLayer (TsdfVoxel ℚ)} (hm : MapSound l) {cloud : List Pt} {s : Display}
    (h : visualize E p l cloud = .ok s) : s.frame = p.frame ∧ s.cloud = cloud ∧
      ∃ cs, EachCubeOnce l cs ∧ s.marker.points = (surfaceIn l (heavyDistance Visualizer.meshMinWeight) cs).map fun q => q.map .fin := by
  obtain ⟨l', ml, e1, hk, e3⟩ := mesh_ok E hm
  unfold visualize at h
  rw [e1, Outcome.bind_ok] at h
  obtain ⟨mk, h2, h⟩ := Outcome.bind_eq_ok.1 h
  obtain rfl := Outcome.ok.inj h
  refine ⟨rfl, rfl, ?_⟩
  have hsh : ∀ i, shownMesh ml i = if i ∈ l.blocks.map (·.1) then
      { blockMesh E.sq true l (tsdfFns Visualizer.meshMinWeight) i with updated := false } else Mesh.empty := by
    intro i
    have := e3 i
    split_ifs at this ⊢ with hi
    · exact shown_of this
    · exact shown_none this
  obtain ⟨cs, c1, -, c3⟩ := shown_surface hm hk hsh (hE ml)
  refine ⟨cs, c1, ?_⟩
  have := fillMarker_points _ _ _ h2
  dsimp only at this ⊢
  rw [this, c3, fns_sdf, List.nil_append]

theorem blockMesh_markable {mode : MeshMsg.ColorMode} (hmode : mode = .color ∨ mode = .height ∨ mode = .gray) (sq : ℚ → Fl) (l : VLayer (TsdfVoxel ℚ))
    (fns : VoxelFns (TsdfVoxel ℚ)) (i : Idx) : Markable mode (blockMesh sq true l fns i) := by
  refine ⟨fun _ v hv => ?_, fun _ => ?_, fun h => ?_⟩
  · obtain ⟨e, -, rfl⟩ := List.mem_map.1 hv
    exact ⟨_, rfl⟩
  · rw [(Export.blockMesh_soup sq true l fns i).colors]
    simp
  · rcases hmode with rfl | rfl | rfl <;> simp at h

theorem visualize_ok {E : Export.Env} (hE : AnyOrder E.iter) {p : Params}
    (hmode : colorModeOf p.colorMode = .color ∨ colorModeOf p.colorMode = .height ∨ colorModeOf p.colorMode = .gray)
    {l : VLayer (TsdfVoxel ℚ)} (hm : MapSound l) (cloud : List Pt) : ∃ s, visualize E p l cloud = .ok s := by
  obtain ⟨l', ml, e1, hk, e3⟩ := mesh_ok E hm
  obtain ⟨cs, h1, -⟩ := MeshMsg.fillMarker_ok (mode := colorModeOf p.colorMode) (ml := E.iter ml) (by
    rintro ⟨i, m⟩ he
    have := (Layer.lookup_mem_iff hk).2 ((hE ml).mem_iff.1 he)
    rw [e3] at this
    split_ifs at this
    obtain rfl := Option.some.inj this
    exact blockMesh_markable hmode _ _ _ _) ⟨[], []⟩
  unfold visualize
  rw [e1, Outcome.bind_ok]
  dsimp only
  rw [h1, Outcome.bind_ok]
  exact ⟨_, rfl⟩

/-! ### Files -/

theorem layerOfFile_lookup (l : FLayer (TsdfVoxel Word)) (i : Idx) :
    block? (layerOfFile l) i = (l.blocks.lookup i).map blockOfFile := by
  unfold block? layerOfFile
  dsimp only
  induction l.blocks with
  | nil => rfl
  | cons e bs ih =>
    rw [List.map_cons, List.lookup_cons, List.lookup_cons]
    cases i == e.1
    · exact ih
    · rfl

theorem restricted_block {l l' : FLayer (TsdfVoxel Word)} (h : Props.IsRestriction (fun _ => True) l l') (i : Idx) :
    block? (layerOfFile l') i = (block? (layerOfFile l) i).map fun b => { b with updated := Flags.setAll } := by
  rw [layerOfFile_lookup, layerOfFile_lookup, h.2.2.2 i, if_pos trivial]
  cases l.blocks.lookup i <;> rfl

theorem restricted_content {l l' : FLayer (TsdfVoxel Word)} (h : Props.IsRestriction (fun _ => True) l l') (g : Idx) :
    (layerOfFile l').cfg = (layerOfFile l).cfg ∧ content (layerOfFile l') g = content (layerOfFile l) g := by
  have hc : (layerOfFile l').cfg = (layerOfFile l).cfg := by
    unfold layerOfFile
    rw [h.1, h.2.1]
  refine ⟨hc, ?_⟩
  unfold content
  rw [hc]
  have := restricted_block h (g.map (· / ((layerOfFile l).cfg.vps : ℤ)))
  unfold block? at this
  rw [this]
  cases (layerOfFile l).blocks.lookup (g.map (· / ((layerOfFile l).cfg.vps : ℤ))) <;> rfl

theorem restricted_sound {l l' : FLayer (TsdfVoxel Word)} (h : Props.IsRestriction (fun _ => True) l l') (hm : MapSound (layerOfFile l)) :
    MapSound (layerOfFile l') := by
  have hc := (restricted_content h ⟨0, 0, 0⟩).1
  refine ⟨⟨by rw [hc]; exact hm.wf.size_pos, by rw [hc]; exact hm.wf.side_pos, by rw [hc]; exact hm.wf.side_le, ?_⟩, ?_, ?_⟩
  · intro i b hb
    have := restricted_block h i
    unfold block? at this
    rw [this] at hb
    cases h0 : (layerOfFile l).blocks.lookup i with
    | none => rw [h0] at hb; cases hb
    | some b0 =>
      rw [h0] at hb
      obtain rfl := Option.some.inj hb
      rw [hc]
      exact hm.wf.block i b0 h0
  · have e : (layerOfFile l').blocks.map (·.1) = l'.blocks.map (·.1) := by
      unfold layerOfFile
      rw [List.map_map]
      rfl
    rw [e]
    exact h.2.2.1
  · intro i hi
    unfold BlockInRange
    rw [hc]
    refine hm.range i ?_
    rw [restricted_block h, Option.isSome_map] at hi
    exact hi

theorem restricted_readable {l l' : FLayer (TsdfVoxel Word)} (h : Props.IsRestriction (fun _ => True) l l') (hr : readable l = true) : readable l' = true := by
  unfold readable at hr ⊢
  rw [Bool.and_eq_true, List.all_eq_true] at hr ⊢
  refine ⟨Visualizer.restricted_readable h hr.1, ?_⟩
  rintro ⟨i, b⟩ he
  have hl := (Layer.lookup_mem_iff h.2.2.1).2 he
  rw [h.2.2.2 i, if_pos trivial] at hl
  cases h0 : l.blocks.lookup i with
  | none => rw [h0] at hl; cases hl
  | some b0 =>
    rw [h0] at hl
    obtain rfl := Option.some.inj hl
    exact hr.2 (i, b0) (mem_keys_of_lookup h0)

end Vox.EvalProgram
