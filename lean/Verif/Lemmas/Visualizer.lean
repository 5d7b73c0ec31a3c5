/-
Lemmas about the TSDF visualizer.
-/
import Verif.Spec.Visualizer
import Verif.Lemmas.ServerMesh
import Verif.Lemmas.MeshSync
import Verif.Lemmas.RoundError
import Verif.Lemmas.IndexFloat
import Verif.Props.PtCloud
import Verif.Props.LayerIO

namespace Vox.Visualizer

open Layer Grid MC MeshInt Ieee Spec Vox.IO ServerMesh Export

/-! ### The coloured cloud -/

theorem foldCloud_points {mode : MeshMsg.ColorMode} {m : Mesh} : ∀ (ks : List ℕ) (acc cl : MeshMsg.RgbCloud), (∀ k ∈ ks, k < m.vertices.length) →
    ks.foldlM (MeshMsg.cloudVertex mode m) acc = .ok cl → cl.map (·.1) = acc.map (·.1) ++ ks.filterMap fun k => m.vertices[k]?
  | [], acc, cl, _, h => by
    obtain rfl := Outcome.ok.inj h
    simp
  | k :: ks, acc, cl, hk, h => by
    rw [List.foldlM_cons] at h
    obtain ⟨a, h1, h2⟩ := Outcome.bind_eq_ok.1 h
    rw [foldCloud_points ks a cl (fun j hj => hk j (List.mem_cons_of_mem _ hj)) h2]
    unfold MeshMsg.cloudVertex MeshOps.at_ at h1
    have hlt := hk k List.mem_cons_self
    rw [List.getElem?_eq_getElem hlt] at h1
    obtain ⟨v, hv, h1⟩ := Outcome.bind_eq_ok.1 h1
    obtain rfl := Outcome.ok.inj hv
    obtain ⟨c, -, h1⟩ := Outcome.bind_eq_ok.1 h1
    obtain ⟨r, -, h1⟩ := Outcome.bind_eq_ok.1 h1
    obtain ⟨g, -, h1⟩ := Outcome.bind_eq_ok.1 h1
    obtain ⟨b, -, h1⟩ := Outcome.bind_eq_ok.1 h1
    obtain rfl := Outcome.ok.inj h1
    rw [List.filterMap_cons, List.getElem?_eq_getElem hlt]
    simp

theorem range_points {α : Type} (l : List α) : (List.range l.length).filterMap (fun k => l[k]?) = l := by
  induction l with
  | nil => rfl
  | cons a l ih =>
    rw [List.length_cons, List.range_succ_eq_map, List.filterMap_cons, List.filterMap_map]
    simp only [List.getElem?_cons_zero]
    congr 1

/-- A cloud of a mesh layer has the vertices of its meshes. -/
theorem fillCloud_points {mode : MeshMsg.ColorMode} : ∀ (ml : MeshMap) (acc cl : MeshMsg.RgbCloud),
    ml.foldlM (fun acc e => MeshMsg.addMesh mode (MeshMsg.cloudVertex mode) acc e.2) acc = .ok cl →
    cl.map (·.1) = acc.map (·.1) ++ (ml.map (·.2)).flatMap (·.vertices)
  | [], acc, cl, h => by
    obtain rfl := Outcome.ok.inj h
    simp
  | e :: ml, acc, cl, h => by
    rw [List.foldlM_cons] at h
    obtain ⟨a, h1, h2⟩ := Outcome.bind_eq_ok.1 h
    rw [fillCloud_points ml a cl h2, List.map_cons, List.flatMap_cons]
    unfold MeshMsg.addMesh at h1
    split_ifs at h1 with hv
    · obtain rfl := Outcome.ok.inj h1
      rw [List.isEmpty_iff.1 hv, List.nil_append]
    · obtain ⟨-, -, h1⟩ := Outcome.bind_eq_ok.1 h1
      rw [foldCloud_points _ _ _ (fun k hk => List.mem_range.1 hk) h1, range_points, List.append_assoc]

/-! ### The meshes -/

theorem flFns_sdf (w : ℚ) : (flFns w).sdf = meshDistance w := by
  funext v
  obtain ⟨d, w', c⟩ := v
  cases w' <;> cases d <;> simp only [flFns, meshDistance, finite, Option.bind_some, Option.bind_none, ite_self]
  split_ifs with h1 h2 h2
  · exact absurd h1 (not_le.2 h2)
  · rfl
  · rfl
  · exact absurd (not_le.1 h1) h2

theorem meshes_ok {env : Env} {mode : MeshMsg.ColorMode} {l : VLayer (TsdfVoxel Fl)} (hE : AnyOrder env.E.iter) (hm : MapSound l)
    {msg : MeshMsg.Msg} {cl : MeshMsg.RgbCloud} {ml : MeshMap} (h : meshes env mode l = .ok (msg, cl, ml)) :
    (∃ M : Idx → Mesh, (∀ i, ShowsBlock true (meshDistance meshMinWeight) l i (M i)) ∧ DisplayShows env mode msg M) ∧
    (∃ cs, EachCubeOnce l cs ∧ cl.map (·.1) = (surfaceIn l (meshDistance meshMinWeight) cs).map fun p => p.map .fin) ∧
    (∀ e ∈ ml, TriangleSoup true e.2) ∧ ∃ cs, EachCubeOnce l cs ∧ cs.length = l.blocks.length * l.cfg.vps ^ 3 ∧
      ((env.E.iter ml).map (·.2)).flatMap (·.vertices) = (surfaceIn l (meshDistance meshMinWeight) cs).map fun p => p.map .fin := by
  unfold meshes at h
  obtain ⟨l1, ml1, e1, -, e3, -⟩ := generateMesh_ok env.E.sq true (flFns meshMinWeight) false false false hm.wf hm.nodup hm.range (by simp) []
  rw [e1, Outcome.bind_ok] at h
  obtain ⟨⟨msg', ml2⟩, h2, h⟩ := Outcome.bind_eq_ok.1 h
  obtain ⟨cl', h3, h⟩ := Outcome.bind_eq_ok.1 h
  obtain ⟨rfl, h'⟩ := Prod.mk.inj (Outcome.ok.inj h)
  obtain ⟨rfl, rfl⟩ := Prod.mk.inj h'
  dsimp only at h2 h3 ⊢
  have hk1 : MeshKeys ml1 := generate_keys (by unfold MeshKeys; simp) e1
  have hs1 : Soups true ml1 := by
    intro i m hi
    rw [e3] at hi
    split_ifs at hi
    · obtain rfl := Option.some.inj hi
      exact Export.blockMesh_soup _ _ _ _ _
    · cases hi
  obtain ⟨k2, s2, sh⟩ := send_shown hk1 hs1 h2
  have hsh : ∀ i, shownMesh ml2 i = if i ∈ l.blocks.map (·.1) then
      { blockMesh env.E.sq true l (flFns meshMinWeight) i with updated := false } else Mesh.empty := by
    intro i
    rw [sh]
    have := e3 i
    by_cases hi : i ∈ l.blocks.map (·.1)
    · rw [if_pos (show i ∈ blocksToMesh false l from hi)] at this
      rw [if_pos hi, shown_of this]
    · rw [if_neg (show i ∉ blocksToMesh false l from hi)] at this
      rw [if_neg hi, shown_none this]
  obtain ⟨cs, c1, c2, c3⟩ := shown_surface hm k2 hsh (hE ml2)
  rw [flFns_sdf] at c3
  refine ⟨⟨shownMesh ml1, ?_, ?_⟩, ⟨cs, c1, ?_⟩, ?_, cs, c1, c2, c3⟩
  · intro i
    rw [← sh, hsh, ← flFns_sdf]
    by_cases hi : i ∈ l.blocks.map (·.1)
    · rw [if_pos hi]
      exact shows_blockMesh _ _ _ hm.wf ((block_isSome_iff _ _).2 hi)
    · rw [if_neg hi]
      refine shows_missing _ _ hm.wf ?_
      rw [← Option.not_isSome_iff_eq_none, block_isSome_iff]
      exact hi
  · intro d hd i
    have hu : UpToDate env.edge env.inv mode ml1 [] := by
      intro j hj
      have := e3 j
      split_ifs at this with hb
      · have := hj _ this
        exact absurd this (by simp [blockMesh])
      · unfold picture
        rw [this]
        rfl
    obtain ⟨-, hp, -, -⟩ := MeshMsg.send_sync hk1 hu h2 hd
    have := hp i
    unfold picture at this
    cases hl : ml1.lookup i with
    | none =>
      rw [hl] at this
      rw [shown_none hl, MeshMsg.encode_empty env.inv mode i (m := Mesh.empty) rfl, Outcome.bind_ok]
      rw [MeshMsg.drawn_empty _ rfl]
      exact this
    | some m =>
      rw [hl] at this
      rw [shown_of hl, ← this]
      rfl
  · have := fillCloud_points (env.E.iter ml2) [] cl' h3
    rw [this, List.map_nil, List.nil_append, c3]
  · rintro ⟨i, m⟩ he
    exact s2 i m ((Layer.lookup_mem_iff k2).2 he)

/-! ### The threshold -/

theorem threshold_near {s f : ℚ} (h1 : 1 / 2 ^ 100 ≤ |s * f|) (h2 : |s * f| ≤ 2 ^ 100) :
    ∃ t, threshold s (.fin f) = .fin t ∧ |t - s * f| ≤ 1 / 2 ^ 23 * |s * f| := by
  have r1 := IndexF.rnd64_rel (x := s * f) (le_trans (le_trans (pow2_le (show (-1022 : ℤ) ≤ -100 by norm_num)) (by rw [pow2_eq]; norm_num)) h1)
  have hx := abs_sub_abs_le_abs_sub (rnd64 (s * f)) (s * f)
  have hx' := abs_sub_abs_le_abs_sub (s * f) (rnd64 (s * f))
  rw [abs_sub_comm] at hx'
  have hlo : 1 / 2 ^ 101 ≤ |rnd64 (s * f)| := by
    have : (1 : ℚ) / 2 ^ 53 * |s * f| ≤ 1 / 2 * |s * f| := mul_le_mul_of_nonneg_right (by norm_num) (abs_nonneg _)
    have : (1 : ℚ) / 2 ^ 101 = 1 / 2 * (1 / 2 ^ 100) := by norm_num
    linarith
  have hhi : |rnd64 (s * f)| ≤ 2 ^ 101 := by
    have : (1 : ℚ) / 2 ^ 53 * |s * f| ≤ 1 * |s * f| := mul_le_mul_of_nonneg_right (by norm_num) (abs_nonneg _)
    have : (2 : ℚ) ^ 101 = 2 * 2 ^ 100 := by norm_num
    linarith
  have r2 := RoundErr.rnd32_rel (by positivity) hlo
  have e : threshold s (.fin f) = .fin (rnd32 (rnd64 (s * f))) := by
    have h64 : float64.mul (.fin s) (.fin f) = .fin (rnd64 (s * f)) := by
      show overflow (2 ^ 1024) (rnd64 (s * f)) = _
      exact overflow_of_lt (lt_of_le_of_lt hhi (pow_lt_pow_right₀ (by norm_num) (by norm_num)))
    unfold threshold
    rw [h64]
    exact RoundErr.rnd_fin (le_trans hhi (by norm_num))
  refine ⟨_, e, ?_⟩
  have htri : |rnd32 (rnd64 (s * f)) - s * f| ≤ |rnd32 (rnd64 (s * f)) - rnd64 (s * f)| + |rnd64 (s * f) - s * f| := abs_sub_le _ _ _
  have hc : IndexF.u + IndexF.eta / (1 / 2 ^ 101) ≤ 1 / 2 ^ 24 + 1 / 2 ^ 40 := by
    rw [RoundErr.u_eq, RoundErr.eta_eq]
    norm_num
  have h3 : (IndexF.u + IndexF.eta / (1 / 2 ^ 101)) * |rnd64 (s * f)| ≤ (1 / 2 ^ 24 + 1 / 2 ^ 40) * |rnd64 (s * f)| :=
    mul_le_mul_of_nonneg_right hc (abs_nonneg _)
  have h4 : |rnd64 (s * f)| ≤ (1 + 1 / 2 ^ 53) * |s * f| := by linarith
  have h5 : (1 / 2 ^ 24 + 1 / 2 ^ 40) * |rnd64 (s * f)| ≤ (1 / 2 ^ 24 + 1 / 2 ^ 40) * ((1 + 1 / 2 ^ 53) * |s * f|) :=
    mul_le_mul_of_nonneg_left h4 (by norm_num)
  have h6 : ((1 / 2 ^ 24 + 1 / 2 ^ 40) * (1 + 1 / 2 ^ 53) + 1 / 2 ^ 53) * |s * f| ≤ 1 / 2 ^ 23 * |s * f| :=
    mul_le_mul_of_nonneg_right (by norm_num) (abs_nonneg _)
  linarith

theorem threshold_double {s : ℚ} (hs : rnd32 s = s) (h : |s| ≤ 2 ^ 100) : threshold s (.fin 2) = .fin (2 * s) := by
  obtain ⟨k, e, hk, he, hx⟩ := rne_form (p := 24) (qmin := -149) s
  have hx : s = k * pow2 e := by rw [← hx]; exact hs.symm
  have e2 : s * 2 = k * pow2 (e + 1) := by
    rw [pow2_add, hx, show pow2 1 = 2 by rw [pow2_eq]; norm_num]
    ring
  have h64 : rnd64 (s * 2) = s * 2 := by
    rw [e2]
    exact rne_exact (by norm_num) (le_trans hk (by norm_num)) (by omega)
  have h32 : rnd32 (s * 2) = s * 2 := by
    rw [e2]
    exact rne_exact (by norm_num) hk (by omega)
  have hb : |s * 2| ≤ 2 ^ 101 := by
    rw [abs_mul]
    norm_num at h ⊢
    linarith
  unfold threshold
  have hm : float64.mul (.fin s) (.fin 2) = .fin (s * 2) := by
    show overflow (2 ^ 1024) (rnd64 (s * 2)) = _
    rw [h64]
    exact overflow_of_lt (lt_of_le_of_lt hb (pow_lt_pow_right₀ (by norm_num) (by norm_num)))
  rw [hm]
  show float32.rnd (s * 2) = _
  rw [RoundErr.rnd_fin (le_trans hb (by norm_num)), h32, mul_comm]

/-! ### Files -/

theorem layerOfFile_lookup (l : FLayer (TsdfVoxel Word)) (i : Idx) :
    block? (layerOfFile l) i = (l.blocks.lookup i).map blockOfFile := by
  unfold block? layerOfFile
  dsimp only
  induction l.blocks with
  | nil => rfl
  | cons e bs ih =>
    rw [List.map_cons, List.lookup_cons, List.lookup_cons]
    cases i == e.1
    · exact ih
    · rfl

theorem restricted_block {l l' : FLayer (TsdfVoxel Word)} (h : Props.IsRestriction (fun _ => True) l l') (i : Idx) :
    block? (layerOfFile l') i = (block? (layerOfFile l) i).map fun b => { b with updated := Flags.setAll } := by
  rw [layerOfFile_lookup, layerOfFile_lookup, h.2.2.2 i, if_pos trivial]
  cases l.blocks.lookup i <;> rfl

theorem restricted_content {l l' : FLayer (TsdfVoxel Word)} (h : Props.IsRestriction (fun _ => True) l l') (g : Idx) :
    (layerOfFile l').cfg = (layerOfFile l).cfg ∧ content (layerOfFile l') g = content (layerOfFile l) g := by
  have hc : (layerOfFile l').cfg = (layerOfFile l).cfg := by
    unfold layerOfFile
    rw [h.1, h.2.1]
  refine ⟨hc, ?_⟩
  unfold content
  rw [hc]
  have := restricted_block h (g.map (· / ((layerOfFile l).cfg.vps : ℤ)))
  unfold block? at this
  rw [this]
  cases (layerOfFile l).blocks.lookup (g.map (· / ((layerOfFile l).cfg.vps : ℤ))) <;> rfl

theorem restricted_sound {l l' : FLayer (TsdfVoxel Word)} (h : Props.IsRestriction (fun _ => True) l l') (hm : MapSound (layerOfFile l)) :
    MapSound (layerOfFile l') := by
  have hc := (restricted_content h ⟨0, 0, 0⟩).1
  refine ⟨⟨by rw [hc]; exact hm.wf.size_pos, by rw [hc]; exact hm.wf.side_pos, by rw [hc]; exact hm.wf.side_le, ?_⟩, ?_, ?_⟩
  · intro i b hb
    have := restricted_block h i
    unfold block? at this
    rw [this] at hb
    cases h0 : (layerOfFile l).blocks.lookup i with
    | none => rw [h0] at hb; cases hb
    | some b0 =>
      rw [h0] at hb
      obtain rfl := Option.some.inj hb
      rw [hc]
      exact hm.wf.block i b0 h0
  · have e : (layerOfFile l').blocks.map (·.1) = l'.blocks.map (·.1) := by
      unfold layerOfFile
      rw [List.map_map]
      rfl
    rw [e]
    exact h.2.2.1
  · intro i hi
    unfold BlockInRange
    rw [hc]
    refine hm.range i ?_
    rw [restricted_block h, Option.isSome_map] at hi
    exact hi

theorem restricted_readable {l l' : FLayer (TsdfVoxel Word)} (h : Props.IsRestriction (fun _ => True) l l') (hr : readable l = true) : readable l' = true := by
  unfold readable at hr ⊢
  simp only [Bool.and_eq_true, List.all_eq_true] at hr ⊢
  refine ⟨by rw [h.1]; exact hr.1, ?_⟩
  rintro ⟨i, b⟩ he
  have hl := (Layer.lookup_mem_iff h.2.2.1).2 he
  rw [h.2.2.2 i, if_pos trivial] at hl
  cases h0 : l.blocks.lookup i with
  | none => rw [h0] at hl; cases hl
  | some b0 =>
    rw [h0] at hl
    obtain rfl := Option.some.inj hl
    exact hr.2 (i, b0) (mem_keys_of_lookup h0)

end Vox.Visualizer
