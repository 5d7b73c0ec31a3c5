/-
Samples of a TSDF layer, and the set of sampled blocks.
-/
import Verif.Lemmas.Transform

namespace Vox.Merge

open Layer Grid Spec Interp

variable {V : Type}

theorem nearestVoxel_spec {l : VLayer V} (wf : WellFormed l) (ops : Ops V) {pos : Pt} (hp : Addressable l pos) (x : V) :
    nearestVoxel ops l pos x = .ok (match content l (gIdx l pos) with | none => (x, false) | some v => (v, ops.obs v)) := by
  unfold nearestVoxel blockAtCoords
  rw [blockIndexOf_ok wf hp]
  simp only [Outcome.bind_ok, Outcome.pure_eq]
  have eg : gIdx l pos = globalIndex l.cfg.vps (bIdx l pos) (vIdx l pos) := rfl
  cases hb : block? l (bIdx l pos) with
  | none => rw [eg, content_none hb (vIdx_inBlock wf pos)]
  | some b =>
    obtain ⟨y, hy, hc⟩ := voxelByIndex_content wf hb (vIdx_inBlock wf pos)
    unfold voxelByCoords
    simp only [truncated_ok wf hb, Outcome.bind_ok, hy]
    rw [eg, hc]

theorem surrounded_iff_gather {l : VLayer V} {obs : V → Bool} {g : Idx} :
    (∃ f, Surrounded l obs g f) ↔ ∃ xs, gather l obs g corners = some xs := by
  classical
  constructor
  · rintro ⟨f, hf⟩
    exact ⟨_, gather_some corners fun c hc => hf c (mem_corner hc)⟩
  · rintro ⟨xs, hxs⟩
    have inv := gather_inv corners xs hxs
    obtain ⟨x0, -, -⟩ := inv ⟨0, 0, 0⟩ (by decide)
    refine ⟨fun c => if hc : c ∈ corners then (inv c hc).choose else x0, fun c hc => ?_⟩
    have hm := corner_mem hc
    simp only [dif_pos hm]
    exact (inv c hm).choose_spec

theorem truncByte_floor {q : ℚ} (h0 : 0 ≤ q) {b : BitVec 8} (h : truncByte q = .ok b) : (b.toNat : ℤ) = ⌊q⌋ := by
  unfold truncByte at h
  rw [if_pos h0] at h
  by_cases hr : 0 ≤ ⌊q⌋ ∧ ⌊q⌋ ≤ 255
  · have h : (if 0 ≤ ⌊q⌋ ∧ ⌊q⌋ ≤ 255 then Outcome.ok (BitVec.ofInt 8 ⌊q⌋) else .ub) = .ok b := h
    rw [if_pos hr] at h
    have e := Outcome.ok.inj h
    rw [← e, BitVec.toNat_ofInt]
    omega
  · have h : (if 0 ≤ ⌊q⌋ ∧ ⌊q⌋ ≤ 255 then Outcome.ok (BitVec.ofInt 8 ⌊q⌋) else .ub) = .ok b := h
    rw [if_neg hr] at h
    cases h

/-- Sampling a TSDF layer is defined and does what the specification says. -/
theorem sampleTsdf_ok {l : VLayer (TsdfVoxel ℚ)} (wf : WellFormed l) {p : Pt} (hp : Addressable l p) (x : TsdfVoxel ℚ) :
    ∃ r, sampleVoxel tsdfOps l p x = .ok r ∧ SampledTsdf l obsTsdf p x r := by
  obtain ⟨g, hg, hun⟩ := C48_cell_exists_unique wf.size_pos p
  obtain ⟨v, hv, -⟩ := C47_colour_defined wf hp hg
  have hv' := hv
  unfold sampleVoxel
  rw [show tsdfOps.interp l p = .ok v from hv]
  unfold getInterpVoxel at hv
  rw [voxelsAndQ_spec wf obsTsdf hp hg] at hv
  cases hgat : gather l obsTsdf g corners with
  | none =>
    have hno : ¬ ∃ f, Surrounded l obsTsdf g f := by
      rw [surrounded_iff_gather, hgat]
      rintro ⟨xs, h⟩
      cases h
    rw [hgat] at hv
    simp only [Option.map_none, Outcome.bind_ok, Outcome.pure_eq, Outcome.ok.injEq] at hv
    rw [← hv]
    simp only [Outcome.bind_ok]
    refine ⟨_, nearestVoxel_spec wf tsdfOps hp x, ?_, ?_⟩
    · intro g' f hg' hf
      rw [hun g' hg'] at hf
      exact absurd ⟨f, hf⟩ hno
    · intro g' _ _ h hc
      rw [show gIdx l p = h from gIdx_eq wf hc]
      cases content l h <;> rfl
  | some xs =>
    rw [hgat] at hv
    simp only [Option.map_some, Outcome.bind_ok] at hv
    obtain ⟨w, hw, hvw⟩ := Outcome.bind_eq_ok.1 hv
    simp only [Outcome.pure_eq, Outcome.ok.injEq] at hvw
    rw [← hvw]
    simp only [Outcome.bind_ok, Outcome.pure_eq]
    refine ⟨_, rfl, ?_, ?_⟩
    · intro g' f hg' hf
      have e := hun g' hg'
      subst e
      have := gather_some (l := l) (obs := obsTsdf) (g := g') corners fun c hc => hf c (mem_corner hc)
      rw [hgat] at this
      have hxs := Option.some.inj this
      have hdw : w.distance = interpMember (qOf (relPos l.cfg.voxelSize g' p)) (xs.map (·.distance)) ∧
          w.weight = interpMember (qOf (relPos l.cfg.voxelSize g' p)) (xs.map (·.weight)) ∧
          ∀ ch ∈ [Color.r, Color.g, Color.b, Color.a],
            truncByte (interpMember (qOf (relPos l.cfg.voxelSize g' p)) (xs.map fun v => ((ch v.color).toNat : ℚ))) = .ok (ch w.color) := by
        unfold interpVoxel at hw
        obtain ⟨r1, c1, hw⟩ := Outcome.bind_eq_ok.1 hw
        obtain ⟨r2, c2, hw⟩ := Outcome.bind_eq_ok.1 hw
        obtain ⟨r3, c3, hw⟩ := Outcome.bind_eq_ok.1 hw
        obtain ⟨r4, c4, hw⟩ := Outcome.bind_eq_ok.1 hw
        simp only [Outcome.pure_eq, Outcome.ok.injEq] at hw
        rw [← hw]
        refine ⟨rfl, rfl, ?_⟩
        intro ch hch
        simp only [List.mem_cons, List.not_mem_nil, or_false] at hch
        rcases hch with rfl | rfl | rfl | rfl
        · exact c1
        · exact c2
        · exact c3
        · exact c4
      refine ⟨rfl, ?_, ?_, ?_⟩
      · show w.distance = _
        rw [hdw.1, hxs, List.map_map]
        exact interpMember_trilinear (fun c => (f c).distance) _
      · show w.weight = _
        rw [hdw.2.1, hxs, List.map_map]
        exact interpMember_trilinear (fun c => (f c).weight) _
      · intro ch hch
        have h1 := hdw.2.2 ch hch
        have e : interpMember (qOf (relPos l.cfg.voxelSize g' p)) (xs.map fun v => ((ch v.color).toNat : ℚ)) =
            trilinear (fun c => ((ch (f c).color).toNat : ℚ)) (relPos l.cfg.voxelSize g' p) := by
          rw [hxs, List.map_map]
          exact interpMember_trilinear (fun c => ((ch (f c).color).toNat : ℚ)) _
        rw [e] at h1
        have hr := relPos_range wf.size_pos hg'
        have hr' : (relPos l.cfg.voxelSize g' p).All fun t => 0 ≤ t ∧ t ≤ 1 :=
          ⟨⟨hr.1.1, hr.1.2.le⟩, ⟨hr.2.1.1, hr.2.1.2.le⟩, ⟨hr.2.2.1, hr.2.2.2.le⟩⟩
        have h0 := trilinear_mono (f := fun _ => (0 : ℚ)) (h := fun c => ((ch (f c).color).toNat : ℚ)) hr' fun c _ => Nat.cast_nonneg _
        rw [trilinear_const] at h0
        exact truncByte_floor h0 h1
    · intro g' hg' hno
      rw [hun g' hg', surrounded_iff_gather] at hno
      exact absurd ⟨xs, hgat⟩ hno

/-- At the centre of an observed voxel the sample is that voxel. -/
theorem sampled_center {l : VLayer (TsdfVoxel ℚ)} (wf : WellFormed l) {g : Idx} {a : TsdfVoxel ℚ} (ha : content l g = some a)
    (ho : obsTsdf a = true) {x : TsdfVoxel ℚ} {r : TsdfVoxel ℚ × Bool} (h : SampledTsdf l obsTsdf (voxelCenter l.cfg.voxelSize g) x r) :
    r = (a, true) := by
  have hs := wf.size_pos
  have hg : InDualCell l.cfg.voxelSize g (voxelCenter l.cfg.voxelSize g) := by
    refine ⟨⟨le_rfl, ?_⟩, ⟨le_rfl, ?_⟩, ⟨le_rfl, ?_⟩⟩ <;>
      exact mul_lt_mul_of_pos_right (by linarith) hs
  by_cases hf : ∃ f, Surrounded l obsTsdf g f
  · obtain ⟨f, hf⟩ := hf
    obtain ⟨h1, h2, h3, h4⟩ := h.inside g f hg hf
    have h0 := (hf ⟨0, 0, 0⟩ (by decide)).1
    have hz : g + (⟨0, 0, 0⟩ : Idx) = g := by ext <;> simp
    rw [hz, ha] at h0
    have h0 := Option.some.inj h0
    have hr : (voxelCenter l.cfg.voxelSize g - voxelCenter l.cfg.voxelSize g).map (· * (1 / l.cfg.voxelSize)) = ⟨0, 0, 0⟩ := by
      ext <;> simp
    have ht : ∀ m : Idx → ℚ, trilinear m ⟨0, 0, 0⟩ = m ⟨0, 0, 0⟩ := by
      intro m
      simp [trilinear, triWeight, linWeight]
    rw [hr, ht, ← h0] at h2 h3
    have hc : ∀ ch ∈ [Color.r, Color.g, Color.b, Color.a], ch r.1.color = ch a.color := by
      intro ch hch
      have := h4 ch hch
      rw [hr, ht, ← h0, show (((ch a.color).toNat : ℕ) : ℚ) = (((ch a.color).toNat : ℤ) : ℚ) by push_cast; rfl, Int.floor_intCast] at this
      exact BitVec.eq_of_toNat_eq (by exact_mod_cast this)
    obtain ⟨⟨d, w, c⟩, o⟩ := r
    obtain ⟨d', w', c'⟩ := a
    simp only at h1 h2 h3 hc
    rw [h1, h2, h3]
    have : c = c' := by
      obtain ⟨c1, c2, c3, c4⟩ := c
      obtain ⟨c1', c2', c3', c4'⟩ := c'
      have e1 := hc Color.r (by simp)
      have e2 := hc Color.g (by simp)
      have e3 := hc Color.b (by simp)
      have e4 := hc Color.a (by simp)
      simp only at e1 e2 e3 e4
      rw [e1, e2, e3, e4]
    rw [this]
  · have hc : ClearIn l g (voxelCenter l.cfg.voxelSize g) := by
      have hq : (l.cfg.vps : ℚ) < 500000 := by have := wf.side_le; exact_mod_cast (by omega : l.cfg.vps < 500000)
      refine ⟨⟨?_, ?_⟩, ⟨?_, ?_⟩, ⟨?_, ?_⟩⟩
      all_goals first
        | exact mul_le_mul_of_nonneg_right (by linarith) hs.le
        | exact mul_lt_mul_of_pos_right (by linarith) hs
    rw [h.nearest g hg hf g hc, ha]
    simp only [ho]

/-- At the centre of a voxel that is not observed or not there, the sample is the voxel itself, or what was there before. -/
theorem sampled_unobserved {l : VLayer (TsdfVoxel ℚ)} (wf : WellFormed l) {g : Idx} (ha : ∀ a, content l g = some a → obsTsdf a = false)
    {x : TsdfVoxel ℚ} {r : TsdfVoxel ℚ × Bool} (h : SampledTsdf l obsTsdf (voxelCenter l.cfg.voxelSize g) x r) :
    r = ((content l g).getD x, false) := by
  have hs := wf.size_pos
  have hg : InDualCell l.cfg.voxelSize g (voxelCenter l.cfg.voxelSize g) := by
    refine ⟨⟨le_rfl, ?_⟩, ⟨le_rfl, ?_⟩, ⟨le_rfl, ?_⟩⟩ <;>
      exact mul_lt_mul_of_pos_right (by linarith) hs
  have hf : ¬ ∃ f, Surrounded l obsTsdf g f := by
    rintro ⟨f, hf⟩
    obtain ⟨h0, h1⟩ := hf ⟨0, 0, 0⟩ (by decide)
    have hz : g + (⟨0, 0, 0⟩ : Idx) = g := by ext <;> simp
    rw [hz] at h0
    rw [ha _ h0] at h1
    cases h1
  have hc : ClearIn l g (voxelCenter l.cfg.voxelSize g) := by
    have hq : (l.cfg.vps : ℚ) < 500000 := by have := wf.side_le; exact_mod_cast (by omega : l.cfg.vps < 500000)
    refine ⟨⟨?_, ?_⟩, ⟨?_, ?_⟩, ⟨?_, ?_⟩⟩
    all_goals first
      | exact mul_le_mul_of_nonneg_right (by linarith) hs.le
      | exact mul_lt_mul_of_pos_right (by linarith) hs
  rw [h.nearest g hg hf g hc]
  cases hl : content l g with
  | none => rfl
  | some v => show (v, obsTsdf v) = _; rw [ha v hl]; rfl


theorem mapM_length {α β : Type} {f : α → Outcome β} : ∀ {l : List α} {r : List β}, l.mapM f = .ok r → r.length = l.length
  | [], r, h => by
    rw [List.mapM_nil] at h
    simp only [Outcome.pure_eq, Outcome.ok.injEq] at h
    rw [← h]
    rfl
  | a :: l, r, h => by
    rw [List.mapM_cons] at h
    obtain ⟨y, -, h⟩ := Outcome.bind_eq_ok.1 h
    obtain ⟨ys, h1, h⟩ := Outcome.bind_eq_ok.1 h
    simp only [Outcome.pure_eq, Outcome.ok.injEq] at h
    rw [← h, List.length_cons, List.length_cons, mapM_length h1]

/-- The layer keeps its shape through a successful pass. -/
theorem transformStep_wf {ops : Ops V} {A : VLayer V} {T : Rigid} {out out' : VLayer V} {i : Idx} (wo : WellFormed out)
    (h : transformStep ops A T out i = .ok out') : WellFormed out' ∧ out'.cfg = out.cfg := by
  have wa := allocateBlock_wf wo ops.dflt i
  have ea := allocateBlock_cfg ops.dflt out i
  unfold transformStep at h
  set d := allocateBlock ops.dflt out i with hd
  cases hb : block? d i with
  | none =>
    simp only [hb, Outcome.pure_eq, Outcome.ok.injEq] at h
    exact h ▸ ⟨wa, ea⟩
  | some b =>
    simp only [hb] at h
    obtain ⟨b1, b2, b3, b4⟩ := wa.block _ _ hb
    obtain ⟨r, hr, h⟩ := Outcome.bind_eq_ok.1 h
    have hlen : r.length = b.voxels.length := by
      have := mapM_length hr
      simpa using this
    split_ifs at h
    · simp only [Outcome.pure_eq, Outcome.ok.injEq] at h
      rw [← h]
      exact ⟨replace_wf wa ⟨b1, b2, b3, by rw [List.length_map, hlen]; exact b4⟩, ea⟩
    · simp only [Outcome.pure_eq, Outcome.ok.injEq] at h
      rw [← h]
      exact ⟨remove_wf wa i, ea⟩

theorem transformSteps_wf {ops : Ops V} {A : VLayer V} {T : Rigid} {out out' : VLayer V} (wo : WellFormed out) {is : List Idx}
    (h : is.foldlM (transformStep ops A T) out = .ok out') : WellFormed out' ∧ out'.cfg = out.cfg := by
  induction is generalizing out with
  | nil =>
    simp only [List.foldlM_nil, Outcome.pure_eq, Outcome.ok.injEq] at h
    exact h ▸ ⟨wo, rfl⟩
  | cons i is ih =>
    rw [List.foldlM_cons] at h
    obtain ⟨o1, h1, h⟩ := Outcome.bind_eq_ok.1 h
    obtain ⟨w1, e1⟩ := transformStep_wf wo h1
    obtain ⟨w2, e2⟩ := ih w1 h
    exact ⟨w2, e2.trans e1⟩

end Vox.Merge
