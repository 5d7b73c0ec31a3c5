/-
An incremental update from a TSDF layer that did not change.
-/
import Verif.Lemmas.EsdfBatch

namespace Vox.Esdf

open Layer Grid Spec

variable {A : Flt} {cfg : Config} {L : Limits} {tsdf : VLayer (TsdfVoxel ℚ)}

/-- Every TSDF voxel has an ESDF voxel which copying does not change. -/
def Settled (A : Flt) (cfg : Config) (tsdf : VLayer (TsdfVoxel ℚ)) (c : Idx → Option EVoxel) : Prop :=
  ∀ g τ, content tsdf g = some τ → ∃ v, c g = some v ∧ (¬ τ.weight < cfg.minWeight →
    v.observed = true ∧ v.hallucinated = false ∧ seed A cfg true τ.distance v = ⟨v, false, false, false⟩)

/-- The content is `c` and the queues are empty. -/
def Same (A : Flt) (L : Limits) (c : Idx → Option EVoxel) (s : State) : Prop :=
  Ready A L [] s ∧ s.raise = [] ∧ ∀ g, content s.layer g = c g

theorem tsdfVoxel_same {c : Idx → Option EVoxel} (hset : Settled A cfg tsdf c) {s : State} (h : Same A L c s)
    (T : TsdfFits A cfg L s.layer.cfg.vps tsdf) {i : Idx} {b : Block ℚ (TsdfVoxel ℚ)} (hb : block? tsdf i = some b)
    (hi : Allocated s.layer i) {lin : ℕ} (hl : lin < b.voxels.length) :
    ∃ s', tsdfVoxel A cfg true i b s lin = .ok s' ∧ Same A L c s' ∧ Frame s s' := by
  obtain ⟨⟨S, G, hr⟩, hraise, hc⟩ := h
  obtain ⟨t, v, t1, t2, t3, t4, t5⟩ := tsdf_linear T.wf hb hl
  rw [T.vps] at t3 t5
  unfold tsdfVoxel
  simp only [t1, t2, Outcome.bind_ok]
  by_cases hw : t.weight < cfg.minWeight
  · rw [if_pos hw]
    exact ⟨s, rfl, ⟨⟨S, G, hr⟩, hraise, hc⟩, Frame.refl s⟩
  · rw [if_neg hw]
    obtain ⟨x, x1, x2⟩ := readVoxel_ok G.wf t3 hi
    obtain ⟨x', y1, y2⟩ := hset _ t t5
    obtain ⟨y3, y4, y5⟩ := y2 hw
    have : x' = x := Option.some.inj (((hc _).trans y1).symm.trans x2)
    subst this
    obtain ⟨-, l', w1, w2, w3⟩ := G.writeBlock hi t3 x' (G.vals _ _ x2)
    obtain ⟨g1, g2, -⟩ := w3 s.raise s.open_ [] s.updated G.queue G.queued
    refine ⟨⟨l', s.open_, s.raise, s.updated⟩, ?_, ⟨⟨S, g1, hr⟩, hraise, ?_⟩, g2 rfl⟩
    · unfold copyVoxel
      simp only [x1, y5, Outcome.bind_ok]
      have e : seedNeighbors A cfg s.layer (globalIndex s.layer.cfg.vps i v) ⟨x', false, false, false⟩ = .ok (x', false) := rfl
      rw [e]
      simp only [Outcome.bind_ok]
      have e2 : pushIf s.open_ false (globalIndex s.layer.cfg.vps i v) x'.distance = .ok s.open_ := rfl
      rw [e2]
      simp only [Outcome.bind_ok]
      have e3 : (⟨x'.distance, true, false, x'.inQueue, x'.fixed, x'.parent⟩ : EVoxel) = x' := by
        rw [← y3, ← y4]
      rw [e3, w1]
      rfl
    · intro g
      rw [w2]
      split_ifs with e
      · rw [e]
        exact x2.symm.trans (hc _)
      · exact hc g

theorem tsdfBlock_same (F : CopyFits A cfg L) {c : Idx → Option EVoxel} (hset : Settled A cfg tsdf c) {s : State} (h : Same A L c s)
    (T : TsdfFits A cfg L s.layer.cfg.vps tsdf) (i : Idx) :
    ∃ s', tsdfBlock A cfg true tsdf s i = .ok s' ∧ Same A L c s' ∧ s'.layer.cfg = s.layer.cfg := by
  unfold tsdfBlock
  cases hb : block? tsdf i with
  | none => exact ⟨s, rfl, h, rfl⟩
  | some b =>
    have wf : WellFormed s.layer := h.1.choose_spec.1.wf
    have wf1 := allocateBlock_wf wf Sphere.esdfDefault i
    simp only
    generalize hl : markUpdated (allocateBlock Sphere.esdfDefault s.layer i) i (Flags.ofBool true) = l
    have lcfg : l.cfg = s.layer.cfg := by rw [← hl]; exact allocateBlock_cfg _ _ _
    have lcon : ∀ g, content l g = if blockOf s.layer.cfg.vps g = i then some ((content s.layer g).getD Sphere.esdfDefault)
        else content s.layer g := by
      intro g
      rw [← hl, markUpdated_content wf1, allocateBlock_content wf]
    have lall : Allocated l i := by
      rw [allocated_iff_status, ← hl, markUpdated_status, allocateBlock_status, if_pos rfl, if_pos rfl]
      rfl
    have hsome : ∀ g, blockOf s.layer.cfg.vps g = i → (content tsdf g).isSome = true := by
      intro g hg
      rw [content_isSome T.wf, T.vps, hg, hb]
      rfl
    have hR : Ready A L [] ⟨l, s.open_, s.raise, s.updated⟩ :=
      h.1.allocate F (i := i) (fun g hg => T.range g (hsome g hg)) lcfg (hl ▸ markUpdated_wf wf1 _ _) lcon
    have hS : Same A L c ⟨l, s.open_, s.raise, s.updated⟩ := by
      refine ⟨hR, h.2.1, fun g => ?_⟩
      show content l g = c g
      rw [lcon]
      split_ifs with hg
      · obtain ⟨τ, hτ⟩ := Option.isSome_iff_exists.1 (hsome g hg)
        obtain ⟨v, hv, -⟩ := hset g τ hτ
        rw [h.2.2 g, hv]
        rfl
      · exact h.2.2 g
    obtain ⟨s', a1, a2, a3⟩ := foldlM_range (f := tsdfVoxel A cfg true i b)
      (P := fun _ s1 => Same A L c s1 ∧ Frame ⟨l, s.open_, s.raise, s.updated⟩ s1)
      b.voxels.length (by
        rintro k s1 hk ⟨r1, f1⟩
        have c1 : s1.layer.cfg.vps = s.layer.cfg.vps := by rw [f1.cfg, lcfg]
        have al : Allocated s1.layer i := by rw [allocated_iff_status, f1.status, ← allocated_iff_status]; exact lall
        obtain ⟨s2, b1, b2, b3⟩ := tsdfVoxel_same hset r1 (by rw [c1]; exact T) hb al hk
        exact ⟨s2, b1, b2, f1.trans b3⟩)
      ⟨l, s.open_, s.raise, s.updated⟩ ⟨hS, Frame.refl _⟩
    exact ⟨s', a1, a2, a3.cfg.trans lcfg⟩

theorem tsdfBlocks_same (F : CopyFits A cfg L) {c : Idx → Option EVoxel} (hset : Settled A cfg tsdf c) (blocks : List Idx) :
    ∀ s, Same A L c s → TsdfFits A cfg L s.layer.cfg.vps tsdf →
    ∃ s', blocks.foldlM (tsdfBlock A cfg true tsdf) s = .ok s' ∧ Same A L c s' := by
  induction blocks with
  | nil => intro s h _; exact ⟨s, rfl, h⟩
  | cons i is ih =>
    intro s h T
    obtain ⟨s1, h1, h2, h3⟩ := tsdfBlock_same F hset h T i
    obtain ⟨s2, h4, h5⟩ := ih s1 h2 (by rw [h3]; exact T)
    exact ⟨s2, by rw [List.foldlM_cons, h1]; exact h4, h5⟩

theorem updateIncremental_same (F : CopyFits A cfg L) {s : State} (h : Ready A L [] s) (hr : s.raise = [])
    (T : TsdfFits A cfg L s.layer.cfg.vps tsdf) (hset : Settled A cfg tsdf (content s.layer)) (set : List Idx → List Idx) (clear : Bool) (fuel : ℕ) :
    ∃ s' tsdf', updateIncremental A cfg (fuel + 1) set clear tsdf s = .ok (some (s', tsdf')) ∧ ∀ g, content s'.layer g = content s.layer g := by
  have h0 : Same A L (content s.layer) { s with updated := [] } := by
    obtain ⟨S, G, hS⟩ := h
    exact ⟨⟨S, ⟨G.wf, G.power, G.dom, G.range, G.vals, G.queue, G.queued⟩, hS⟩, hr, fun _ => rfl⟩
  obtain ⟨s1, a1, ⟨S, G, -⟩, a3, a4⟩ := tsdfBlocks_same F hset (esdfUpdated tsdf ++ set s.updated) _ h0 T
  refine ⟨s1, if clear then (esdfUpdated tsdf ++ set s.updated).foldl resetEsdf tsdf else tsdf, ?_, a4⟩
  unfold updateIncremental updateFromTsdfBlocks
  rw [show Outcome.check (decide (tsdf.cfg.vps = ({ s with updated := [] } : State).layer.cfg.vps)) = .ok () by
    simp [Outcome.check, T.vps]]
  simp only [Outcome.bind_ok, a1]
  have h1 : processRaise cfg (fuel + 1) s1 = .ok (some s1) := by
    unfold processRaise
    rw [a3]
  rw [h1]
  simp only [Outcome.bind_ok]
  have h2 : processOpen A cfg (fuel + 1) s1 = .ok (some s1) := by
    unfold processOpen
    rw [empty_ok G.queue]
    rfl
  rw [h2]
  rfl

end Vox.Esdf
