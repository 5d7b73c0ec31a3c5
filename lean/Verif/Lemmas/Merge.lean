/-
Merging layers block by block.
-/
import Verif.Model.Merge
import Verif.Spec.Merge
import Verif.Lemmas.GridWrite

namespace Vox.Merge

open Layer Grid Spec Interp

variable {V : Type}

theorem mapM_range {β : Type} {f : ℕ → Outcome β} {P : ℕ → β → Prop} (n : ℕ) (h : ∀ k < n, ∃ y, f k = .ok y ∧ P k y) :
    ∃ ys, (List.range n).mapM f = .ok ys ∧ ys.length = n ∧ ∀ k < n, ∃ y, ys[k]? = some y ∧ P k y := by
  induction n with
  | zero => exact ⟨[], rfl, rfl, by simp⟩
  | succ n ih =>
    obtain ⟨ys, h1, h2, h3⟩ := ih fun k hk => h k (by omega)
    obtain ⟨y, h4, h5⟩ := h n (by omega)
    refine ⟨ys ++ [y], ?_, by simp [h2], ?_⟩
    · rw [List.range_succ, List.mapM_append, h1]
      simp [h4]
    · intro k hk
      by_cases e : k = n
      · exact ⟨y, by rw [e, ← h2]; simp, e ▸ h5⟩
      · obtain ⟨z, h6, h7⟩ := h3 k (by omega)
        exact ⟨z, by rw [List.getElem?_append_left (by omega)]; exact h6, h7⟩

theorem voxelAt_ok {b : Block ℚ V} {k : ℕ} (hk : k < b.voxels.length) : ∃ x, voxelAt b k = .ok x ∧ b.voxels[k]? = some x := by
  refine ⟨b.voxels[k], ?_, List.getElem?_eq_getElem hk⟩
  unfold voxelAt
  rw [List.getElem?_eq_getElem hk]

/-- Replacing a block by one of the same geometry. -/
theorem replace_wf {l : VLayer V} (wf : WellFormed l) {i : Idx} {b : Block ℚ V} (hb : b.vps = l.cfg.vps ∧ b.voxelSize = l.cfg.voxelSize ∧
    b.origin = ⟨i.x * (l.cfg.voxelSize * l.cfg.vps), i.y * (l.cfg.voxelSize * l.cfg.vps), i.z * (l.cfg.voxelSize * l.cfg.vps)⟩ ∧
    b.voxels.length = l.cfg.vps * l.cfg.vps * l.cfg.vps) : WellFormed (modifyBlock l i fun _ => b) := by
  refine ⟨wf.size_pos, wf.side_pos, wf.side_le, ?_⟩
  intro j c hc
  have hc' : block? (modifyBlock l i fun _ => b) j = some c := hc
  rw [modifyBlock_block?] at hc'
  rw [modifyBlock_cfg]
  split_ifs at hc' with hj
  · cases h0 : block? l j with
    | none => rw [h0] at hc'; cases hc'
    | some b0 =>
      rw [h0] at hc'
      simp only [Option.map_some, Option.some.injEq] at hc'
      rw [← hc', hj]
      exact hb
  · exact wf.block _ _ hc'

theorem replace_content {l : VLayer V} (wf : WellFormed l) {i : Idx} {b : Block ℚ V} (hb : b.vps = l.cfg.vps ∧ b.voxelSize = l.cfg.voxelSize ∧
    b.origin = ⟨i.x * (l.cfg.voxelSize * l.cfg.vps), i.y * (l.cfg.voxelSize * l.cfg.vps), i.z * (l.cfg.voxelSize * l.cfg.vps)⟩ ∧
    b.voxels.length = l.cfg.vps * l.cfg.vps * l.cfg.vps) (hi : Allocated l i) (g : Idx) :
    content (modifyBlock l i fun _ => b) g =
      if blockOf l.cfg.vps g = i then b.voxels[linearIndex l.cfg.vps (localOf l.cfg.vps g)]? else content l g := by
  rw [content_eq (replace_wf wf hb), content_eq wf, modifyBlock_cfg, modifyBlock_block?]
  split_ifs with h
  · obtain ⟨b0, hb0⟩ := Option.isSome_iff_exists.1 hi
    rw [h, show block? l i = some b0 from hb0]
    rfl
  · rfl

theorem replace_status {l : VLayer V} {i : Idx} {b : Block ℚ V} (hi : Allocated l i) (j : Idx) :
    status (modifyBlock l i fun _ => b) j = if j = i then some (b.hasData, b.updated) else status l j := by
  have e : ∀ l : VLayer V, status l j = (block? l j).map fun b => (b.hasData, b.updated) := fun _ => rfl
  rw [e, e, modifyBlock_block?]
  split_ifs with h
  · obtain ⟨b0, hb0⟩ := Option.isSome_iff_exists.1 hi
    rw [h, show block? l i = some b0 from hb0]
    rfl
  · rfl

theorem marked_iff {l : VLayer V} {i : Idx} {b : Block ℚ V} (h : block? l i = some b) : Marked l i ↔ b.hasData = true := by
  have e : status l i = some (b.hasData, b.updated) := by
    show (l.blocks.lookup i).map _ = _
    rw [show l.blocks.lookup i = some b from h]
    rfl
  unfold Marked
  rw [e]
  simp

open Classical in
theorem mergeStep_ok (ops : Ops V) {src dst : VLayer V} (ws : WellFormed src) (wd : WellFormed dst) (hcfg : src.cfg = dst.cfg) (i : Idx)
    (hm : ∀ g a, blockOf dst.cfg.vps g = i → content src g = some a → Marked src i → ∃ c, ops.merge a ((content dst g).getD ops.dflt) = .ok c) :
    ∃ dst', mergeStep ops src dst i = .ok dst' ∧ dst'.cfg = dst.cfg ∧ WellFormed dst' ∧
      (∀ g, blockOf dst.cfg.vps g ≠ i → content dst' g = content dst g) ∧
      (∀ g, blockOf dst.cfg.vps g = i → ∃ y, content dst' g = some y ∧ MergedTo ops.dflt ops.merge src dst g y) ∧
      (∀ j, j ≠ i → status dst' j = status dst j) ∧ ∃ st, status dst' i = some st ∧ MergedStatus src dst i st := by
  have wa := allocateBlock_wf wd ops.dflt i
  have ca := fun g => allocateBlock_content wd ops.dflt i g
  have sa := fun j => allocateBlock_status ops.dflt dst i j
  have ea := allocateBlock_cfg ops.dflt dst i
  set d := allocateBlock ops.dflt dst i with hd
  have keep : (∀ g, blockOf dst.cfg.vps g ≠ i → content d g = content dst g) ∧ (∀ j, j ≠ i → status d j = status dst j) ∧
      status d i = some ((status dst i).getD (false, Flags.ofBool false)) ∧
      ∀ g, blockOf dst.cfg.vps g = i → content d g = some ((content dst g).getD ops.dflt) :=
    ⟨fun g h => by rw [ca, if_neg h], fun j h => by rw [sa, if_neg h], by rw [sa, if_pos rfl], fun g h => by rw [ca, if_pos h]⟩
  obtain ⟨b, hb⟩ : ∃ b, block? d i = some b := by
    rw [hd, allocateBlock_block?, if_pos rfl]
    exact ⟨_, rfl⟩
  unfold mergeStep
  simp only [← hd, hb]
  cases ha : block? src i with
  | none =>
    have hno : ∀ g, blockOf dst.cfg.vps g = i → content src g = none := by
      intro g hg
      rw [content_eq ws, hcfg, hg, ha]
      rfl
    have hnm : ¬ Marked src i := by
      rintro ⟨u, hu⟩
      have : status src i = none := by
        show (src.blocks.lookup i).map _ = none
        rw [show src.blocks.lookup i = none from ha]; rfl
      rw [this] at hu
      cases hu
    refine ⟨d, rfl, ea, wa, keep.1, ?_, keep.2.1, _, keep.2.2.1, fun h => absurd h hnm, fun _ => rfl⟩
    intro g hg
    exact ⟨_, keep.2.2.2 g hg, fun _ => rfl, fun a h => (by rw [hno g hg] at h; cases h), fun a h => (by rw [hno g hg] at h; cases h)⟩
  | some a =>
    obtain ⟨a1, a2, a3, a4⟩ := ws.block _ _ ha
    obtain ⟨b1, b2, b3, b4⟩ := wa.block _ _ hb
    rw [ea] at b1 b2 b3 b4
    simp only
    unfold mergeBlock
    rw [show Outcome.check (decide (a.voxelSize = b.voxelSize)) = .ok () by simp [Outcome.check, a2, b2, hcfg],
      show Outcome.check (decide (a.vps = b.vps)) = .ok () by simp [Outcome.check, a1, b1, hcfg]]
    simp only [Outcome.bind_ok]
    have hmk := marked_iff ha
    have hal : Allocated d i := by
      show (block? d i).isSome = true
      rw [hb]; rfl
    have hcon : ∀ g, blockOf dst.cfg.vps g = i → ∃ x y, content src g = some x ∧ a.voxels[linearIndex dst.cfg.vps (localOf dst.cfg.vps g)]? = some x ∧
        b.voxels[linearIndex dst.cfg.vps (localOf dst.cfg.vps g)]? = some y ∧ y = (content dst g).getD ops.dflt := by
      intro g hg
      have hlt := (linearIndex_eq wd.side_le (localOf_inBlock wd.side_pos g)).2
      have h1 : linearIndex dst.cfg.vps (localOf dst.cfg.vps g) < a.voxels.length := by rw [a4, hcfg]; exact hlt
      have h2 : linearIndex dst.cfg.vps (localOf dst.cfg.vps g) < b.voxels.length := by rw [b4]; exact hlt
      refine ⟨a.voxels[_], b.voxels[_], ?_, List.getElem?_eq_getElem h1, List.getElem?_eq_getElem h2, ?_⟩
      · rw [content_eq ws, hcfg, hg, ha]
        exact List.getElem?_eq_getElem h1
      · have := keep.2.2.2 g hg
        rw [content_eq wa, ea, hg, hb] at this
        simp only [Option.bind_some, List.getElem?_eq_getElem h2, Option.some.injEq] at this
        exact this
    have hnone : ∀ g, blockOf dst.cfg.vps g = i → content src g ≠ none := by
      intro g hg h
      obtain ⟨x, -, h1, -⟩ := hcon g hg
      rw [h] at h1; cases h1
    cases hda : a.hasData with
    | false =>
      have hnm : ¬ Marked src i := by rw [hmk, hda]; simp
      have hgeo : b.vps = d.cfg.vps ∧ b.voxelSize = d.cfg.voxelSize ∧ b.origin = ⟨i.x * (d.cfg.voxelSize * d.cfg.vps),
        i.y * (d.cfg.voxelSize * d.cfg.vps), i.z * (d.cfg.voxelSize * d.cfg.vps)⟩ ∧ b.voxels.length = d.cfg.vps * d.cfg.vps * d.cfg.vps := by
        rw [ea]; exact ⟨b1, b2, b3, b4⟩
      refine ⟨modifyBlock d i fun _ => b, rfl, ea, replace_wf wa hgeo, ?_, ?_, ?_, (b.hasData, b.updated), ?_, ?_⟩
      · intro g hg
        rw [replace_content wa hgeo hal, ea, if_neg hg]
        exact keep.1 g hg
      · intro g hg
        obtain ⟨x, y, h1, h2, h3, h4⟩ := hcon g hg
        refine ⟨y, by rw [replace_content wa hgeo hal, ea, if_pos hg, h3], fun h => absurd h (hnone g hg), fun _ _ _ => h4, ?_⟩
        intro _ _ h
        rw [hcfg, hg] at h
        exact absurd h hnm
      · intro j hj
        rw [replace_status hal, if_neg hj]
        exact keep.2.1 j hj
      · rw [replace_status hal, if_pos rfl]
      · refine ⟨fun h => absurd h hnm, fun _ => ?_⟩
        have e : status d i = some (b.hasData, b.updated) := by
          show (block? d i).map _ = _
          rw [hb]; rfl
        rw [keep.2.2.1] at e
        injection e with e
        exact e.symm
    | true =>
      have hmt : Marked src i := by rw [hmk, hda]
      simp only [if_true]
      obtain ⟨xs, x1, x2, x3⟩ := mapM_range (f := fun k => do let a ← voxelAt a k; let b ← voxelAt b k; ops.merge a b)
        (P := fun k y => ∃ p q, a.voxels[k]? = some p ∧ b.voxels[k]? = some q ∧ ops.merge p q = .ok y) b.voxels.length (by
          intro k hk
          have hk' : isValidLinearIndex dst.cfg.vps k = true := by
            rw [b4] at hk
            unfold isValidLinearIndex numVoxels
            simp [hk]
          have hn : numVoxels dst.cfg.vps ≤ 2 ^ 31 := by
            have := wd.side_le
            unfold numVoxels
            calc dst.cfg.vps * dst.cfg.vps * dst.cfg.vps ≤ 1290 * 1290 * 1290 := Nat.mul_le_mul (Nat.mul_le_mul this this) this
              _ ≤ _ := by norm_num
          obtain ⟨v, v1, v2, v3⟩ := Props.C01_linear_to_voxel_to_linear hn hk'
          have hlo := localOf_globalIndex (i := i) v2
          have hbl := blockOf_globalIndex (i := i) v2
          obtain ⟨p, q, h1, h2, h3, h4⟩ := hcon _ hbl
          obtain ⟨c, hc⟩ := hm _ p hbl h1 hmt
          rw [hlo, v3] at h2 h3
          rw [← h4] at hc
          refine ⟨c, ?_, p, q, h2, h3, hc⟩
          unfold voxelAt
          rw [h2, h3]
          exact hc)
      rw [show mergeVoxels ops.merge a b = .ok xs from x1]
      simp only [Outcome.bind_ok, Outcome.pure_eq]
      have hgeo : b.vps = d.cfg.vps ∧ b.voxelSize = d.cfg.voxelSize ∧ b.origin = ⟨i.x * (d.cfg.voxelSize * d.cfg.vps),
        i.y * (d.cfg.voxelSize * d.cfg.vps), i.z * (d.cfg.voxelSize * d.cfg.vps)⟩ ∧ xs.length = d.cfg.vps * d.cfg.vps * d.cfg.vps := by
        rw [ea, x2]; exact ⟨b1, b2, b3, b4⟩
      refine ⟨modifyBlock d i fun _ => { b with hasData := true, updated := Flags.setAll, voxels := xs }, rfl, ea, replace_wf wa hgeo, ?_, ?_, ?_,
        (true, Flags.setAll), ?_, fun _ => rfl, fun h => absurd hmt h⟩
      · intro g hg
        rw [replace_content wa hgeo hal, ea, if_neg hg]
        exact keep.1 g hg
      · intro g hg
        obtain ⟨x, y, h1, h2, h3, h4⟩ := hcon g hg
        have hlt := (linearIndex_eq wd.side_le (localOf_inBlock wd.side_pos g)).2
        obtain ⟨z, z1, p, q, z2, z3, z4⟩ := x3 _ (show linearIndex dst.cfg.vps (localOf dst.cfg.vps g) < b.voxels.length by rw [b4]; exact hlt)
        rw [h2] at z2
        rw [h3] at z3
        injection z2 with z2
        injection z3 with z3
        subst z2 z3
        refine ⟨z, by rw [replace_content wa hgeo hal, ea, if_pos hg]; exact z1, fun h => absurd h (hnone g hg), ?_, ?_⟩
        · intro _ _ h
          rw [hcfg, hg] at h
          exact absurd hmt h
        · intro a' ha' _
          rw [h1] at ha'
          injection ha' with ha'
          rw [← ha', ← h4]
          exact z4
      · intro j hj
        rw [replace_status hal, if_neg hj]
        exact keep.2.1 j hj
      · rw [replace_status hal, if_pos rfl]

/-- The loop over a list of distinct blocks. -/
theorem mergeSteps_ok (ops : Ops V) {src B : VLayer V} (ws : WellFormed src) (wb : WellFormed B) (hcfg : src.cfg = B.cfg) (is : List Idx)
    (hn : is.Nodup) (hm : ∀ g a, blockOf B.cfg.vps g ∈ is → content src g = some a → Marked src (blockOf B.cfg.vps g) →
      ∃ c, ops.merge a ((content B g).getD ops.dflt) = .ok c) :
    ∃ B', is.foldlM (mergeStep ops src) B = .ok B' ∧ B'.cfg = B.cfg ∧ WellFormed B' ∧
      (∀ g, blockOf B.cfg.vps g ∉ is → content B' g = content B g) ∧
      (∀ g, blockOf B.cfg.vps g ∈ is → ∃ y, content B' g = some y ∧ MergedTo ops.dflt ops.merge src B g y) ∧
      (∀ j, j ∉ is → status B' j = status B j) ∧ ∀ j ∈ is, ∃ st, status B' j = some st ∧ MergedStatus src B j st := by
  induction is generalizing B with
  | nil => exact ⟨B, rfl, rfl, wb, fun _ _ => rfl, by simp, fun _ _ => rfl, by simp⟩
  | cons i is ih =>
    obtain ⟨hi, hn⟩ := List.nodup_cons.1 hn
    obtain ⟨B1, h1, h2, h3, h4, h5, h6, h7⟩ := mergeStep_ok ops ws wb hcfg i
      (fun g a hg ha hmk => hm g a (by rw [hg]; simp) ha (by rw [hg]; exact hmk))
    have hvps : B1.cfg.vps = B.cfg.vps := by rw [h2]
    obtain ⟨B2, k1, k2, k3, k4, k5, k6, k7⟩ := ih h3 (by rw [h2]; exact hcfg) hn (by
      intro g a hg ha hmk
      rw [hvps] at hg hmk
      rw [h4 g (by intro h; rw [h] at hg; exact hi hg)]
      exact hm g a (by simp [hg]) ha hmk)
    refine ⟨B2, ?_, k2.trans h2, k3, ?_, ?_, ?_, ?_⟩
    · rw [List.foldlM_cons, h1]
      exact k1
    · intro g hg
      rw [List.mem_cons, not_or] at hg
      rw [k4 g (by rw [hvps]; exact hg.2), h4 g hg.1]
    · intro g hg
      rcases List.mem_cons.1 hg with h | h
      · rw [k4 g (by rw [hvps, h]; exact hi)]
        exact h5 g h
      · obtain ⟨y, y1, y2⟩ := k5 g (by rw [hvps]; exact h)
        have hc := h4 g (by intro h'; rw [h'] at h; exact hi h)
        exact ⟨y, y1, fun h => by rw [← hc]; exact y2.absent h, fun a h h' => by rw [← hc]; exact y2.unmarked a h h',
          fun a h h' => by rw [← hc]; exact y2.marked a h h'⟩
    · intro j hj
      rw [List.mem_cons, not_or] at hj
      rw [k6 j hj.2, h6 j hj.1]
    · intro j hj
      rcases List.mem_cons.1 hj with h | h
      · rw [h, k6 i hi]
        exact h7
      · obtain ⟨st, s1, s2⟩ := k7 j h
        have hs := h6 j (by rintro rfl; exact hi h)
        exact ⟨st, s1, s2.1, fun hnm => by rw [← hs]; exact s2.2 hnm⟩

end Vox.Merge
