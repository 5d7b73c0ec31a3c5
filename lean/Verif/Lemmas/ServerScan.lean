/-
Scans mark what they change.
-/
import Verif.Lemmas.ServerMesh
import Verif.Lemmas.TsdfFast
import Verif.Lemmas.TsdfMerged
import Verif.Lemmas.Evaluation

namespace Vox.ServerMesh

open Layer Grid Tsdf TsdfScan Spec

/-! ### The block indices stay distinct -/

theorem modifyBlock_keys {V : Type} (l : VLayer V) (i : Idx) (f : Block ℚ V → Block ℚ V) :
    (modifyBlock l i f).blocks.map (·.1) = l.blocks.map (·.1) := by
  unfold modifyBlock
  simp only [List.map_map]
  refine List.map_congr_left fun e _ => ?_
  simp only [Function.comp_apply]
  split_ifs <;> rfl

theorem visitIn_keys {A : Arith} {P : Params} {l l' : VLayer (TsdfVoxel Fl)} {i v : Idx} {o : Obs} (h : visitIn A P l i v o = .ok l') :
    l'.blocks.map (·.1) = l.blocks.map (·.1) := by
  unfold visitIn at h
  obtain ⟨x, -, h⟩ := Outcome.bind_eq_ok.1 h
  obtain ⟨y, -, h⟩ := Outcome.bind_eq_ok.1 h
  unfold writeVoxel at h
  split at h
  · cases h
  · split_ifs at h
    rw [← Outcome.ok.inj h, modifyBlock_keys, modifyBlock_keys]

theorem visit_keys {A : Arith} {P : Params} {st st' : Store} {w : Visit} (h : visit A P st w = .ok st') :
    st'.layer.blocks.map (·.1) = st.layer.blocks.map (·.1) := by
  unfold visit at h
  obtain ⟨⟨i, v⟩, -, h⟩ := Outcome.bind_eq_ok.1 h
  dsimp only at h
  split at h
  · obtain ⟨l, h1, h⟩ := Outcome.bind_eq_ok.1 h
    rw [← Outcome.ok.inj h]
    exact visitIn_keys h1
  · obtain ⟨l, h1, h⟩ := Outcome.bind_eq_ok.1 h
    rw [← Outcome.ok.inj h]

theorem merge_nodup (bs : List (Idx × Block ℚ (TsdfVoxel Fl))) : ∀ {l l' : VLayer (TsdfVoxel Fl)}, (l.blocks.map (·.1)).Nodup →
    bs.foldlM TsdfScan.insertBlock l = .ok l' → (l'.blocks.map (·.1)).Nodup := by
  induction bs with
  | nil =>
    intro l l' hl h
    rw [← Outcome.ok.inj h]
    exact hl
  | cons e bs ih =>
    intro l l' hl h
    rw [List.foldlM_cons] at h
    obtain ⟨l1, h1, h⟩ := Outcome.bind_eq_ok.1 h
    refine ih ?_ h
    unfold TsdfScan.insertBlock at h1
    split at h1
    · cases h1
    · rename_i hb
      rw [← Outcome.ok.inj h1]
      simp only [List.map_cons, List.nodup_cons]
      refine ⟨fun hc => ?_, hl⟩
      rw [← Export.block_isSome_iff, hb] at hc
      cases hc

theorem runs_keys {A : Arith} {P : Params} {n : ℕ} {s s' : Pool} (h : Runs A P n s s') :
    s'.store.layer.blocks.map (·.1) = s.store.layer.blocks.map (·.1) := by
  induction h with
  | refl => rfl
  | step _ ha ih =>
    rw [← ih]
    cases ha with
    | take => rfl
    | own => rfl
    | visit _ _ _ _ _ _ h => exact visit_keys h

theorem fastRuns_keys {A : Arith} {P : Params} {n : ℕ} {s s' : FastPool} (h : FastRuns A P n s s') :
    s'.store.layer.blocks.map (·.1) = s.store.layer.blocks.map (·.1) := by
  induction h with
  | refl => rfl
  | step _ ha ih =>
    rw [← ih]
    cases ha with
    | update _ _ _ _ _ _ _ h => exact visit_keys h
    | _ => rfl

theorem parallel_nodup {A : Arith} {P : Params} {n : ℕ} {l l' : VLayer (TsdfVoxel Fl)} {todo : List Job} {queue : ℕ → List Job}
    (hl : (l.blocks.map (·.1)).Nodup) (h : Parallel A P n l todo queue (.ok l')) : (l'.blocks.map (·.1)).Nodup := by
  generalize hres : (Outcome.ok l' : Outcome (VLayer (TsdfVoxel Fl))) = r at h
  cases h with
  | fault hrun hf => subst hres; cases hf
  | done hrun hdone =>
    refine merge_nodup _ ?_ hres.symm
    rw [runs_keys hrun]
    exact hl

/-! ### What is added is marked -/

theorem blockOf_range {l : VLayer (TsdfVoxel Fl)} (wf : WellFormed l) {g : Idx} (hg : g.All fun c => |c| ≤ 2 ^ 24) :
    BlockInRange l (blockOf l.cfg.vps g) := by
  have hp := wf.side_pos
  have hle := wf.side_le
  have key : ∀ c : ℤ, |c| ≤ 2 ^ 24 → -2 ^ 30 ≤ c / (l.cfg.vps : ℤ) * l.cfg.vps ∧ (c / (l.cfg.vps : ℤ) + 2) * l.cfg.vps ≤ 2 ^ 30 := by
    intro c hc
    rw [abs_le] at hc
    have e := Int.mul_ediv_add_emod c (l.cfg.vps : ℤ)
    have m0 := Int.emod_nonneg c (b := (l.cfg.vps : ℤ)) (by omega)
    have m1 := Int.emod_lt_of_pos c (b := (l.cfg.vps : ℤ)) (by omega)
    have e2 : c / (l.cfg.vps : ℤ) * l.cfg.vps = c - c % (l.cfg.vps : ℤ) := by rw [mul_comm]; omega
    constructor
    · rw [e2]; omega
    · rw [add_mul, e2]; omega
  exact ⟨key _ hg.1, key _ hg.2.1, key _ hg.2.2⟩

theorem adds_marked {A : Arith} {P : Params} {l l' : VLayer (TsdfVoxel Fl)} {ws : List Visit} (hl : MapSound l) (h : Adds A P l ws l')
    (hr : InReach ws) (hn : (l'.blocks.map (·.1)).Nodup) : MarkedChange l l' := by
  have es : ∀ (l : VLayer (TsdfVoxel Fl)) i, status l i = (block? l i).map fun b => (b.hasData, b.updated) := fun _ _ => rfl
  have hiff : ∀ i, ¬ Touched l.cfg.vps ws i → (block? l' i).isSome = (block? l i).isSome := by
    intro i hi
    have := congrArg Option.isSome (h.unmarked i hi)
    simpa [es] using this
  refine ⟨h.cfg, ⟨h.wellFormed, hn, ?_⟩, ?_, ?_⟩
  · intro i hi
    unfold BlockInRange
    rw [h.cfg]
    by_cases ht : Touched l.cfg.vps ws i
    · obtain ⟨w, hw, rfl⟩ := ht
      exact blockOf_range hl.wf (hr w hw)
    · rw [hiff i ht] at hi
      exact hl.range i hi
  · intro i hi
    by_cases ht : Touched l.cfg.vps ws i
    · have := h.marked i ht
      rw [es] at this
      obtain ⟨b, hb, -⟩ := Option.map_eq_some_iff.1 this
      rw [hb]; rfl
    · rw [hiff i ht]
      exact hi
  · intro i b' hb' hf
    have ht : ¬ Touched l.cfg.vps ws i := by
      intro ht
      have := h.marked i ht
      rw [es, hb'] at this
      have hu := (Prod.mk.inj (Option.some.inj this)).2
      rw [hu] at hf
      cases hf
    have hst := h.unmarked i ht
    rw [es, es, hb'] at hst
    cases hb : block? l i with
    | none => rw [hb] at hst; cases hst
    | some b =>
      rw [hb] at hst
      have hu : b'.updated = b.updated := (Prod.mk.inj (Option.some.inj hst)).2
      refine ⟨b, rfl, by rw [← hu]; exact hf, ?_⟩
      have l1 := (hl.wf.block i b hb).2.2.2
      have l2 := (h.wellFormed.block i b' hb').2.2.2
      rw [h.cfg] at l2
      refine List.ext_getElem? fun k => ?_
      by_cases hk : k < l.cfg.vps * l.cfg.vps * l.cfg.vps
      · obtain ⟨v, hv, rfl⟩ := Eval.exists_loc hl.wf.side_le hk
        have hc := h.untouched (globalIndex l.cfg.vps i v) (by rw [blockOf_globalIndex hv]; exact ht)
        rw [content_eq h.wellFormed, content_eq hl.wf, h.cfg, blockOf_globalIndex hv, localOf_globalIndex hv, hb, hb'] at hc
        exact hc.symm
      · rw [List.getElem?_eq_none (by omega), List.getElem?_eq_none (by omega)]

theorem MarkedChange.trans {V : Type} {l l₁ l₂ : VLayer V} (h : MarkedChange l l₁) (h' : MarkedChange l₁ l₂) : MarkedChange l l₂ := by
  refine ⟨h'.cfg.trans h.cfg, h'.sound, fun i hi => h'.keeps i (h.keeps i hi), fun i b2 hb2 hf => ?_⟩
  obtain ⟨b1, hb1, hf1, e1⟩ := h'.marked i b2 hb2 hf
  obtain ⟨b, hb, hf0, e0⟩ := h.marked i b1 hb1 hf1
  exact ⟨b, hb, hf0, e0.trans e1⟩

end Vox.ServerMesh
