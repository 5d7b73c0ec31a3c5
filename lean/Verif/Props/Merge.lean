/-
Properties C22, C23 and C65: merging, resampling and transforming layers. (Exact arithmetic.)
-/
import Verif.Lemmas.TransformTsdf
import Verif.Props.Tsdf
import Verif.Lemmas.Serial

namespace Vox.Merge

open Layer Grid Spec Interp

variable {V : Type}

/-! ### Example data -/

instance (l : VLayer V) (i : Idx) : Decidable (Allocated l i) := inferInstanceAs (Decidable (_ = true))

/-- A one-block layer with 2 voxels per side and the voxel size `s`, every voxel holding `v`. -/
def exOne (s : ℚ) (i : Idx) (marked : Bool) (v : TsdfVoxel ℚ) : VLayer (TsdfVoxel ℚ) :=
  ⟨⟨s, 2⟩, [(i, ⟨2, s, ⟨i.x * (s * 2), i.y * (s * 2), i.z * (s * 2)⟩, marked, Flags.setAll, List.replicate 8 v⟩)]⟩

theorem exOne_wf {s : ℚ} (hs : 0 < s) (i : Idx) (m : Bool) (v : TsdfVoxel ℚ) : WellFormed (exOne s i m v) := by
  refine ⟨hs, by simp [exOne], by simp [exOne], ?_⟩
  intro j b h
  unfold exOne at h
  by_cases hj : j = i
  · subst hj
    simp only [List.lookup_cons, BEq.rfl, Option.some.injEq] at h
    subst h
    refine ⟨rfl, rfl, ?_, rfl⟩
    simp [exOne]
  · have : (j == i) = false := by simpa using hj
    simp [List.lookup_cons, this] at h

def exA : VLayer (TsdfVoxel ℚ) := exOne (1 / 2) ⟨0, 0, 0⟩ true ⟨1 / 4, 3, ⟨200#8, 100#8, 0#8, 255#8⟩⟩
def exB : VLayer (TsdfVoxel ℚ) := exOne (1 / 2) ⟨0, 0, 0⟩ false ⟨1 / 2, 1, ⟨100#8, 100#8, 0#8, 255#8⟩⟩

/-! ## C22 merging layers of the same resolution -/

theorem mergeLayer_same (ops : Ops V) (order : List Idx → List Idx) {A B : VLayer V} (hcfg : A.cfg = B.cfg) :
    mergeLayer ops order A B = (A.blocks.map (·.1)).foldlM (mergeStep ops A) B := by
  unfold mergeLayer mergeSource
  rw [if_neg (by simp [hcfg])]
  rfl

/-- What merging does to every voxel and every block, whichever blocks are marked. -/
theorem merge_effect (ops : Ops V) (order : List Idx → List Idx) {A B : VLayer V} (wa : WellFormed A) (wb : WellFormed B) (hcfg : A.cfg = B.cfg)
    (hn : (A.blocks.map (·.1)).Nodup)
    (hm : ∀ g a, content A g = some a → Marked A (blockOf A.cfg.vps g) → ∃ c, ops.merge a ((content B g).getD ops.dflt) = .ok c) :
    ∃ B', mergeLayer ops order A B = .ok B' ∧ WellFormed B' ∧ B'.cfg = B.cfg ∧
      (∀ g, content A g = none → content B' g = content B g) ∧
      (∀ g a, content A g = some a → ∃ y, content B' g = some y ∧ MergedTo ops.dflt ops.merge A B g y) ∧
      (∀ j, ¬ Allocated A j → status B' j = status B j) ∧ ∀ j, Allocated A j → ∃ st, status B' j = some st ∧ MergedStatus A B j st := by
  have hno : ∀ g, content A g = none ↔ blockOf B.cfg.vps g ∉ A.blocks.map (·.1) := by
    intro g
    rw [← allocated_iff_mem, ← hcfg]
    have := content_isSome wa g
    show _ ↔ ¬ (block? A _).isSome = true
    rw [← this]
    cases content A g <;> simp
  obtain ⟨B', h1, h2, h3, h4, h5, h6, h7⟩ := mergeSteps_ok ops wa wb hcfg _ hn fun g a _ ha hmk => hm g a ha (by rw [hcfg]; exact hmk)
  refine ⟨B', (mergeLayer_same ops order hcfg).trans h1, h3, h2, fun g hg => h4 g ((hno g).1 hg), ?_, ?_, ?_⟩
  · intro g a ha
    refine h5 g ?_
    by_contra hc
    rw [(hno g).2 hc] at ha
    cases ha
  · intro j hj
    exact h6 j (by rwa [← allocated_iff_mem])
  · intro j hj
    exact h7 j (allocated_iff_mem.1 hj)

/-- **C22** (partial). For a map A all of whose blocks are marked as having data: every voxel of the result is the merge of the
former A and B voxels (a default-constructed voxel standing for a missing one in B), voxels outside A are unchanged, and the
blocks of the result are those of A and B together. The full claim has no condition on the marks; without them it is false
(`C22_not_transferred`), and the integrators never set them (`C22_integrated`). -/
theorem C22_merge_partial (ops : Ops V) (order : List Idx → List Idx) {A B : VLayer V} (wa : WellFormed A) (wb : WellFormed B)
    (hcfg : A.cfg = B.cfg) (hn : (A.blocks.map (·.1)).Nodup) (hall : ∀ i, Allocated A i → Marked A i)
    (hm : ∀ g a, content A g = some a → ∃ c, ops.merge a ((content B g).getD ops.dflt) = .ok c) :
    ∃ B', mergeLayer ops order A B = .ok B' ∧ WellFormed B' ∧ B'.cfg = B.cfg ∧
      (∀ i, Allocated B' i ↔ Allocated A i ∨ Allocated B i) ∧ (∀ i, Allocated A i → status B' i = some (true, Flags.setAll)) ∧
      (∀ g, content A g = none → content B' g = content B g) ∧
      ∀ g a, content A g = some a → ∃ y, content B' g = some y ∧ ops.merge a ((content B g).getD ops.dflt) = .ok y := by
  obtain ⟨B', h1, h2, h3, h4, h5, h6, h7⟩ := merge_effect ops order wa wb hcfg hn fun g a ha _ => hm g a ha
  refine ⟨B', h1, h2, h3, ?_, ?_, h4, ?_⟩
  · intro i
    by_cases hi : Allocated A i
    · obtain ⟨st, hs, -⟩ := h7 i hi
      rw [allocated_iff_status, hs]
      simp [hi]
    · rw [allocated_iff_status, h6 i hi, ← allocated_iff_status]
      simp [hi]
  · intro i hi
    obtain ⟨st, hs, hst⟩ := h7 i hi
    rw [hs, hst.1 (hall i hi)]
  · intro g a ha
    obtain ⟨y, hy, hym⟩ := h5 g a ha
    refine ⟨y, hy, hym.marked a ha (hall _ ?_)⟩
    have := content_isSome wa g
    rw [ha] at this
    exact this.symm

/-- Merging two TSDF voxels of non-negative weight is defined. -/
theorem mergeTsdfQ_ok {a b : TsdfVoxel ℚ} (ha : 0 ≤ a.weight) (hb : 0 ≤ b.weight) :
    ∃ y, mergeTsdfQ a b = .ok y ∧ y.weight = a.weight + b.weight ∧
      (0 < a.weight + b.weight → y.distance * (a.weight + b.weight) = a.distance * a.weight + b.distance * b.weight ∧
        min a.distance b.distance ≤ y.distance ∧ y.distance ≤ max a.distance b.distance ∧ ColorBetween y.color a.color b.color) ∧
      (a.weight + b.weight = 0 → y = b) := by
  unfold mergeTsdfQ
  rcases eq_or_lt_of_le (add_nonneg ha hb) with h0 | hpos
  · have ea : a.weight = 0 := by linarith
    have eb : b.weight = 0 := by linarith
    rw [Tsdf.C21_both_zero (Arith.exact fun _ => .nan) rfl ⟨.fin a.distance, .fin a.weight, a.color⟩ ⟨.fin b.distance, .fin b.weight, b.color⟩
      (by rw [ea]) (by rw [eb])]
    exact ⟨b, rfl, by rw [ea, zero_add], fun h => absurd h (by rw [← h0]; exact lt_irrefl _), fun _ => rfl⟩
  · obtain ⟨v, D, h1, h2, h3, h4, h5, h6, h7⟩ := Tsdf.C21_weighted_mean (fun _ => .nan) ⟨.fin a.distance, .fin a.weight, a.color⟩
      ⟨.fin b.distance, .fin b.weight, b.color⟩ a.distance b.distance a.weight b.weight rfl rfl rfl rfl ha hb hpos
    rw [h1]
    obtain ⟨vd, vw, vc⟩ := v
    simp only at h2 h3
    subst h2 h3
    exact ⟨⟨D, a.weight + b.weight, vc⟩, rfl, rfl, fun _ => ⟨h4, h5, h6, h7⟩, fun h => absurd h (ne_of_gt hpos)⟩

/-- **C22** (partial). TSDF maps with non-negative weights: weights add up, distances are the weighted means. -/
theorem C22_tsdf_partial (order : List Idx → List Idx) {A B : VLayer (TsdfVoxel ℚ)} (wa : WellFormed A) (wb : WellFormed B)
    (hcfg : A.cfg = B.cfg) (hn : (A.blocks.map (·.1)).Nodup) (hall : ∀ i, Allocated A i → Marked A i)
    (hA : ∀ g a, content A g = some a → 0 ≤ a.weight) (hB : ∀ g b, content B g = some b → 0 ≤ b.weight) :
    ∃ B', mergeLayer tsdfOps order A B = .ok B' ∧ (∀ g, content A g = none → content B' g = content B g) ∧
      (∀ g a b, content A g = some a → content B g = some b → ∃ y, content B' g = some y ∧ y.weight = a.weight + b.weight ∧
        (0 < a.weight + b.weight → y.distance * (a.weight + b.weight) = a.distance * a.weight + b.distance * b.weight ∧
          ColorBetween y.color a.color b.color) ∧ (a.weight + b.weight = 0 → y = b)) ∧
      ∀ g a, content A g = some a → content B g = none → 0 < a.weight →
        ∃ y, content B' g = some y ∧ y.weight = a.weight ∧ y.distance = a.distance ∧ y.color = a.color := by
  have hd : ∀ g, 0 ≤ ((content B g).getD tsdfOps.dflt).weight := by
    intro g
    cases h : content B g with
    | none => exact le_rfl
    | some b => exact hB g b h
  obtain ⟨B', h1, -, -, -, -, h6, h7⟩ := C22_merge_partial tsdfOps order wa wb hcfg hn hall fun g a ha => by
    obtain ⟨y, hy, -⟩ := mergeTsdfQ_ok (hA g a ha) (hd g)
    exact ⟨y, hy⟩
  refine ⟨B', h1, h6, ?_, ?_⟩
  · intro g a b ha hb
    obtain ⟨y, hy, hmy⟩ := h7 g a ha
    rw [hb] at hmy
    obtain ⟨y', hy', w, p, z⟩ := mergeTsdfQ_ok (hA g a ha) (hB g b hb)
    have e : y = y' := Outcome.ok.inj (hmy.symm.trans hy')
    subst e
    exact ⟨y, hy, w, fun h => ⟨(p h).1, (p h).2.2.2⟩, z⟩
  · intro g a ha hb hw
    obtain ⟨y, hy, hmy⟩ := h7 g a ha
    rw [hb] at hmy
    have hz := (Tsdf.C21_zero_neutral (fun _ => .nan) ⟨.fin 0, .fin 0, Color.default⟩ ⟨.fin a.distance, .fin a.weight, a.color⟩ 0 a.distance
      a.weight rfl rfl rfl rfl hw).2
    have hmy' : mergeTsdfQ a ⟨0, 0, Color.default⟩ = .ok y := hmy
    unfold mergeTsdfQ at hmy'
    rw [hz] at hmy'
    have e := Outcome.ok.inj hmy'
    exact ⟨y, hy, by rw [← e], by rw [← e], by rw [← e]⟩

theorem exA_marked : ∀ i, Allocated exA i → Marked exA i := by
  intro i hi
  have h0 : i = ⟨0, 0, 0⟩ := by
    rw [allocated_iff_mem] at hi
    simpa [exA, exOne] using hi
  subst h0
  exact ⟨Flags.setAll, by decide +kernel⟩

/-- The merged block of `exA` into `exB`: weight 3 + 1, distance (3/4 + 1/2) / 4. -/
example : WellFormed exA ∧ WellFormed exB ∧ exA.cfg = exB.cfg ∧ (exA.blocks.map (·.1)).Nodup ∧ (∀ i, Allocated exA i → Marked exA i) ∧
    (match mergeLayer tsdfOps id exA exB with
      | .ok r => decide (content r ⟨1, 0, 1⟩ = some ⟨5 / 16, 4, ⟨175#8, 100#8, 0#8, 255#8⟩⟩)
      | _ => false) = true :=
  ⟨exOne_wf (by norm_num) _ _ _, exOne_wf (by norm_num) _ _ _, rfl, by decide +kernel, exA_marked, by decide +kernel⟩

/-- **C22.** A map none of whose blocks is marked: merging transfers no voxel; it only allocates the missing blocks, filled with
default-constructed voxels. -/
theorem C22_unmarked (ops : Ops V) (order : List Idx → List Idx) {A B : VLayer V} (wa : WellFormed A) (wb : WellFormed B)
    (hcfg : A.cfg = B.cfg) (hn : (A.blocks.map (·.1)).Nodup) (hnone : ∀ i, ¬ Marked A i) :
    ∃ B', mergeLayer ops order A B = .ok B' ∧ (∀ g b, content B g = some b → content B' g = some b) ∧
      (∀ g a, content B g = none → content A g = some a → content B' g = some ops.dflt) ∧
      ∀ g, content B g = none → content A g = none → content B' g = none := by
  obtain ⟨B', h1, -, -, h4, h5, -, -⟩ := merge_effect ops order wa wb hcfg hn fun g a _ hmk => absurd hmk (hnone _)
  refine ⟨B', h1, ?_, ?_, fun g hb ha => (h4 g ha).trans hb⟩
  · intro g b hb
    cases ha : content A g with
    | none => rw [h4 g ha, hb]
    | some a =>
      obtain ⟨y, hy, hym⟩ := h5 g a ha
      rw [hy, hym.unmarked a ha (hnone _), hb]
      rfl
  · intro g a hb ha
    obtain ⟨y, hy, hym⟩ := h5 g a ha
    rw [hy, hym.unmarked a ha (hnone _), hb]
    rfl

theorem filled_unmarked {dflt : V} {cfg : Cfg} {l : VLayer V} (h : Filled dflt cfg l) (i : Idx) : ¬ Marked l i := by
  induction h with
  | empty => rintro ⟨u, hu⟩; cases hu
  | allocate j _ _ _ hs ih =>
    rintro ⟨u, hu⟩
    rw [hs] at hu
    split_ifs at hu with hj
    · rename_i l _ _ _ _
      cases h' : status l i with
      | none => rw [h'] at hu; cases hu
      | some st =>
        rw [h'] at hu
        exact ih ⟨u, by rw [h']; exact hu⟩
    · exact ih ⟨u, hu⟩
  | assign g x _ _ _ _ hs ih =>
    rintro ⟨u, hu⟩
    rw [hs] at hu
    exact ih ⟨u, hu⟩
  | flags j w _ _ _ hs ih =>
    rintro ⟨u, hu⟩
    rw [hs] at hu
    split_ifs at hu with hj
    · rename_i l _ _ _ _
      cases h' : status l i with
      | none => rw [h'] at hu; cases hu
      | some st =>
        rw [h'] at hu
        simp only [Option.map_some, Option.some.injEq, Prod.mk.injEq] at hu
        exact ih ⟨st.2, by rw [h', ← hu.1]⟩
    · exact ih ⟨u, hu⟩

/-- **C22.** Merging a map filled by allocation, voxel assignment and update flags — what the integrators do — transfers no
voxel. -/
theorem C22_integrated (ops : Ops V) (order : List Idx → List Idx) {A B : VLayer V} (wa : WellFormed A) (wb : WellFormed B)
    (hcfg : A.cfg = B.cfg) (hn : (A.blocks.map (·.1)).Nodup) {cfg : Cfg} (hf : Filled ops.dflt cfg A) :
    ∃ B', mergeLayer ops order A B = .ok B' ∧ (∀ g b, content B g = some b → content B' g = some b) ∧
      ∀ g a, content B g = none → content A g = some a → content B' g = some ops.dflt := by
  obtain ⟨B', h1, h2, h3, -⟩ := C22_unmarked ops order wa wb hcfg hn (filled_unmarked hf)
  exact ⟨B', h1, h2, h3⟩

/-- The model's own operations are such steps. -/
theorem filled_allocateBlock {dflt : V} {l : VLayer V} (wf : WellFormed l) (h : Filled dflt l.cfg l) (i : Idx) :
    Filled dflt l.cfg (allocateBlock dflt l i) :=
  .allocate i h (allocateBlock_cfg dflt l i) (fun g => allocateBlock_content wf dflt i g) (fun j => allocateBlock_status dflt l i j)

theorem filled_writeVoxel {dflt : V} {l l' : VLayer V} (wf : WellFormed l) (h : Filled dflt l.cfg l) {i v : Idx} (hv : InBlock l.cfg.vps v)
    (hi : Allocated l i) {x : V} (hw : writeVoxel l i v x = .ok l') : Filled dflt l.cfg l' := by
  obtain ⟨l'', h1, h2, h3, h4, h5, -⟩ := writeVoxel_ok wf hv hi x
  rw [hw] at h1
  have e := Outcome.ok.inj h1
  subst e
  refine .assign (globalIndex l.cfg.vps i v) x h h2 ?_ h4 h5
  rw [content_isSome wf, blockOf_globalIndex hv]
  exact hi

/-- Block (1,2,0) allocated and one voxel measured: a filled layer, well formed, with distinct block indices. -/
def exFilled : VLayer (TsdfVoxel ℚ) :=
  match writeVoxel (allocateBlock tsdfOps.dflt ⟨⟨1 / 2, 2⟩, []⟩ ⟨1, 2, 0⟩) ⟨1, 2, 0⟩ ⟨1, 0, 1⟩ ⟨1 / 8, 5, ⟨9#8, 8#8, 7#8, 255#8⟩⟩ with
  | .ok l => l
  | _ => ⟨⟨1 / 2, 2⟩, []⟩

theorem empty_wf {cfg : Cfg} (hs : 0 < cfg.voxelSize) (h0 : 0 < cfg.vps) (h1 : cfg.vps ≤ 1290) : WellFormed (⟨cfg, []⟩ : VLayer V) :=
  ⟨hs, h0, h1, fun _ _ h => by cases h⟩

example : WellFormed exFilled ∧ Filled tsdfOps.dflt ⟨1 / 2, 2⟩ exFilled ∧ (exFilled.blocks.map (·.1)).Nodup ∧
    content exFilled ⟨3, 4, 1⟩ = some ⟨1 / 8, 5, ⟨9#8, 8#8, 7#8, 255#8⟩⟩ := by
  have we : WellFormed (⟨⟨1 / 2, 2⟩, []⟩ : VLayer (TsdfVoxel ℚ)) := empty_wf (by norm_num) (by norm_num) (by norm_num)
  have wa := allocateBlock_wf we tsdfOps.dflt ⟨1, 2, 0⟩
  have fa := filled_allocateBlock we (Filled.empty (dflt := tsdfOps.dflt)) ⟨1, 2, 0⟩
  have hal : Allocated (allocateBlock tsdfOps.dflt ⟨⟨1 / 2, 2⟩, []⟩ ⟨1, 2, 0⟩) ⟨1, 2, 0⟩ := by decide +kernel
  have hin : InBlock 2 ⟨1, 0, 1⟩ := by decide
  obtain ⟨l', h1, h2, h3, -⟩ := writeVoxel_ok wa hin hal ⟨1 / 8, 5, ⟨9#8, 8#8, 7#8, 255#8⟩⟩
  have e : exFilled = l' := by
    unfold exFilled
    rw [h1]
  exact ⟨e ▸ h3, e ▸ filled_writeVoxel wa fa hin hal h1, by decide +kernel, by decide +kernel⟩

/-- **C22 is violated:** A holds a measured surface (integrated, hence not marked), B is empty; after the merge B has the block but none
of the data. -/
theorem C22_not_transferred :
    ∃ B', mergeLayer tsdfOps id exFilled ⟨⟨1 / 2, 2⟩, []⟩ = .ok B' ∧
      content exFilled ⟨3, 4, 1⟩ = some ⟨1 / 8, 5, ⟨9#8, 8#8, 7#8, 255#8⟩⟩ ∧ content B' ⟨3, 4, 1⟩ = some ⟨0, 0, Color.default⟩ := by
  refine ⟨allocateBlock tsdfOps.dflt ⟨⟨1 / 2, 2⟩, []⟩ ⟨1, 2, 0⟩, ?_, ?_, ?_⟩ <;> decide +kernel

/-! ## C23 merging layers of different resolution -/

/-- **C23** (partial). What merging layers of different resolution does: the resampled map `R` is merged into B at exactly the block
indices of the *unresampled* map A; at every other block index the result is B, whatever `R` has there; and every block index of A
is allocated in the result, whether or not `R` has that block. The full claim — all blocks of `R` are merged and no others are
created — does not hold (`C23_lost`). -/
theorem C23_effect_partial (ops : Ops V) (order : List Idx → List Idx) {A B R : VLayer V} (wb : WellFormed B)
    (hres : A.cfg.voxelSize ≠ B.cfg.voxelSize ∨ A.cfg.vps ≠ B.cfg.vps) (hn : (A.blocks.map (·.1)).Nodup)
    (hR : transformLayer ops order A Rigid.id ⟨B.cfg, []⟩ = .ok R)
    (hm : ∀ g a, Allocated A (blockOf B.cfg.vps g) → content R g = some a → Marked R (blockOf B.cfg.vps g) →
      ∃ c, ops.merge a ((content B g).getD ops.dflt) = .ok c) :
    ∃ B', mergeLayer ops order A B = .ok B' ∧ WellFormed B' ∧ B'.cfg = B.cfg ∧
      (∀ i, Allocated B' i ↔ Allocated A i ∨ Allocated B i) ∧
      (∀ g, ¬ Allocated A (blockOf B.cfg.vps g) → content B' g = content B g) ∧
      ∀ g, Allocated A (blockOf B.cfg.vps g) → ∃ y, content B' g = some y ∧ MergedTo ops.dflt ops.merge R B g y := by
  have we : WellFormed (⟨B.cfg, []⟩ : VLayer V) := empty_wf wb.size_pos wb.side_pos wb.side_le
  have hR' := hR
  unfold transformLayer at hR'
  obtain ⟨is, -, hR'⟩ := Outcome.bind_eq_ok.1 hR'
  obtain ⟨wr, er⟩ := transformSteps_wf we hR'
  obtain ⟨B', h1, h2, h3, h4, h5, h6, h7⟩ := mergeSteps_ok ops wr wb er _ hn fun g a hg ha hmk => hm g a (allocated_iff_mem.2 hg) ha hmk
  refine ⟨B', ?_, h3, h2, ?_, ?_, ?_⟩
  · unfold mergeLayer mergeSource
    rw [if_pos hres, hR]
    exact h1
  · intro i
    by_cases hi : Allocated A i
    · obtain ⟨st, hs, -⟩ := h7 i (allocated_iff_mem.1 hi)
      rw [allocated_iff_status, hs]
      simp [hi]
    · rw [allocated_iff_status, h6 i (by rwa [← allocated_iff_mem]), ← allocated_iff_status]
      simp [hi]
  · intro g hg
    exact h4 g (by rwa [← allocated_iff_mem])
  · intro g hg
    exact h5 g (allocated_iff_mem.1 hg)

/-- A coarser target: voxel size 1 instead of 1/2, same number of voxels per side. -/
def exCoarse : VLayer (TsdfVoxel ℚ) := exOne 1 ⟨0, 0, 0⟩ true ⟨1 / 2, 1, ⟨100#8, 100#8, 0#8, 255#8⟩⟩

/-- Blocks 0 and 1 along x of a fine map: the resampled map has block 0, which is merged. -/
def exFine : VLayer (TsdfVoxel ℚ) :=
  ⟨⟨1 / 2, 2⟩, exA.blocks ++ (exOne (1 / 2) ⟨1, 1, 1⟩ true ⟨1 / 4, 3, ⟨200#8, 100#8, 0#8, 255#8⟩⟩).blocks⟩

example : (match transformLayer tsdfOps id exFine Rigid.id ⟨exCoarse.cfg, []⟩, mergeLayer tsdfOps id exFine exCoarse with
      | .ok R, .ok B' => decide (R.blocks.map (·.1) = [⟨0, 0, 0⟩] ∧ content R ⟨0, 0, 0⟩ = some ⟨1 / 4, 3, ⟨200#8, 100#8, 0#8, 255#8⟩⟩ ∧
          content B' ⟨0, 0, 0⟩ = some ⟨5 / 16, 4, ⟨175#8, 100#8, 0#8, 255#8⟩⟩ ∧ (B'.blocks.map (·.1)) = [⟨1, 1, 1⟩, ⟨0, 0, 0⟩])
      | _, _ => false) = true := by decide +kernel

/-- **C23 is violated:** A has one block of measured voxels, B is an empty map with voxels of twice the size. The resampled map is
empty — the only output block visited is (-1,-1,-1) — so B ends up with a block of unobserved voxels where A has data, and a block that
the resampled map does not have. -/
theorem C23_lost :
    transformLayer tsdfOps id exA Rigid.id ⟨⟨1, 2⟩, []⟩ = .ok ⟨⟨1, 2⟩, []⟩ ∧
    (∃ B', mergeLayer tsdfOps id exA ⟨⟨1, 2⟩, []⟩ = .ok B' ∧ content B' ⟨0, 0, 0⟩ = some ⟨0, 0, Color.default⟩ ∧
      Allocated B' ⟨0, 0, 0⟩) ∧
    content exA ⟨0, 0, 0⟩ = some ⟨1 / 4, 3, ⟨200#8, 100#8, 0#8, 255#8⟩⟩ := by
  refine ⟨by decide +kernel, ⟨allocateBlock tsdfOps.dflt ⟨⟨1, 2⟩, []⟩ ⟨0, 0, 0⟩, ?_, ?_, ?_⟩, ?_⟩ <;> decide +kernel

/-! ## C65 transforming layers -/

/-- The half side of the cube that is sampled around the image of a block centre. -/
def reach (A : VLayer V) : ℚ := 14529495 / 8388608 * (A.cfg.voxelSize * A.cfg.vps) * (1 / 2)

/-- The image of the centre of block `j` of layer `A`. -/
def imageCenter (A : VLayer V) (T : Rigid) (j : Idx) : Pt :=
  T.apply ⟨((j.x : ℚ) + 1 / 2) * (A.cfg.voxelSize * A.cfg.vps), ((j.y : ℚ) + 1 / 2) * (A.cfg.voxelSize * A.cfg.vps),
    ((j.z : ℚ) + 1 / 2) * (A.cfg.voxelSize * A.cfg.vps)⟩

/-- Which output blocks are visited: the computation is defined if the sampled cubes are in range; every point of the cube around a
block's image that is at least one output block below the cube's upper faces lies in a visited block; and every visited block meets
such a cube (up to the index tolerance). -/
theorem targets_spec {A out : VLayer V} (wo : WellFormed out) (T : Rigid)
    (hr : ∀ j, Allocated A j → (imageCenter A T j).All fun c => |c| + reach A ≤ 2 ^ 30 * out.cfg.voxelSize) :
    ∃ is, targetBlocks A out.cfg.blockSize T = .ok is ∧ is.Nodup ∧
      (∀ j, Allocated A j → ∀ p : Pt, Vec3.All₂ (fun c q => c - reach A ≤ q ∧ q ≤ c + reach A - out.cfg.voxelSize * out.cfg.vps)
        (imageCenter A T j) p → ∀ i : Idx, Vec3.All₂ (fun (k : ℤ) q => (k : ℚ) * (out.cfg.voxelSize * out.cfg.vps) ≤ q ∧
          q < ((k : ℚ) + 1 - 1 / 1000000) * (out.cfg.voxelSize * out.cfg.vps)) i p → i ∈ is) ∧
      ∀ i ∈ is, ∃ j, Allocated A j ∧ ∃ p : Pt, Vec3.All₂ (fun c q => c - reach A ≤ q ∧ q < c + reach A) (imageCenter A T j) p ∧
        Vec3.All₂ (fun (k : ℤ) q => ((k : ℚ) - 1 / 1000000) * (out.cfg.voxelSize * out.cfg.vps) ≤ q ∧
          q < ((k : ℚ) + 1) * (out.cfg.voxelSize * out.cfg.vps)) i p := by
  have hs : 0 < out.cfg.blockSize := mul_pos wo.size_pos (by exact_mod_cast wo.side_pos)
  have key : ∀ j, ∀ p ∈ samplePoints A.cfg.blockSize out.cfg.blockSize T j,
      Vec3.All₂ (fun c q => c - reach A ≤ q ∧ q < c + reach A) (imageCenter A T j) p := by
    intro j p hp
    unfold samplePoints at hp
    simp only [List.mem_flatMap, List.mem_map] at hp
    obtain ⟨x, hx, y, hy, z, hz, rfl⟩ := hp
    exact ⟨samples_range hs hx, samples_range hs hy, samples_range hs hz⟩
  have hmem : ∀ p, p ∈ (A.blocks.map (·.1)).flatMap (samplePoints A.cfg.blockSize out.cfg.blockSize T) ↔
      ∃ j, Allocated A j ∧ p ∈ samplePoints A.cfg.blockSize out.cfg.blockSize T j := by
    intro p
    rw [List.mem_flatMap]
    constructor
    · rintro ⟨j, hj, hp⟩
      exact ⟨j, allocated_iff_mem.2 hj, hp⟩
    · rintro ⟨j, hj, hp⟩
      exact ⟨j, allocated_iff_mem.1 hj, hp⟩
  have hok : ∀ p ∈ (A.blocks.map (·.1)).flatMap (samplePoints A.cfg.blockSize out.cfg.blockSize T),
      gridIndex32 p (1 / out.cfg.blockSize) = .ok (bIdx out p) := by
    intro p hp
    obtain ⟨j, hj, hp⟩ := (hmem p).1 hp
    obtain ⟨hx, hy, hz⟩ := key j p hp
    obtain ⟨rx, ry, rz⟩ := hr j hj
    have rng : ∀ {c q : ℚ}, |c| + reach A ≤ 2 ^ 30 * out.cfg.voxelSize → (c - reach A ≤ q ∧ q < c + reach A) →
        -2 ^ 30 * out.cfg.voxelSize ≤ q ∧ q ≤ 2 ^ 30 * out.cfg.voxelSize := by
      intro c q h1 h2
      have := neg_abs_le c
      have := le_abs_self c
      constructor <;> linarith [h2.1, h2.2]
    exact blockIndexOf_ok wo ⟨rng rx hx, rng ry hy, rng rz hz⟩
  refine ⟨((((A.blocks.map (·.1)).flatMap (samplePoints A.cfg.blockSize out.cfg.blockSize T)).map (bIdx out)).dedup), ?_, List.nodup_dedup _, ?_, ?_⟩
  · unfold targetBlocks
    rw [Serial.mapM_ok _ _ _ hok]
    rfl
  · intro j hj p hp i hi
    rw [List.mem_dedup, List.mem_map]
    have hsx : ∀ {c q : ℚ} {k : ℤ}, (c - reach A ≤ q ∧ q ≤ c + reach A - out.cfg.voxelSize * out.cfg.vps) →
        ((k : ℚ) * (out.cfg.voxelSize * out.cfg.vps) ≤ q ∧ q < ((k : ℚ) + 1 - 1 / 1000000) * (out.cfg.voxelSize * out.cfg.vps)) →
        ∃ x ∈ samples (c - reach A) (c + reach A) out.cfg.blockSize, bAx out.cfg.vps out.cfg.voxelSize x = k := by
      intro c q k h1 h2
      have hs' : 0 < out.cfg.voxelSize * (out.cfg.vps : ℚ) := hs
      obtain ⟨x, hx, hxe⟩ := samples_cover (e := kEpsilon) hs h1.1 h1.2
      refine ⟨x, hx, ?_⟩
      unfold bAx
      have hfl : ⌊q * (1 / (out.cfg.voxelSize * out.cfg.vps)) + kEpsilon⌋ = k := by
        rw [Int.floor_eq_iff, mul_one_div]
        have ke : kEpsilon = 1 / 1000000 := rfl
        have u1 := (le_div_iff₀ hs').2 h2.1
        have u2 := (div_lt_iff₀ hs').2 h2.2
        rw [ke]
        constructor <;> linarith
      exact hxe.trans hfl
    obtain ⟨x, hx, ex⟩ := hsx hp.1 hi.1
    obtain ⟨y, hy, ey⟩ := hsx hp.2.1 hi.2.1
    obtain ⟨z, hz, ez⟩ := hsx hp.2.2 hi.2.2
    refine ⟨⟨x, y, z⟩, (hmem _).2 ⟨j, hj, ?_⟩, ?_⟩
    · unfold samplePoints
      simp only [List.mem_flatMap, List.mem_map]
      exact ⟨x, hx, y, hy, z, hz, rfl⟩
    · unfold bIdx
      ext
      · exact ex
      · exact ey
      · exact ez
  · intro i hi
    rw [List.mem_dedup, List.mem_map] at hi
    obtain ⟨p, hp, rfl⟩ := hi
    obtain ⟨j, hj, hpj⟩ := (hmem p).1 hp
    refine ⟨j, hj, p, key j p hpj, ?_⟩
    have hs' : 0 < out.cfg.voxelSize * (out.cfg.vps : ℚ) := hs
    have bd : ∀ q : ℚ, ((bAx out.cfg.vps out.cfg.voxelSize q : ℚ) - 1 / 1000000) * (out.cfg.voxelSize * out.cfg.vps) ≤ q ∧
        q < ((bAx out.cfg.vps out.cfg.voxelSize q : ℚ) + 1) * (out.cfg.voxelSize * out.cfg.vps) := by
      intro q
      have h1 := Int.floor_le (q * (1 / (out.cfg.voxelSize * out.cfg.vps)) + kEpsilon)
      have h2 := Int.lt_floor_add_one (q * (1 / (out.cfg.voxelSize * out.cfg.vps)) + kEpsilon)
      have ke : kEpsilon = 1 / 1000000 := rfl
      have hb : bAx out.cfg.vps out.cfg.voxelSize q = ⌊q * (1 / (out.cfg.voxelSize * out.cfg.vps)) + kEpsilon⌋ := rfl
      rw [← hb, mul_one_div] at h1 h2
      rw [ke] at h1 h2
      rw [← le_div_iff₀ hs', ← div_lt_iff₀ hs']
      constructor <;> linarith
    exact ⟨bd _, bd _, bd _⟩

/-- **C65** (partial). Transforming a TSDF layer: the result is defined; blocks that are not visited stay as they were; in a visited
block every voxel becomes the sample of the input at the back-transformed voxel centre (interpolated, else nearest, else unchanged), and
the block is removed if neither it had data nor any sample is data. Which blocks are visited: at least those meeting the image cube of an
allocated block (half side √3/2 block sides around the image of its centre) one output block side or more below its upper faces. The full
claim has every block that meets the image in that set; it fails for the last layer of blocks (`C65_missed`). -/
theorem C65_transform_partial (order : List Idx → List Idx) (hord : ∀ is, (order is).Perm is) {A out : VLayer (TsdfVoxel ℚ)} (wa : WellFormed A)
    (wo : WellFormed out) (T : Rigid)
    (hr : ∀ j, Allocated A j → (imageCenter A T j).All fun c => |c| + reach A ≤ 2 ^ 30 * out.cfg.voxelSize)
    (hadr : ∀ j, Allocated A j → ∀ g : Idx, Vec3.All₂ (fun c (k : ℤ) => c - reach A - 2 * (out.cfg.voxelSize * out.cfg.vps) ≤ k * out.cfg.voxelSize ∧
      k * out.cfg.voxelSize ≤ c + reach A + 2 * (out.cfg.voxelSize * out.cfg.vps)) (imageCenter A T j) g →
      Addressable A (T.unapply (voxelCenter out.cfg.voxelSize g))) :
    ∃ (visited : Idx → Prop) (out' : VLayer (TsdfVoxel ℚ)), transformLayer tsdfOps order A T out = .ok out' ∧ WellFormed out' ∧ out'.cfg = out.cfg ∧
      (∀ j, Allocated A j → ∀ p : Pt, Vec3.All₂ (fun c q => c - reach A ≤ q ∧ q ≤ c + reach A - out.cfg.voxelSize * out.cfg.vps)
        (imageCenter A T j) p → ∀ i : Idx, Vec3.All₂ (fun (k : ℤ) q => (k : ℚ) * (out.cfg.voxelSize * out.cfg.vps) ≤ q ∧
          q < ((k : ℚ) + 1 - 1 / 1000000) * (out.cfg.voxelSize * out.cfg.vps)) i p → visited i) ∧
      (∀ g, ¬ visited (blockOf out.cfg.vps g) → content out' g = content out g) ∧
      ∀ i, visited i → ∃ ρ : Idx → TsdfVoxel ℚ × Bool,
        (∀ g, blockOf out.cfg.vps g = i → SampledTsdf A obsTsdf (T.unapply (voxelCenter out.cfg.voxelSize g))
          ((content out g).getD ⟨0, 0, Color.default⟩) (ρ g)) ∧
        ((Marked out i ∨ ∃ g, blockOf out.cfg.vps g = i ∧ (ρ g).2 = true) →
          Marked out' i ∧ ∀ g, blockOf out.cfg.vps g = i → content out' g = some (ρ g).1) ∧
        (¬ (Marked out i ∨ ∃ g, blockOf out.cfg.vps g = i ∧ (ρ g).2 = true) → ¬ Allocated out' i) := by
  classical
  obtain ⟨is, h1, h2, h3, h4⟩ := targets_spec wo T hr
  have hs : 0 < out.cfg.voxelSize * (out.cfg.vps : ℚ) := mul_pos wo.size_pos (by exact_mod_cast wo.side_pos)
  have hsv := wo.size_pos
  have hadr' : ∀ g, blockOf out.cfg.vps g ∈ is → Addressable A (T.unapply (voxelCenter out.cfg.voxelSize g)) := by
    intro g hg
    obtain ⟨j, hj, p, hp, hpi⟩ := h4 _ hg
    refine hadr j hj g ?_
    have bd : ∀ {c q : ℚ} {k : ℤ}, (c - reach A ≤ q ∧ q < c + reach A) →
        (((k / (out.cfg.vps : ℤ) : ℤ) : ℚ) - 1 / 1000000) * (out.cfg.voxelSize * out.cfg.vps) ≤ q ∧
          q < (((k / (out.cfg.vps : ℤ) : ℤ) : ℚ) + 1) * (out.cfg.voxelSize * out.cfg.vps) →
        c - reach A - 2 * (out.cfg.voxelSize * out.cfg.vps) ≤ k * out.cfg.voxelSize ∧
          k * out.cfg.voxelSize ≤ c + reach A + 2 * (out.cfg.voxelSize * out.cfg.vps) := by
      intro c q k hq hk
      have hn : (0 : ℤ) < out.cfg.vps := by exact_mod_cast wo.side_pos
      have e := Int.mul_ediv_add_emod k out.cfg.vps
      have m0 := Int.emod_nonneg k hn.ne'
      have m1 := Int.emod_lt_of_pos k hn
      have l1 : (out.cfg.vps : ℤ) * (k / out.cfg.vps) ≤ k := by omega
      have l2 : k ≤ (out.cfg.vps : ℤ) * (k / out.cfg.vps) + out.cfg.vps := by omega
      have l1' : (out.cfg.vps : ℚ) * ((k / (out.cfg.vps : ℤ) : ℤ) : ℚ) ≤ k := by exact_mod_cast l1
      have l2' : (k : ℚ) ≤ (out.cfg.vps : ℚ) * ((k / (out.cfg.vps : ℤ) : ℤ) : ℚ) + out.cfg.vps := by exact_mod_cast l2
      have a1 := mul_le_mul_of_nonneg_right l1' hsv.le
      have a2 := mul_le_mul_of_nonneg_right l2' hsv.le
      have r1 := hq.1
      have r2 := hq.2
      have r3 := hk.1
      have r4 := hk.2
      generalize ((k / (out.cfg.vps : ℤ) : ℤ) : ℚ) = m at *
      constructor <;> nlinarith
    exact ⟨bd hp.1 hpi.1, bd hp.2.1 hpi.2.1, bd hp.2.2 hpi.2.2⟩
  have hex : ∀ g, ∃ r, blockOf out.cfg.vps g ∈ is → sampleVoxel tsdfOps A (T.unapply (voxelCenter out.cfg.voxelSize g))
      ((content out g).getD tsdfOps.dflt) = .ok r ∧ SampledTsdf A obsTsdf (T.unapply (voxelCenter out.cfg.voxelSize g))
        ((content out g).getD tsdfOps.dflt) r := by
    intro g
    by_cases hg : blockOf out.cfg.vps g ∈ is
    · obtain ⟨r, hr1, hr2⟩ := sampleTsdf_ok wa (hadr' g hg) ((content out g).getD tsdfOps.dflt)
      exact ⟨r, fun _ => ⟨hr1, hr2⟩⟩
    · exact ⟨(tsdfOps.dflt, false), fun h => absurd h hg⟩
  choose ρ hρ using hex
  have hp := hord is
  obtain ⟨out', k1, k2, k3, k4, k5, k6⟩ := transformSteps_ok tsdfOps A T wo (order is) (hp.nodup_iff.2 h2) ρ fun g hg => (hρ g (hp.mem_iff.1 hg)).1
  refine ⟨fun i => i ∈ is, out', ?_, k3, k2, h3, fun g hg => k4 g fun h => hg (hp.mem_iff.1 h), ?_⟩
  · unfold transformLayer
    rw [h1]
    exact k1
  · intro i hi
    obtain ⟨c1, c2⟩ := k6 i (hp.mem_iff.2 hi)
    exact ⟨ρ, fun g hg => (hρ g (by rw [hg]; exact hi)).2, c1, c2⟩

/-- A shift by 3/10 along x. -/
def exShift : Rigid := ⟨⟨1, 0, 0⟩, ⟨0, 1, 0⟩, ⟨0, 0, 1⟩, ⟨3 / 10, 0, 0⟩⟩

/-- The range conditions hold for a one-block map shifted by 3/10. -/
example : WellFormed exA ∧ (∀ j, Allocated exA j → (imageCenter exA exShift j).All fun c => |c| + reach exA ≤ 2 ^ 30 * (1 / 2)) ∧
    (∀ j, Allocated exA j → ∀ g : Idx, Vec3.All₂ (fun c (k : ℤ) => c - reach exA - 2 * (1 / 2 * 2) ≤ k * (1 / 2 : ℚ) ∧
      k * (1 / 2 : ℚ) ≤ c + reach exA + 2 * (1 / 2 * 2)) (imageCenter exA exShift j) g →
      Addressable exA (exShift.unapply (voxelCenter (1 / 2) g))) := by
  have h0 : ∀ j, Allocated exA j → j = ⟨0, 0, 0⟩ := by
    intro j hj
    rw [allocated_iff_mem] at hj
    simpa [exA, exOne] using hj
  have hc : imageCenter exA exShift ⟨0, 0, 0⟩ = ⟨4 / 5, 1 / 2, 1 / 2⟩ := by decide +kernel
  have hreach : reach exA = 14529495 / 16777216 := by decide +kernel
  refine ⟨exOne_wf (by norm_num) _ _ _, ?_, ?_⟩
  · intro j hj
    rw [h0 j hj, hc, hreach]
    refine ⟨?_, ?_, ?_⟩ <;> norm_num [abs_of_pos]
  · intro j hj g hg
    rw [h0 j hj, hc, hreach] at hg
    obtain ⟨⟨x1, x2⟩, ⟨y1, y2⟩, ⟨z1, z2⟩⟩ := hg
    have e : exShift.unapply (voxelCenter (1 / 2) g) = ⟨((g.x : ℚ) + 1 / 2) * (1 / 2) - 3 / 10, ((g.y : ℚ) + 1 / 2) * (1 / 2), ((g.z : ℚ) + 1 / 2) * (1 / 2)⟩ := by
      unfold Rigid.unapply exShift voxelCenter
      ext <;> simp
    have ev : exA.cfg.voxelSize = 1 / 2 := rfl
    rw [e]
    unfold Addressable
    rw [ev]
    refine ⟨⟨?_, ?_⟩, ⟨?_, ?_⟩, ⟨?_, ?_⟩⟩ <;> dsimp only at * <;> linarith

/-- **C65 is violated:** one block of measured voxels with its corner at the origin, shifted by 3/10 of its side along x. The point
(6/5, 1/4, 1/4) of the image and the centre (5/4, 1/4, 1/4) of the output voxel around it come from measured voxels of the input, but
the output has no block there. -/
theorem C65_missed :
    exShift.unapply ⟨5 / 4, 1 / 4, 1 / 4⟩ = ⟨19 / 20, 1 / 4, 1 / 4⟩ ∧
    content exA ⟨1, 0, 0⟩ = some ⟨1 / 4, 3, ⟨200#8, 100#8, 0#8, 255#8⟩⟩ ∧
    sampleVoxel tsdfOps exA (exShift.unapply ⟨5 / 4, 1 / 4, 1 / 4⟩) tsdfOps.dflt = .ok (⟨1 / 4, 3, ⟨200#8, 100#8, 0#8, 255#8⟩⟩, true) ∧
    (match transformLayer tsdfOps id exA exShift ⟨⟨1 / 2, 2⟩, []⟩ with
      | .ok out' => decide (content out' ⟨1, 0, 0⟩ = some ⟨1 / 4, 3, ⟨200#8, 100#8, 0#8, 255#8⟩⟩ ∧ ¬ Allocated out' ⟨1, 0, 0⟩)
      | _ => false) = true := by
  refine ⟨?_, ?_, ?_, ?_⟩ <;> decide +kernel

/-- **C65** (partial). The identity onto the same grid reproduces every measured voxel, and no other voxel of the result is measured. -/
theorem C65_identity_partial (order : List Idx → List Idx) (hord : ∀ is, (order is).Perm is) {A : VLayer (TsdfVoxel ℚ)} (wa : WellFormed A)
    (hr : ∀ j, Allocated A j → (imageCenter A Rigid.id j).All fun c => |c| + reach A + 4 * (A.cfg.voxelSize * A.cfg.vps) ≤ 2 ^ 30 * A.cfg.voxelSize) :
    ∃ out', transformLayer tsdfOps order A Rigid.id ⟨A.cfg, []⟩ = .ok out' ∧ WellFormed out' ∧ out'.cfg = A.cfg ∧
      (∀ g a, content A g = some a → obsTsdf a = true → content out' g = some a) ∧
      ∀ g a, content out' g = some a → obsTsdf a = true → content A g = some a := by
  classical
  have wo : WellFormed (⟨A.cfg, []⟩ : VLayer (TsdfVoxel ℚ)) := empty_wf wa.size_pos wa.side_pos wa.side_le
  have hsv := wa.size_pos
  have hn1 : (1 : ℚ) ≤ A.cfg.vps := by exact_mod_cast wa.side_pos
  have hs : 0 < A.cfg.voxelSize * (A.cfg.vps : ℚ) := mul_pos wa.size_pos (by linarith)
  have hsle : A.cfg.voxelSize ≤ A.cfg.voxelSize * (A.cfg.vps : ℚ) := by nlinarith
  have hid : ∀ p : Pt, Rigid.id.unapply p = p := by
    intro p
    unfold Rigid.unapply Rigid.id
    ext <;> simp
  have hic : ∀ j : Idx, imageCenter A Rigid.id j = ⟨((j.x : ℚ) + 1 / 2) * (A.cfg.voxelSize * A.cfg.vps),
      ((j.y : ℚ) + 1 / 2) * (A.cfg.voxelSize * A.cfg.vps), ((j.z : ℚ) + 1 / 2) * (A.cfg.voxelSize * A.cfg.vps)⟩ := by
    intro j
    unfold imageCenter Rigid.apply Rigid.id dot
    ext <;> simp
  have hadr : ∀ j, Allocated A j → ∀ g : Idx, Vec3.All₂ (fun c (k : ℤ) => c - reach A - 2 * (A.cfg.voxelSize * A.cfg.vps) ≤ k * A.cfg.voxelSize ∧
      k * A.cfg.voxelSize ≤ c + reach A + 2 * (A.cfg.voxelSize * A.cfg.vps)) (imageCenter A Rigid.id j) g →
      Addressable A (Rigid.id.unapply (voxelCenter A.cfg.voxelSize g)) := by
    intro j hj g hg
    rw [hid]
    obtain ⟨rx, ry, rz⟩ := hr j hj
    have bd : ∀ {c : ℚ} {k : ℤ}, |c| + reach A + 4 * (A.cfg.voxelSize * A.cfg.vps) ≤ 2 ^ 30 * A.cfg.voxelSize →
        (c - reach A - 2 * (A.cfg.voxelSize * A.cfg.vps) ≤ k * A.cfg.voxelSize ∧
          k * A.cfg.voxelSize ≤ c + reach A + 2 * (A.cfg.voxelSize * A.cfg.vps)) →
        -2 ^ 30 * A.cfg.voxelSize ≤ ((k : ℚ) + 1 / 2) * A.cfg.voxelSize ∧ ((k : ℚ) + 1 / 2) * A.cfg.voxelSize ≤ 2 ^ 30 * A.cfg.voxelSize := by
      intro c k h1 h2
      have := neg_abs_le c
      have := le_abs_self c
      constructor <;> linarith [h2.1, h2.2]
    exact ⟨bd rx hg.1, bd ry hg.2.1, bd rz hg.2.2⟩
  obtain ⟨visited, out', h1, hw, hc, h4, h5, h6⟩ := C65_transform_partial order hord wa wo Rigid.id
    (fun j hj => by
      obtain ⟨rx, ry, rz⟩ := hr j hj
      exact ⟨by show _ ≤ 2 ^ 30 * A.cfg.voxelSize; linarith, by show _ ≤ 2 ^ 30 * A.cfg.voxelSize; linarith,
        by show _ ≤ 2 ^ 30 * A.cfg.voxelSize; linarith⟩) hadr
  suffices key : ∀ g a, content A g = some a → obsTsdf a = true → content out' g = some a by
    refine ⟨out', h1, hw, hc, key, fun g b hb hob => ?_⟩
    by_cases hA : ∃ a, content A g = some a ∧ obsTsdf a = true
    · obtain ⟨a, ha, ho⟩ := hA
      rw [ha, ← hb, key g a ha ho]
    · have hun : ∀ a, content A g = some a → obsTsdf a = false := fun a ha => by
        by_contra hn
        exact hA ⟨a, ha, by simpa using hn⟩
      by_cases hv : visited (blockOf A.cfg.vps g)
      · obtain ⟨ρ, r1, r2, r3⟩ := h6 _ hv
        have hsamp := r1 g rfl
        rw [show (⟨A.cfg, []⟩ : VLayer (TsdfVoxel ℚ)).cfg = A.cfg from rfl, hid] at hsamp
        have hg := sampled_unobserved wa hun hsamp
        by_cases hm : Marked (⟨A.cfg, []⟩ : VLayer (TsdfVoxel ℚ)) (blockOf A.cfg.vps g) ∨
            ∃ g', blockOf A.cfg.vps g' = blockOf A.cfg.vps g ∧ (ρ g').2 = true
        · have e := (r2 hm).2 g rfl
          rw [hb, hg] at e
          have e := Option.some.inj e
          cases hl : content A g with
          | some a =>
            rw [hl] at e
            rw [show b = a from e, hun a hl] at hob
            cases hob
          | none =>
            rw [hl] at e
            rw [e] at hob
            revert hob
            show obsTsdf ((content (⟨A.cfg, []⟩ : VLayer (TsdfVoxel ℚ)) g).getD ⟨0, 0, Color.default⟩) = true → _
            rw [show content (⟨A.cfg, []⟩ : VLayer (TsdfVoxel ℚ)) g = none from rfl]
            intro h
            exact absurd h (by decide +kernel)
        · have := content_isSome hw g
          rw [hb, hc] at this
          exact absurd this.symm (r3 hm)
      · have := h5 g hv
        rw [hb] at this
        cases this
  intro g a ha ho
  have hal : Allocated A (blockOf A.cfg.vps g) := by
    have := content_isSome wa g
    rw [ha] at this
    exact this.symm
  have hreach : reach A = 14529495 / 16777216 * (A.cfg.voxelSize * A.cfg.vps) := by unfold reach; ring
  have hvis : visited (blockOf A.cfg.vps g) := by
    have bd : ∀ k : ℤ, (((k : ℚ) + 1 / 2) * (A.cfg.voxelSize * A.cfg.vps) - reach A ≤ ((k : ℚ) + 3 / 10) * (A.cfg.voxelSize * A.cfg.vps) ∧
        ((k : ℚ) + 3 / 10) * (A.cfg.voxelSize * A.cfg.vps) ≤ ((k : ℚ) + 1 / 2) * (A.cfg.voxelSize * A.cfg.vps) + reach A - A.cfg.voxelSize * A.cfg.vps) ∧
        ((k : ℚ) * (A.cfg.voxelSize * A.cfg.vps) ≤ ((k : ℚ) + 3 / 10) * (A.cfg.voxelSize * A.cfg.vps) ∧
          ((k : ℚ) + 3 / 10) * (A.cfg.voxelSize * A.cfg.vps) < ((k : ℚ) + 1 - 1 / 1000000) * (A.cfg.voxelSize * A.cfg.vps)) := by
      intro k
      rw [hreach]
      refine ⟨⟨?_, ?_⟩, ?_, ?_⟩ <;> nlinarith
    refine h4 _ hal ⟨((blockOf A.cfg.vps g).x + 3 / 10) * (A.cfg.voxelSize * A.cfg.vps), ((blockOf A.cfg.vps g).y + 3 / 10) * (A.cfg.voxelSize * A.cfg.vps),
      ((blockOf A.cfg.vps g).z + 3 / 10) * (A.cfg.voxelSize * A.cfg.vps)⟩ ?_ _ ?_
    · rw [hic]
      exact ⟨(bd _).1, (bd _).1, (bd _).1⟩
    · exact ⟨(bd _).2, (bd _).2, (bd _).2⟩
  obtain ⟨ρ, r1, r2, -⟩ := h6 _ hvis
  have hsamp := r1 g rfl
  rw [show (⟨A.cfg, []⟩ : VLayer (TsdfVoxel ℚ)).cfg = A.cfg from rfl, hid] at hsamp
  have hg := sampled_center wa ha ho hsamp
  have := (r2 (Or.inr ⟨g, rfl, by rw [hg]⟩)).2 g rfl
  rw [this, hg]

example : ∀ j, Allocated exA j → (imageCenter exA Rigid.id j).All fun c => |c| + reach exA + 4 * (1 / 2 * 2) ≤ 2 ^ 30 * (1 / 2) := by
  intro j hj
  rw [allocated_iff_mem] at hj
  have h0 : j = ⟨0, 0, 0⟩ := by simpa [exA, exOne] using hj
  have hc : imageCenter exA Rigid.id ⟨0, 0, 0⟩ = ⟨1 / 2, 1 / 2, 1 / 2⟩ := by decide +kernel
  have hreach : reach exA = 14529495 / 16777216 := by decide +kernel
  rw [h0, hc, hreach]
  refine ⟨?_, ?_, ?_⟩ <;> norm_num [abs_of_pos]

/-- The layer `l` is the image of `A` under a transformation that maps voxel centres to voxel centres by the index shift `d`: every voxel of
`A` is found, unchanged, `d` further. -/
def ShiftedBy (d : Idx) (A l : VLayer V) : Prop := ∀ g a, content A g = some a → content l (g + d) = some a

/-- **C65 is violated by the fast variant, too** (`naiveTransformLayer`): it looks the input up at the *output* position. Shifting the
one-block map by one block leaves every output voxel unobserved. -/
theorem C65_naive_wrong_frame :
    ∃ out', naiveTransform tsdfOps exA ⟨⟨1, 0, 0⟩, ⟨0, 1, 0⟩, ⟨0, 0, 1⟩, ⟨1, 0, 0⟩⟩ ⟨⟨1 / 2, 2⟩, []⟩ = .ok out' ∧
      ¬ ShiftedBy ⟨2, 0, 0⟩ exA out' ∧ ∀ g x, content out' g = some x → obsTsdf x = false := by
  refine ⟨allocateBlock tsdfOps.dflt ⟨⟨1 / 2, 2⟩, []⟩ ⟨1, 0, 0⟩, by decide +kernel, ?_, ?_⟩
  · intro h
    have := h ⟨0, 0, 0⟩ ⟨1 / 4, 3, ⟨200#8, 100#8, 0#8, 255#8⟩⟩ (by decide +kernel)
    revert this
    decide +kernel
  · intro g x hx
    have we : WellFormed (⟨⟨1 / 2, 2⟩, []⟩ : VLayer (TsdfVoxel ℚ)) := empty_wf (by norm_num) (by norm_num) (by norm_num)
    rw [allocateBlock_content we] at hx
    split_ifs at hx
    · have e := Option.some.inj hx
      rw [← e]
      show obsTsdf tsdfOps.dflt = false
      decide +kernel
    · cases hx

end Vox.Merge
