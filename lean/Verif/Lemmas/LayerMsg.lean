/-
Effect of a layer message on the receiver.
-/
import Verif.Model.LayerMsg
import Verif.Spec.LayerMsg
import Verif.Lemmas.Merge
import Verif.Lemmas.Serial
import Verif.Lemmas.Layer

namespace Vox.LayerMsg

open Layer Grid Spec

variable {V : Type}

theorem mem_content {A : VLayer V} (wa : WellFormed A) {i : Idx} {b : Block ℚ V} (hb : block? A i = some b) {x : V} (hx : x ∈ b.voxels) :
    ∃ g, content A g = some x := by
  obtain ⟨k, hk⟩ := List.getElem?_of_mem hx
  have hsz : numVoxels A.cfg.vps ≤ 2 ^ 31 := by
    have := wa.side_le
    have h2 : A.cfg.vps * A.cfg.vps ≤ 1290 * 1290 := Nat.mul_le_mul this this
    have h3 : A.cfg.vps * A.cfg.vps * A.cfg.vps ≤ 1290 * 1290 * 1290 := Nat.mul_le_mul h2 this
    unfold numVoxels
    omega
  have hlt : k < A.cfg.vps * A.cfg.vps * A.cfg.vps := by
    rw [← (wa.block _ _ hb).2.2.2]
    exact (List.getElem?_eq_some_iff.1 hk).1
  obtain ⟨v, _, hin, hl⟩ := Props.C01_linear_to_voxel_to_linear hsz (l := k) (by
    unfold isValidLinearIndex numVoxels
    rw [if_neg (by omega)])
  refine ⟨globalIndex A.cfg.vps i v, ?_⟩
  rw [content_eq wa, blockOf_globalIndex hin, localOf_globalIndex hin, hb, hl]
  exact hk

theorem modifyBlock_keys (l : VLayer V) (i : Idx) (f : Block ℚ V → Block ℚ V) : (modifyBlock l i f).blocks.map (·.1) = l.blocks.map (·.1) := by
  unfold modifyBlock
  rw [List.map_map]
  refine List.map_congr_left fun e _ => ?_
  simp only [Function.comp_apply]
  split_ifs <;> rfl

theorem allocateBlock_nodup {l : VLayer V} (h : (l.blocks.map (·.1)).Nodup) (d : V) (i : Idx) : ((allocateBlock d l i).blocks.map (·.1)).Nodup := by
  unfold allocateBlock
  cases hb : block? l i with
  | some b => exact h
  | none =>
    simp only [List.map_cons, List.nodup_cons]
    refine ⟨?_, h⟩
    intro hc
    have : (block? l i).isSome = true := allocated_iff_mem.2 hc
    rw [hb] at this
    cases this

theorem status_block {l : VLayer V} {i : Idx} {b : Block ℚ V} (h : block? l i = some b) : status l i = some (b.hasData, b.updated) := by
  show (block? l i).map _ = _
  rw [h]; rfl

theorem status_none {l : VLayer V} {i : Idx} (h : block? l i = none) : status l i = none := by
  show (block? l i).map _ = _
  rw [h]; rfl

/-- A block without the data mark changes nothing. -/
theorem mergeBlock_noData {merge : V → V → Outcome V} {self other : Block ℚ V} (h1 : other.voxelSize = self.voxelSize)
    (h2 : other.vps = self.vps) (h3 : other.hasData = false) : Merge.mergeBlock merge self other = .ok self := by
  unfold Merge.mergeBlock
  simp [h1, h2, h3, Outcome.check]

open Classical in
/-- One block of `A` applied to `B`. -/
theorem applyBlock_ok (T : VoxelType V) (action : ℕ) {A B : VLayer V} (wa : WellFormed A) (wb : WellFormed B) (hv : A.cfg.vps = B.cfg.vps)
    (nb : (B.blocks.map (·.1)).Nodup) {i : Idx} {a : Block ℚ V} (ha : block? A i = some a) {ws : List Word}
    (hd : Serial.deserialize T.codec (numVoxels A.cfg.vps) ws = .ok a.voxels) :
    ∃ B', applyBlock T action B (i, ws) = .ok B' ∧ B'.cfg = B.cfg ∧ WellFormed B' ∧ (B'.blocks.map (·.1)).Nodup ∧
      (∀ g, content B' g = if blockOf A.cfg.vps g = i ∧ (action = 0 ∨ ¬ Allocated B i) then content A g else content B g) ∧
      ∀ j, status B' j = if j = i then some ((status B j).getD (false, Flags.ofBool false)) else status B j := by
  obtain ⟨_, _, _, a4⟩ := wa.block _ _ ha
  unfold applyBlock
  by_cases hc : action = 0 ∨ block? B i = none
  · have htake : action = 0 ∨ ¬ Allocated B i := by
      refine hc.imp id fun h h' => ?_
      have h'' : (block? B i).isSome = true := h'
      rw [h] at h''
      cases h''
    rw [if_pos hc]
    unfold putBlock
    have we := allocateBlock_wf wb T.dflt i
    have ce := fun g => allocateBlock_content wb T.dflt i g
    have se := fun j => allocateBlock_status T.dflt B i j
    have ee := allocateBlock_cfg T.dflt B i
    have ne := allocateBlock_nodup nb T.dflt i
    set d := allocateBlock T.dflt B i with hdd
    obtain ⟨b, hb⟩ : ∃ b, block? d i = some b := by
      rw [hdd, allocateBlock_block?, if_pos rfl]
      exact ⟨_, rfl⟩
    obtain ⟨b1, b2, b3, b4⟩ := we.block _ _ hb
    have hal : Allocated d i := by
      show (block? d i).isSome = true
      rw [hb]; rfl
    simp only [hb]
    have hd' : Serial.deserialize T.codec (numVoxels b.vps) ws = .ok a.voxels := by
      rw [b1, ee, ← hv, hd]
    rw [hd']
    simp only [Outcome.bind_ok, Outcome.pure_eq]
    have geo : ({ b with voxels := a.voxels } : Block ℚ V).vps = d.cfg.vps ∧ ({ b with voxels := a.voxels } : Block ℚ V).voxelSize = d.cfg.voxelSize ∧
        ({ b with voxels := a.voxels } : Block ℚ V).origin = ⟨i.x * (d.cfg.voxelSize * d.cfg.vps), i.y * (d.cfg.voxelSize * d.cfg.vps), i.z * (d.cfg.voxelSize * d.cfg.vps)⟩ ∧
        ({ b with voxels := a.voxels } : Block ℚ V).voxels.length = d.cfg.vps * d.cfg.vps * d.cfg.vps := by
      refine ⟨b1, b2, b3, ?_⟩
      rw [ee, ← hv]
      exact a4
    refine ⟨_, rfl, ee, Merge.replace_wf we geo, by rw [modifyBlock_keys]; exact ne, ?_, ?_⟩
    · intro g
      rw [Merge.replace_content we geo hal, ee, ce, ← hv]
      by_cases hg : blockOf A.cfg.vps g = i
      · rw [if_pos hg, if_pos ⟨hg, htake⟩, content_eq wa, hg, ha]
        rfl
      · rw [if_neg hg, if_neg hg, if_neg fun h => hg h.1]
    · intro j
      rw [Merge.replace_status hal, se]
      by_cases hj : j = i
      · rw [if_pos hj, if_pos hj]
        have := se i
        rw [if_pos rfl, status_block hb] at this
        rw [hj]
        exact this
      · simp only [if_neg hj]
  · rw [if_neg hc]
    rw [not_or] at hc
    obtain ⟨b, hb⟩ := Option.ne_none_iff_exists'.1 hc.2
    have hal : Allocated B i := by
      show (block? B i).isSome = true
      rw [hb]; rfl
    have hno : ¬ (action = 0 ∨ ¬ Allocated B i) := by
      rintro (h | h)
      · exact hc.1 h
      · exact h hal
    have hst : ∀ j, status B j = if j = i then some ((status B j).getD (false, Flags.ofBool false)) else status B j := by
      intro j
      by_cases hj : j = i
      · rw [if_pos hj, hj, status_block hb]
        rfl
      · rw [if_neg hj]
    by_cases h1 : action = 1
    · rw [if_pos h1]
      unfold mergeInto
      obtain ⟨b1, b2, b3, b4⟩ := wb.block _ _ hb
      simp only [hb]
      have hd' : Serial.deserialize T.codec (numVoxels b.vps) ws = .ok a.voxels := by
        rw [b1, ← hv, hd]
      rw [hd']
      simp only [Outcome.bind_ok, Outcome.pure_eq]
      rw [mergeBlock_noData (self := b) (other := { Block.new T.dflt b.vps b.voxelSize b.origin with voxels := a.voxels }) rfl rfl rfl]
      simp only [Outcome.bind_ok]
      refine ⟨modifyBlock B i fun _ => b, rfl, rfl, Merge.replace_wf wb ⟨b1, b2, b3, b4⟩, by rw [modifyBlock_keys]; exact nb, ?_, ?_⟩
      · intro g
        rw [if_neg fun h : blockOf A.cfg.vps g = i ∧ (action = 0 ∨ ¬ Allocated B i) => hno h.2,
          Merge.replace_content wb ⟨b1, b2, b3, b4⟩ hal]
        split_ifs with hg
        · rw [content_eq wb, hg, hb]
          rfl
        · rfl
      · intro j
        rw [Merge.replace_status hal]
        by_cases hj : j = i
        · rw [if_pos hj, if_pos hj, hj, status_block hb]
          rfl
        · rw [if_neg hj, if_neg hj]
    · rw [if_neg h1]
      exact ⟨B, rfl, rfl, wb, nb, fun g => by rw [if_neg fun h => hno h.2], hst⟩

theorem allocated_of_status {l l' : VLayer V} {j : Idx} (h : status l' j = status l j) : Allocated l' j ↔ Allocated l j := by
  rw [allocated_iff_status, allocated_iff_status, h]

open Classical in
theorem applyBlocks_ok (T : VoxelType V) (action : ℕ) {A : VLayer V} (wa : WellFormed A) (ms : List (Idx × List Word)) :
    ∀ {B : VLayer V}, WellFormed B → A.cfg.vps = B.cfg.vps → (B.blocks.map (·.1)).Nodup → (ms.map (·.1)).Nodup →
    (∀ m ∈ ms, ∃ a, block? A m.1 = some a ∧ Serial.deserialize T.codec (numVoxels A.cfg.vps) m.2 = .ok a.voxels) →
    ∃ B', ms.foldlM (applyBlock T action) B = .ok B' ∧ B'.cfg = B.cfg ∧ WellFormed B' ∧ (B'.blocks.map (·.1)).Nodup ∧
      (∀ g, content B' g = if blockOf A.cfg.vps g ∈ ms.map (·.1) ∧ (action = 0 ∨ ¬ Allocated B (blockOf A.cfg.vps g)) then content A g else content B g) ∧
      ∀ j, status B' j = if j ∈ ms.map (·.1) then some ((status B j).getD (false, Flags.ofBool false)) else status B j := by
  induction ms with
  | nil => intro B wb hv nb _ _; exact ⟨B, rfl, rfl, wb, nb, by simp, by simp⟩
  | cons m ms ih =>
    intro B wb hv nb hn hm
    obtain ⟨i, ws⟩ := m
    rw [List.map_cons, List.nodup_cons] at hn
    obtain ⟨a, ha, hd⟩ := hm (i, ws) (by simp)
    obtain ⟨B1, h1, h2, h3, h4, h5, h6⟩ := applyBlock_ok T action wa wb hv nb ha hd
    obtain ⟨B', k1, k2, k3, k4, k5, k6⟩ := ih h3 (hv.trans (by rw [h2])) h4 hn.2 fun m' h => hm m' (by simp [h])
    refine ⟨B', by rw [List.foldlM_cons, h1]; exact k1, k2.trans h2, k3, k4, ?_, ?_⟩
    · intro g
      rw [k5, h5]
      simp only [List.map_cons, List.mem_cons]
      set j := blockOf A.cfg.vps g with hj
      by_cases hji : j = i
      · have : j ∉ ms.map (·.1) := by rw [hji]; exact hn.1
        rw [if_neg fun h => this h.1]
        by_cases ht : action = 0 ∨ ¬ Allocated B i
        · rw [if_pos ⟨hji, ht⟩, if_pos ⟨Or.inl hji, by rw [hji]; exact ht⟩]
        · rw [if_neg fun h => ht h.2, if_neg fun h => ht (by rw [← hji]; exact h.2)]
      · have hal : Allocated B1 j ↔ Allocated B j := allocated_of_status (by rw [h6, if_neg hji])
        rw [hal]
        by_cases hjm : j ∈ ms.map (·.1)
        · by_cases ht : action = 0 ∨ ¬ Allocated B j
          · rw [if_pos ⟨hjm, ht⟩, if_pos ⟨Or.inr hjm, ht⟩]
          · rw [if_neg fun h => ht h.2, if_neg fun h => hji h.1, if_neg fun h => ht h.2]
        · rw [if_neg fun h => hjm h.1, if_neg fun h => hji h.1, if_neg]
          rintro ⟨h | h, _⟩
          · exact hji h
          · exact hjm h
    · intro j
      rw [k6, h6]
      simp only [List.map_cons, List.mem_cons]
      by_cases hji : j = i
      · have : j ∉ ms.map (·.1) := by rw [hji]; exact hn.1
        rw [if_neg this, if_pos hji, if_pos (Or.inl hji)]
      · rw [if_neg hji]
        simp only [hji, false_or]

/-- The data words of a block of the message. -/
def wordsOf (T : VoxelType V) (A : VLayer V) (i : Idx) : List Word :=
  match block? A i with
  | none => []
  | some b =>
    match Serial.serialize T.codec b.voxels with
    | .ok ws => ws
    | _ => []

/-- The message of a layer: the blocks sent, each with data from which its voxels are restored. -/
theorem serializeLayer_ok (T : VoxelType V) {A : VLayer V} (wa : WellFormed A)
    (na : (A.blocks.map (·.1)).Nodup) (hT : Transmits T.codec A) (onlyUpdated : Bool) (action : ℕ) :
    ∃ ms, serializeLayer T A onlyUpdated action = .ok ⟨.fin A.cfg.voxelSize, A.cfg.vps % 2 ^ 32, T.name, action % 2 ^ 8, ms⟩ ∧
      (ms.map (·.1)).Nodup ∧ (∀ i, i ∈ ms.map (·.1) ↔ Sent A onlyUpdated i) ∧
      ∀ m ∈ ms, ∃ a, block? A m.1 = some a ∧ Serial.deserialize T.codec (numVoxels A.cfg.vps) m.2 = .ok a.voxels := by
  have hb : ∀ e ∈ A.blocks, block? A e.1 = some e.2 := fun e he => (lookup_mem_iff na).2 he
  have hmem : ∀ i ∈ blockList A onlyUpdated, ∃ a, block? A i = some a := by
    intro i hi
    unfold blockList at hi
    rw [List.mem_map] at hi
    obtain ⟨e, he, rfl⟩ := hi
    exact ⟨e.2, hb e (List.mem_filter.1 he).1⟩
  have hone : ∀ i, (∃ a, block? A i = some a) → blockMsg T A i = .ok (i, wordsOf T A i) := by
    rintro i ⟨a, ha⟩
    obtain ⟨ws, w1, _⟩ := hT i a ha
    unfold blockMsg wordsOf
    simp [ha, w1]
  have hmap := Serial.mapM_ok (blockMsg T A) (fun i => (i, wordsOf T A i)) (blockList A onlyUpdated)
    fun i hi => hone i (hmem i hi)
  have hkeys : ((blockList A onlyUpdated).map fun i => (i, wordsOf T A i)).map (·.1) = blockList A onlyUpdated := by
    rw [List.map_map]
    exact List.map_id _
  refine ⟨(blockList A onlyUpdated).map fun i => (i, wordsOf T A i), ?_, ?_, ?_, ?_⟩
  · unfold serializeLayer
    rw [hmap]
    rfl
  · rw [hkeys]
    unfold blockList
    exact na.sublist ((List.filter_sublist).map _)
  · intro i
    rw [hkeys]
    unfold blockList Sent
    rw [List.mem_map]
    constructor
    · rintro ⟨e, he, rfl⟩
      obtain ⟨h1, h2⟩ := List.mem_filter.1 he
      refine ⟨_, _, status_block (hb e h1), fun ho => ?_⟩
      simpa [ho, Flags.get] using h2
    · rintro ⟨h, u, h1, h2⟩
      have h1' : (A.blocks.lookup i).map (fun b => (b.hasData, b.updated)) = some (h, u) := h1
      rw [Option.map_eq_some_iff] at h1'
      obtain ⟨b, e1, e2⟩ := h1'
      refine ⟨(i, b), List.mem_filter.2 ⟨(lookup_mem_iff na).1 e1, ?_⟩, rfl⟩
      have e3 : b.updated = u := congrArg Prod.snd e2
      cases onlyUpdated with
      | false => rfl
      | true => simpa [Flags.get, e3] using h2 rfl
  · intro m hm
    rw [List.mem_map] at hm
    obtain ⟨i, hi, rfl⟩ := hm
    obtain ⟨a, ha⟩ := hmem i hi
    refine ⟨a, ha, ?_⟩
    obtain ⟨ws, w1, w2⟩ := hT i a ha
    have : wordsOf T A i = ws := by
      unfold wordsOf
      simp [ha, w1]
    simp only [this]
    rw [show numVoxels A.cfg.vps = a.voxels.length from (wa.block _ _ ha).2.2.2.symm]
    exact w2

theorem sizes_agree {ar : Arith} (har : ar.Faithful) {A B : VLayer V} (wa : WellFormed A) (hc : A.cfg = B.cfg) (ty : String) (act : ℕ) (ms : List (Idx × List Word)) :
    sizesDiffer ar ⟨.fin A.cfg.voxelSize, A.cfg.vps % 2 ^ 32, ty, act, ms⟩ B = false := by
  have h1 : A.cfg.vps % 2 ^ 32 = A.cfg.vps := Nat.mod_eq_of_lt (by have := wa.side_le; omega)
  have h2 : ar.sub (.fin A.cfg.voxelSize) (.fin B.cfg.voxelSize) = .fin 0 := by
    show ar.rnd (A.cfg.voxelSize + -B.cfg.voxelSize) = _
    rw [hc, add_neg_cancel]
    exact har.zero
  unfold sizesDiffer
  simp only [h2, Fl.abs, Fl.lt]
  rw [h1, hc]
  norm_num [kVoxelSizeEpsilon]

theorem emptied_wf {B : VLayer V} (wb : WellFormed B) : WellFormed (Emptied B) :=
  ⟨wb.size_pos, wb.side_pos, wb.side_le, fun i b h => by cases h⟩

theorem emptied_content {B : VLayer V} (wb : WellFormed B) (g : Idx) : content (Emptied B) g = none := by
  rw [content_eq (emptied_wf wb)]
  rfl

theorem sent_allocated {A : VLayer V} {o : Bool} {i : Idx} (h : Sent A o i) : Allocated A i := by
  obtain ⟨a, u, h1, _⟩ := h
  rw [allocated_iff_status, h1]
  rfl

open Classical in
/-- Sending and receiving, for every action. -/
theorem transfer (T : VoxelType V) {ar : Arith} (har : ar.Faithful) {A B : VLayer V} (wa : WellFormed A) (wb : WellFormed B) (hc : A.cfg = B.cfg)
    (na : (A.blocks.map (·.1)).Nodup) (nb : (B.blocks.map (·.1)).Nodup) (hT : Transmits T.codec A) (onlyUpdated : Bool) {action : ℕ} (h256 : action < 2 ^ 8) :
    ∃ msg B', serializeLayer T A onlyUpdated action = .ok msg ∧ deserializeMsg T ar msg B = .ok (B', true) ∧
      Received (fun i => Sent A onlyUpdated i ∧ (action = 0 ∨ ¬ Allocated (if action = 2 then Emptied B else B) i)) A (if action = 2 then Emptied B else B) B' := by
  obtain ⟨ms, h1, h2, h3, h4⟩ := serializeLayer_ok T wa na hT onlyUpdated action
  rw [Nat.mod_eq_of_lt h256] at h1
  refine ⟨⟨.fin A.cfg.voxelSize, A.cfg.vps % 2 ^ 32, T.name, action, ms⟩, ?_⟩
  have e0 : (if action = 2 then ({ B with blocks := [] } : VLayer V) else B) = if action = 2 then Emptied B else B := rfl
  have c0 : (if action = 2 then Emptied B else B).cfg = B.cfg := by split_ifs <;> rfl
  have w0 : WellFormed (if action = 2 then Emptied B else B) := by
    split_ifs
    · exact emptied_wf wb
    · exact wb
  have n0 : ((if action = 2 then Emptied B else B).blocks.map (·.1)).Nodup := by
    split_ifs
    · exact List.nodup_nil
    · exact nb
  set B0 := (if action = 2 then Emptied B else B) with hB0
  obtain ⟨B', k1, k2, k3, k4, k5, k6⟩ := applyBlocks_ok T action wa ms w0 (by rw [c0, hc]) n0 h2 h4
  have hsub : ms.map (·.1) ⊆ B'.blocks.map (·.1) := by
    intro j hj
    rw [← allocated_iff_mem, allocated_iff_status, k6, if_pos hj]
    rfl
  have hle : ms.length ≤ B'.blocks.length := by
    have := (h2.subperm hsub).length_le
    simpa using this
  have hfin : finalCheck action B' ms.length = .ok () := by
    unfold finalCheck
    split_ifs with a1 a2
    · have hsub' : B'.blocks.map (·.1) ⊆ ms.map (·.1) := by
        intro j hj
        by_contra hn
        have := k6 j
        rw [if_neg hn] at this
        rw [← allocated_iff_mem, allocated_iff_status, this, hB0, if_pos a1] at hj
        cases hj
      have := (k4.subperm hsub').length_le
      have hge : B'.blocks.length ≤ ms.length := by simpa using this
      simp [Outcome.check, Nat.le_antisymm hge hle]
    · simp [Outcome.check, hle]
    · rfl
  refine ⟨B', h1, ?_, k2.trans rfl, k3, k4, ?_, ?_⟩
  · unfold deserializeMsg deserializeLayer
    rw [if_neg (by simp), sizes_agree har wa hc, if_neg (by simp)]
    simp only [e0, k1, Outcome.bind_ok, hfin, Outcome.pure_eq]
  · intro g
    rw [k5]
    simp only [h3]
    congr
  · intro j
    rw [k6]
    simp only [h3]
    by_cases hs : Sent A onlyUpdated j
    · rw [if_pos hs]
      by_cases ht : action = 0 ∨ ¬ Allocated B0 j
      · rw [if_pos ⟨hs, ht⟩]
      · rw [if_neg fun h => ht h.2]
        rw [not_or, not_not] at ht
        obtain ⟨st, hst⟩ := Option.isSome_iff_exists.1 (allocated_iff_status.1 ht.2)
        rw [hst]
        rfl
    · rw [if_neg hs, if_neg fun h => hs h.1]

theorem received_congr {S S' : Idx → Prop} {A B B' : VLayer V} (h : Received S A B B') (hS : ∀ i, S i ↔ S' i) : Received S' A B B' := by
  have : S = S' := funext fun i => propext (hS i)
  exact this ▸ h

/-! ### Messages from elsewhere -/

theorem deserialize_wrong {c : Serial.Codec V} {n : ℕ} {ws : List Word} (h : ws.length ≠ n * c.words) : Serial.deserialize c n ws = .fatal := by
  have : (n * c.words == ws.length) = false := by simpa using fun e => h e.symm
  simp [Serial.deserialize, Outcome.check, this]

/-- Any block message: abort or a well-formed layer with at most the one further block; a wrong payload aborts unless it is skipped. -/
theorem applyBlock_any (T : VoxelType V) (hT : Decodes T.codec) (action : ℕ) {B : VLayer V} (wb : WellFormed B) (nb : (B.blocks.map (·.1)).Nodup)
    (m : Idx × List Word) :
    (applyBlock T action B m = .fatal ∨ ∃ B', applyBlock T action B m = .ok B' ∧ B'.cfg = B.cfg ∧ WellFormed B' ∧ (B'.blocks.map (·.1)).Nodup ∧
      B'.blocks.map (·.1) ⊆ m.1 :: B.blocks.map (·.1)) ∧
    (action ≤ 1 → m.2.length ≠ B.cfg.vps * B.cfg.vps * B.cfg.vps * T.codec.words → applyBlock T action B m = .fatal) := by
  obtain ⟨i, ws⟩ := m
  unfold applyBlock
  by_cases hc : action = 0 ∨ block? B i = none
  · rw [if_pos hc]
    unfold putBlock
    have we := allocateBlock_wf wb T.dflt i
    have ee := allocateBlock_cfg T.dflt B i
    have ne := allocateBlock_nodup nb T.dflt i
    have hk : (allocateBlock T.dflt B i).blocks.map (·.1) ⊆ i :: B.blocks.map (·.1) := by
      unfold allocateBlock
      cases block? B i with
      | some b => exact List.subset_cons_self _ _
      | none => simp
    have hb : ∃ b, block? (allocateBlock T.dflt B i) i = some b := by
      rw [allocateBlock_block?, if_pos rfl]
      exact ⟨_, rfl⟩
    obtain ⟨b, hb⟩ := hb
    obtain ⟨b1, b2, b3, b4⟩ := we.block _ _ hb
    simp only [hb]
    have hn : numVoxels b.vps = B.cfg.vps * B.cfg.vps * B.cfg.vps := by rw [b1, ee]; rfl
    by_cases hl : ws.length = numVoxels b.vps * T.codec.words
    · obtain ⟨r, r1, r2⟩ := hT _ _ hl
      rw [r1]
      refine ⟨Or.inr ⟨modifyBlock (allocateBlock T.dflt B i) i fun _ => { b with voxels := r }, rfl, ee,
        Merge.replace_wf we (b := { b with voxels := r }) ⟨b1, b2, b3, by rw [ee, ← hn]; exact r2⟩, by rw [modifyBlock_keys]; exact ne, by rw [modifyBlock_keys]; exact hk⟩, ?_⟩
      intro _ h
      exact absurd (hn ▸ hl) h
    · rw [deserialize_wrong hl]
      exact ⟨Or.inl rfl, fun _ _ => rfl⟩
  · rw [if_neg hc]
    rw [not_or] at hc
    obtain ⟨b, hb⟩ := Option.ne_none_iff_exists'.1 hc.2
    by_cases h1 : action = 1
    · rw [if_pos h1]
      unfold mergeInto
      obtain ⟨b1, b2, b3, b4⟩ := wb.block _ _ hb
      simp only [hb]
      have hn : numVoxels b.vps = B.cfg.vps * B.cfg.vps * B.cfg.vps := by rw [b1]; rfl
      by_cases hl : ws.length = numVoxels b.vps * T.codec.words
      · obtain ⟨r, r1, r2⟩ := hT _ _ hl
        rw [r1]
        simp only [Outcome.bind_ok]
        rw [mergeBlock_noData (self := b) (other := { Block.new T.dflt b.vps b.voxelSize b.origin with voxels := r }) rfl rfl rfl]
        refine ⟨Or.inr ⟨modifyBlock B i fun _ => b, rfl, rfl, Merge.replace_wf wb ⟨b1, b2, b3, b4⟩, by rw [modifyBlock_keys]; exact nb,
          by rw [modifyBlock_keys]; exact List.subset_cons_self _ _⟩, ?_⟩
        intro _ h
        exact absurd (hn ▸ hl) h
      · rw [deserialize_wrong hl]
        exact ⟨Or.inl rfl, fun _ _ => rfl⟩
    · rw [if_neg h1]
      exact ⟨Or.inr ⟨B, rfl, rfl, wb, nb, List.subset_cons_self _ _⟩, fun h => by omega⟩

theorem applyBlocks_any (T : VoxelType V) (hT : Decodes T.codec) (action : ℕ) (ms : List (Idx × List Word)) : ∀ {B : VLayer V}, WellFormed B →
    (B.blocks.map (·.1)).Nodup →
    (ms.foldlM (applyBlock T action) B = .fatal ∨ ∃ B', ms.foldlM (applyBlock T action) B = .ok B' ∧ B'.cfg = B.cfg ∧ WellFormed B' ∧ (B'.blocks.map (·.1)).Nodup ∧
      B'.blocks.map (·.1) ⊆ ms.map (·.1) ++ B.blocks.map (·.1)) ∧
    (action ≤ 1 → (∃ m ∈ ms, m.2.length ≠ B.cfg.vps * B.cfg.vps * B.cfg.vps * T.codec.words) → ms.foldlM (applyBlock T action) B = .fatal) := by
  induction ms with
  | nil => intro B wb nb; exact ⟨Or.inr ⟨B, rfl, rfl, wb, nb, by simp⟩, fun _ ⟨m, hm, _⟩ => by simp at hm⟩
  | cons m ms ih =>
    intro B wb nb
    obtain ⟨h1, h2⟩ := applyBlock_any T hT action wb nb m
    rcases h1 with h1 | ⟨B1, k1, k2, k3, k4, k5⟩
    · have : (m :: ms).foldlM (applyBlock T action) B = .fatal := by
        rw [List.foldlM_cons, h1]
        rfl
      exact ⟨Or.inl this, fun _ _ => this⟩
    · have step : (m :: ms).foldlM (applyBlock T action) B = ms.foldlM (applyBlock T action) B1 := by
        rw [List.foldlM_cons, k1]
        rfl
      obtain ⟨i1, i2⟩ := ih k3 k4
      rw [step]
      refine ⟨?_, ?_⟩
      · rcases i1 with i1 | ⟨B', j1, j2, j3, j4, j5⟩
        · exact Or.inl i1
        · refine Or.inr ⟨B', j1, j2.trans k2, j3, j4, fun x hx => ?_⟩
          rcases List.mem_append.1 (j5 hx) with h | h
          · simp only [List.map_cons, List.cons_append, List.mem_cons, List.mem_append]; exact Or.inr (Or.inl h)
          · rcases List.mem_cons.1 (k5 h) with h | h
            · simp only [List.map_cons, List.cons_append, List.mem_cons, List.mem_append]; exact Or.inl h
            · simp only [List.map_cons, List.cons_append, List.mem_cons, List.mem_append]; exact Or.inr (Or.inr h)
      · rintro ha ⟨m', hm, hl⟩
        rcases List.mem_cons.1 hm with rfl | hm
        · rw [h2 ha hl] at k1
          cases k1
        · exact i2 ha ⟨m', hm, by rw [k2]; exact hl⟩

end Vox.LayerMsg
