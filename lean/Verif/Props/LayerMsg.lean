/-
Property C62: layers sent as messages.
-/
import Verif.Lemmas.LayerMsg
import Verif.Props.Serial

namespace Vox.LayerMsg

open Layer Grid Spec

variable {V : Type}

/-! ## Which layers are restored exactly -/

theorem C62_transmits_tsdf (A : VLayer (TsdfVoxel Word)) : Transmits Serial.tsdfCodec A :=
  fun _ b _ => Props.C08_tsdf_roundtrip b.voxels

theorem C62_transmits_occ (A : VLayer (OccVoxel Word)) : Transmits Serial.occCodec A :=
  fun _ b _ => Props.C10_occupancy_roundtrip b.voxels

/-- ESDF layers all of whose parent directions survive the serialization (see C09). -/
theorem C62_transmits_esdf_partial {A : VLayer (EsdfVoxel Word)} (wa : WellFormed A)
    (h : ∀ g v, content A g = some v → InI8 v.parent ∧ ParentSurvives v.parent) : Transmits Serial.esdfCodec A :=
  fun _ b hb => Props.C09_esdf_roundtrip_partial b.voxels fun v hv => by
    obtain ⟨g, hg⟩ := mem_content wa hb hv
    exact h g v hg

/-- Two blocks of one voxel each, the first flagged as updated. -/
def exSender : VLayer (TsdfVoxel Word) := ⟨⟨1 / 2, 1⟩, [(⟨4, 0, -1⟩, ⟨1, 1 / 2, ⟨2, 0, -1 / 2⟩, false, Flags.setAll, [⟨0x3f800000#32, 0x40000000#32, ⟨1, 2, 3, 4⟩⟩]⟩),
  (⟨5, 3, 1⟩, ⟨1, 1 / 2, ⟨5 / 2, 3 / 2, 1 / 2⟩, false, Flags.ofBool false, [⟨0xbf800000#32, 0x3f800000#32, ⟨9, 8, 7, 6⟩⟩]⟩)]⟩

/-- One block, at an index the sender also has. -/
def exReceiver : VLayer (TsdfVoxel Word) := ⟨⟨1 / 2, 1⟩, [(⟨5, 3, 1⟩, ⟨1, 1 / 2, ⟨5 / 2, 3 / 2, 1 / 2⟩, false, Flags.setAll, [⟨0#32, 0#32, Color.default⟩]⟩)]⟩

theorem exSender_wf : WellFormed exSender := by
  refine ⟨by norm_num [exSender], by decide, by decide, ?_⟩
  intro i b h
  unfold exSender at h
  rw [lookup_cons_ite, lookup_cons_ite] at h
  split_ifs at h with h1 h2
  · obtain rfl := Option.some.inj h
    rw [h1]
    exact ⟨rfl, rfl, by norm_num [exSender], rfl⟩
  · obtain rfl := Option.some.inj h
    rw [h2]
    exact ⟨rfl, rfl, by norm_num [exSender], rfl⟩
  · cases h

theorem exReceiver_wf : WellFormed exReceiver := by
  refine ⟨by norm_num [exReceiver], by decide, by decide, ?_⟩
  intro i b h
  unfold exReceiver at h
  rw [lookup_cons_ite] at h
  split_ifs at h with h1
  · obtain rfl := Option.some.inj h
    rw [h1]
    exact ⟨rfl, rfl, by norm_num [exReceiver], rfl⟩
  · cases h

/-- Combining voxels: the sender's replaces the receiver's. -/
def exMerge : TsdfVoxel Word → TsdfVoxel Word → Outcome (TsdfVoxel Word) := fun a _ => .ok a

example : WellFormed exSender ∧ WellFormed exReceiver ∧ exSender.cfg = exReceiver.cfg ∧ (exSender.blocks.map (·.1)).Nodup ∧
    (exReceiver.blocks.map (·.1)).Nodup ∧ Transmits (tsdfType exMerge).codec exSender ∧ (Arith.exact fun q => .fin q).Faithful :=
  ⟨exSender_wf, exReceiver_wf, rfl, by decide, by decide, C62_transmits_tsdf _, Arith.exact_faithful _⟩

example : (match serializeLayer (tsdfType exMerge) exSender true 0 with
      | .ok m => (match deserializeMsg (tsdfType exMerge) (Arith.exact fun q => .fin q) m exReceiver with
        | .ok (B, true) => decide (B.blocks.map (·.1) = [⟨4, 0, -1⟩, ⟨5, 3, 1⟩] ∧
            B.blocks.map (·.2.voxels) = [[⟨0x3f800000#32, 0x40000000#32, ⟨1, 2, 3, 4⟩⟩], [⟨0#32, 0#32, Color.default⟩]])
        | _ => false)
      | _ => false) = true := by decide +kernel

/-- An ESDF layer of one voxel whose parent lies in direction (1,1,0). -/
def exEsdf : VLayer (EsdfVoxel Word) := ⟨⟨1 / 2, 1⟩, [(⟨4, 0, -1⟩, ⟨1, 1 / 2, ⟨2, 0, -1 / 2⟩, false, Flags.setAll, [⟨0x3f800000#32, true, false, false, true, ⟨1, 1, 0⟩⟩]⟩)]⟩

example : ∀ g v, content exEsdf g = some v → InI8 v.parent ∧ ParentSurvives v.parent := by
  intro g v h
  have wf : WellFormed exEsdf := by
    refine ⟨by norm_num [exEsdf], by decide, by decide, ?_⟩
    intro i b h
    unfold exEsdf at h
    rw [lookup_cons_ite] at h
    split_ifs at h with h1
    · obtain rfl := Option.some.inj h
      rw [h1]
      exact ⟨rfl, rfl, by norm_num [exEsdf], rfl⟩
    · cases h
  rw [content_eq wf] at h
  unfold block? exEsdf at h
  simp only [lookup_cons_ite] at h
  split_ifs at h with h1
  · simp only [Option.bind_some] at h
    have hm := List.mem_of_getElem? h
    simp only [List.mem_singleton] at hm
    rw [hm]
    decide
  · cases h

/-! ## Update and reset -/

/-- **C62**, update: after sending (all blocks, or those flagged as updated) and receiving, the receiver has the sender's voxels in
every block sent and is otherwise unchanged; no block state changes, and new blocks have neither a data mark nor update flags. -/
theorem C62_update (T : VoxelType V) {ar : Arith} (har : ar.Faithful) {A B : VLayer V} (wa : WellFormed A) (wb : WellFormed B) (hc : A.cfg = B.cfg)
    (na : (A.blocks.map (·.1)).Nodup) (nb : (B.blocks.map (·.1)).Nodup) (hT : Transmits T.codec A) (onlyUpdated : Bool) :
    ∃ msg B', serializeLayer T A onlyUpdated 0 = .ok msg ∧ deserializeMsg T ar msg B = .ok (B', true) ∧ Received (Sent A onlyUpdated) A B B' := by
  obtain ⟨msg, B', h1, h2, h3⟩ := transfer T har wa wb hc na nb hT onlyUpdated (action := 0) (by norm_num)
  exact ⟨msg, B', h1, h2, received_congr h3 fun i => by simp⟩

/-- **C62**, reset: the receiver ends up with exactly the blocks sent, in fresh state, with the sender's voxels. -/
theorem C62_reset (T : VoxelType V) {ar : Arith} (har : ar.Faithful) {A B : VLayer V} (wa : WellFormed A) (wb : WellFormed B) (hc : A.cfg = B.cfg)
    (na : (A.blocks.map (·.1)).Nodup) (nb : (B.blocks.map (·.1)).Nodup) (hT : Transmits T.codec A) (onlyUpdated : Bool) :
    ∃ msg B', serializeLayer T A onlyUpdated 2 = .ok msg ∧ deserializeMsg T ar msg B = .ok (B', true) ∧ Received (Sent A onlyUpdated) A (Emptied B) B' := by
  obtain ⟨msg, B', h1, h2, h3⟩ := transfer T har wa wb hc na nb hT onlyUpdated (action := 2) (by norm_num)
  refine ⟨msg, B', h1, h2, received_congr h3 fun i => ?_⟩
  have : ¬ Allocated (Emptied B) i := by
    intro h
    have h' : (([] : List (Idx × Block ℚ V)).lookup i).isSome = true := h
    cases h'
  simp [this]

/-- A full map sent with reset makes the receiver's layer equal to the sender's, voxel by voxel, whatever it contained. -/
theorem C62_reset_full (T : VoxelType V) {ar : Arith} (har : ar.Faithful) {A B : VLayer V} (wa : WellFormed A) (wb : WellFormed B) (hc : A.cfg = B.cfg)
    (na : (A.blocks.map (·.1)).Nodup) (nb : (B.blocks.map (·.1)).Nodup) (hT : Transmits T.codec A) :
    ∃ msg B', serializeLayer T A false 2 = .ok msg ∧ deserializeMsg T ar msg B = .ok (B', true) ∧ B'.cfg = A.cfg ∧
      (∀ g, content B' g = content A g) ∧ ∀ i, Allocated B' i ↔ Allocated A i := by
  obtain ⟨msg, B', h1, h2, h3⟩ := C62_reset T har wa wb hc na nb hT false
  have hs : ∀ i, Sent A false i ↔ Allocated A i := by
    intro i
    refine ⟨sent_allocated, fun h => ?_⟩
    obtain ⟨st, hst⟩ := Option.isSome_iff_exists.1 (allocated_iff_status.1 h)
    exact ⟨st.1, st.2, hst, by simp⟩
  refine ⟨msg, B', h1, h2, h3.cfg.trans hc.symm, fun g => ?_, fun i => ?_⟩
  · rw [h3.voxels g]
    split_ifs with h
    · rfl
    · rw [emptied_content wb, content_eq wa]
      rw [hs] at h
      have : block? A (blockOf A.cfg.vps g) = none := by
        cases hb : block? A (blockOf A.cfg.vps g) with
        | none => rfl
        | some b => exact absurd (show (block? A (blockOf A.cfg.vps g)).isSome = true by rw [hb]; rfl) h
      rw [this]
      rfl
  · rw [allocated_iff_status, h3.states i, ← hs]
    split_ifs with h
    · simp [h]
    · simp only [h, iff_false]
      intro h'
      cases h'

/-! ## Merge -/

/-- **C62**, merge (partial): blocks unknown to the receiver are taken over; the blocks it already has are *unchanged*, whatever the
function that combines voxels. The full claim, that voxels of common blocks are combined, is false: `C62_merge_dropped`. -/
theorem C62_merge_partial (T : VoxelType V) {ar : Arith} (har : ar.Faithful) {A B : VLayer V} (wa : WellFormed A) (wb : WellFormed B) (hc : A.cfg = B.cfg)
    (na : (A.blocks.map (·.1)).Nodup) (nb : (B.blocks.map (·.1)).Nodup) (hT : Transmits T.codec A) (onlyUpdated : Bool) :
    ∃ msg B', serializeLayer T A onlyUpdated 1 = .ok msg ∧ deserializeMsg T ar msg B = .ok (B', true) ∧
      Received (fun i => Sent A onlyUpdated i ∧ ¬ Allocated B i) A B B' := by
  obtain ⟨msg, B', h1, h2, h3⟩ := transfer T har wa wb hc na nb hT onlyUpdated (action := 1) (by norm_num)
  exact ⟨msg, B', h1, h2, received_congr h3 fun i => by simp⟩

/-- **C62** is violated: sending a map with merge leaves the receiver's voxel in a common block as it was, though the combination
(here: take the sender's voxel) is another one. The temporary block filled from the message is never marked as having data, and
`mergeBlock` ignores such blocks. -/
theorem C62_merge_dropped : ∃ (A B : VLayer (TsdfVoxel Word)) (msg : Msg) (B' : VLayer (TsdfVoxel Word)) (g : Idx) (a b : TsdfVoxel Word),
    serializeLayer (tsdfType exMerge) A false 1 = .ok msg ∧ deserializeMsg (tsdfType exMerge) (Arith.exact fun q => .fin q) msg B = .ok (B', true) ∧
      content A g = some a ∧ content B g = some b ∧ content B' g = some b ∧ exMerge a b ≠ .ok b := by
  obtain ⟨msg, B', h1, h2, h3⟩ := C62_merge_partial (tsdfType exMerge) (Arith.exact_faithful fun q => .fin q) exSender_wf exReceiver_wf rfl
    (by decide) (by decide) (C62_transmits_tsdf _) false
  have hb : content exReceiver ⟨5, 3, 1⟩ = some ⟨0#32, 0#32, Color.default⟩ := by decide +kernel
  refine ⟨exSender, exReceiver, msg, B', ⟨5, 3, 1⟩, ⟨0xbf800000#32, 0x3f800000#32, ⟨9, 8, 7, 6⟩⟩, ⟨0#32, 0#32, Color.default⟩, h1, h2, by decide +kernel, hb, ?_, ?_⟩
  · rw [h3.voxels, if_neg, hb]
    rintro ⟨_, h⟩
    refine h ?_
    unfold Allocated
    decide +kernel
  · decide

/-! ## Refused and broken messages -/

/-- **C62**, refusal: a message of another voxel type, with another number of voxels per side, or whose voxel size differs from the
layer's by more than the tolerance 1e-5, is refused, and the layer is unchanged, for every action (reset included). -/
theorem C62_rejects (T : VoxelType V) (ar : Arith) (msg : Msg) (action : ℕ) (B : VLayer V)
    (h : msg.layerType ≠ T.name ∨ msg.vps ≠ B.cfg.vps ∨ ∃ d, ar.sub msg.voxelSize (.fin B.cfg.voxelSize) = .fin d ∧ kVoxelSizeEpsilon < |d|) :
    deserializeLayer T ar msg action B = .ok (B, false) := by
  unfold deserializeLayer
  by_cases h0 : T.name = msg.layerType
  · rw [if_neg (not_not.2 h0), if_pos]
    unfold sizesDiffer
    rcases h with h | h | ⟨d, h1, h2⟩
    · exact absurd h0.symm h
    · simp [h]
    · simp [h1, h2, Fl.abs, Fl.lt]
  · rw [if_pos h0]

example : ∃ d, (Arith.exact fun q => .fin q).sub (.fin (1 / 10)) (.fin exReceiver.cfg.voxelSize) = .fin d ∧ kVoxelSizeEpsilon < |d| :=
  ⟨-2 / 5, by decide +kernel, by norm_num [kVoxelSizeEpsilon]⟩

theorem C62_decodes : Decodes Serial.tsdfCodec ∧ Decodes Serial.esdfCodec ∧ Decodes Serial.occCodec :=
  ⟨fun n d => (Props.C11_right_length_accepted n d).1, fun n d => (Props.C11_right_length_accepted n d).2.1,
    fun n d => (Props.C11_right_length_accepted n d).2.2.1⟩

theorem receive_any (T : VoxelType V) (hT : Decodes T.codec) (ar : Arith) (msg : Msg)
    (action : ℕ) {B : VLayer V} (wb : WellFormed B) (nb : (B.blocks.map (·.1)).Nodup) (h1 : msg.layerType = T.name) (h2 : sizesDiffer ar msg B = false) :
    (deserializeLayer T ar msg action B = .fatal ∨ ∃ B', deserializeLayer T ar msg action B = .ok (B', true) ∧ B'.cfg = B.cfg ∧ WellFormed B' ∧
      (B'.blocks.map (·.1)).Nodup ∧ (action ≤ 2 → msg.blocks.length ≤ B'.blocks.length) ∧
      (action = 2 → B'.blocks.map (·.1) ⊆ msg.blocks.map (·.1))) ∧
    (action ≤ 1 → (∃ m ∈ msg.blocks, m.2.length ≠ B.cfg.vps * B.cfg.vps * B.cfg.vps * T.codec.words) →
      deserializeLayer T ar msg action B = .fatal) := by
  have hrun : deserializeLayer T ar msg action B = (do
      let B' ← msg.blocks.foldlM (applyBlock T action) (if action = 2 then Emptied B else B)
      finalCheck action B' msg.blocks.length
      pure (B', true)) := by
    unfold deserializeLayer
    rw [if_neg (not_not.2 h1.symm), h2, if_neg (by simp)]
    rfl
  have c0 : (if action = 2 then Emptied B else B).cfg = B.cfg := by split_ifs <;> rfl
  have w0 : WellFormed (if action = 2 then Emptied B else B) := by
    split_ifs
    · exact emptied_wf wb
    · exact wb
  have n0 : ((if action = 2 then Emptied B else B).blocks.map (·.1)).Nodup := by
    split_ifs
    · exact List.nodup_nil
    · exact nb
  obtain ⟨k1, k2⟩ := applyBlocks_any T hT action msg.blocks w0 n0
  rw [hrun]
  refine ⟨?_, ?_⟩
  · rcases k1 with k1 | ⟨B', j1, j2, j3, j4, j5⟩
    · exact Or.inl (by rw [k1]; rfl)
    · rw [j1]
      simp only [Outcome.bind_ok]
      by_cases hl : action ≤ 2 → msg.blocks.length ≤ B'.blocks.length
      · by_cases he : action = 2 ∧ B'.blocks.length ≠ msg.blocks.length
        · refine Or.inl ?_
          have : (B'.blocks.length == msg.blocks.length) = false := by simpa using he.2
          simp [finalCheck, he.1, Outcome.check, this]
        · refine Or.inr ⟨B', ?_, j2.trans c0, j3, j4, hl, fun ha => ?_⟩
          · have : finalCheck action B' msg.blocks.length = .ok () := by
              unfold finalCheck
              split_ifs with a1 a2
              · have : B'.blocks.length = msg.blocks.length := by
                  by_contra hn
                  exact he ⟨a1, hn⟩
                simp [Outcome.check, this]
              · simp [Outcome.check, hl (by omega)]
              · rfl
            rw [this]
            rfl
          · rw [if_pos ha] at j5
            simpa [Emptied] using j5
      · refine Or.inl ?_
        rw [Classical.not_imp, not_le] at hl
        have : finalCheck action B' msg.blocks.length = .fatal := by
          unfold finalCheck
          split_ifs with a1 a2
          · have : (B'.blocks.length == msg.blocks.length) = false := by
              simp
              omega
            simp [Outcome.check, this]
          · have : ¬ msg.blocks.length ≤ B'.blocks.length := by omega
            simp [Outcome.check, this]
          · omega
        rw [this]
        rfl
  · intro ha hm
    rw [k2 ha (by rw [c0]; exact hm)]
    rfl

/-- **C62**, arbitrary messages whose header fits: receiving never has undefined behaviour; it ends normally with a well-formed layer
of the same configuration, or aborts. A payload of the wrong length aborts the receiving process (update and merge). -/
theorem C62_corrupt (T : VoxelType V) (hT : Decodes T.codec) (ar : Arith) (msg : Msg) (action : ℕ) {B : VLayer V} (wb : WellFormed B)
    (nb : (B.blocks.map (·.1)).Nodup) (h1 : msg.layerType = T.name) (h2 : sizesDiffer ar msg B = false) :
    (deserializeLayer T ar msg action B = .fatal ∨ ∃ B', deserializeLayer T ar msg action B = .ok (B', true) ∧ B'.cfg = B.cfg ∧ WellFormed B' ∧
      (B'.blocks.map (·.1)).Nodup) ∧
    (action ≤ 1 → (∃ m ∈ msg.blocks, m.2.length ≠ B.cfg.vps * B.cfg.vps * B.cfg.vps * T.codec.words) →
      deserializeLayer T ar msg action B = .fatal) := by
  obtain ⟨k1, k2⟩ := receive_any T hT ar msg action wb nb h1 h2
  refine ⟨k1.imp id ?_, k2⟩
  rintro ⟨B', a, b, c, d, _⟩
  exact ⟨B', a, b, c, d⟩

/-- A message that lists a block twice aborts the receiving process if the action is reset. -/
theorem C62_duplicates (T : VoxelType V) (hT : Decodes T.codec) (ar : Arith) (msg : Msg) {B : VLayer V} (wb : WellFormed B)
    (nb : (B.blocks.map (·.1)).Nodup) (h1 : msg.layerType = T.name) (h2 : sizesDiffer ar msg B = false) (hd : ¬ (msg.blocks.map (·.1)).Nodup) :
    deserializeLayer T ar msg 2 B = .fatal := by
  obtain ⟨k1, _⟩ := receive_any T hT ar msg 2 wb nb h1 h2
  rcases k1 with k1 | ⟨B', _, _, _, j4, j5, j6⟩
  · exact k1
  · exfalso
    have hsp := j4.subperm (j6 rfl)
    have hlen := j5 (by omega)
    have : (B'.blocks.map (·.1)).Perm (msg.blocks.map (·.1)) := hsp.perm_of_length_le (by simpa using hlen)
    exact hd (this.nodup_iff.1 j4)

/-- The voxel of the sender's second block. -/
def exWords : List Word := [0xbf800000#32, 0x3f800000#32, 0x09080706#32]

/-- Twice the same block, correct payloads. -/
def exTwice : Msg := ⟨.fin (1 / 2), 1, "tsdf", 2, [(⟨5, 3, 1⟩, exWords), (⟨5, 3, 1⟩, exWords)]⟩

/-- A block whose payload lacks a word. -/
def exShort : Msg := ⟨.fin (1 / 2), 1, "tsdf", 0, [(⟨5, 3, 1⟩, exWords), (⟨6, 3, 1⟩, [0#32, 0#32])]⟩

example : exTwice.layerType = (tsdfType exMerge).name ∧ sizesDiffer (Arith.exact fun q => .fin q) exTwice exReceiver = false ∧
    ¬ (exTwice.blocks.map (·.1)).Nodup ∧ deserializeMsg (tsdfType exMerge) (Arith.exact fun q => .fin q) exTwice exReceiver = .fatal :=
  ⟨rfl, by decide +kernel, by decide, by decide +kernel⟩

example : exShort.layerType = (tsdfType exMerge).name ∧ sizesDiffer (Arith.exact fun q => .fin q) exShort exReceiver = false ∧
    (∃ m ∈ exShort.blocks, m.2.length ≠ exReceiver.cfg.vps * exReceiver.cfg.vps * exReceiver.cfg.vps * (tsdfType exMerge).codec.words) ∧
    deserializeMsg (tsdfType exMerge) (Arith.exact fun q => .fin q) exShort exReceiver = .fatal :=
  ⟨rfl, by decide +kernel, ⟨(⟨6, 3, 1⟩, [0#32, 0#32]), by simp [exShort], by decide⟩, by decide +kernel⟩

/-- The refusal of other voxel sizes has a gap: a message whose voxel size is NaN is accepted by every layer with the same number of
voxels per side (here one without blocks, sent with reset: the receiver's map is erased). -/
theorem C62_nan_accepted (T : VoxelType V) (ar : Arith) (B : VLayer V) :
    deserializeMsg T ar ⟨.nan, B.cfg.vps, T.name, 2, []⟩ B = .ok (Emptied B, true) := by
  have : sizesDiffer ar ⟨.nan, B.cfg.vps, T.name, 2, []⟩ B = false := by
    unfold sizesDiffer
    simp only [Arith.sub, Arith.add, Fl.abs, Fl.lt]
    simp
  unfold deserializeMsg deserializeLayer
  rw [if_neg (by simp), this]
  rfl

end Vox.LayerMsg
