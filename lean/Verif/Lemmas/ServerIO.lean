/-
Helper lemmas on the maps of the servers on disk.
-/
import Verif.Model.ServerIO
import Verif.Lemmas.LayerIO

namespace Vox.ServerIO

open FloatBits Proto Serial Layer Vox.IO

variable {V : Type}

/-- Replacing by a decoded block. -/
theorem add_replace {env : Env V} {l : FLayer V} {p : BlockProto} {i : Idx}
    {b : Block Word V} (hc : isCompatibleBlock l p = true) (hb : blockFromProto env p = .ok b)
    (hi : env.idxOf l.voxelSize l.vps b.origin = .ok i) (hk : (l.blocks.map (·.1)).Nodup) :
    ∃ m, addBlockFromProto env l p .replace = .ok (true, { l with blocks := m }) ∧ (m.map (·.1)).Nodup ∧
      ∀ j, m.lookup j = if j = i then some (flagged b) else l.blocks.lookup j := by
  refine ⟨modifyKey (assign l.blocks i b) i fun b => { b with updated := Flags.setAll }, ?_, ?_, fun j => ?_⟩
  · unfold addBlockFromProto
    rw [if_pos hc, hb, Outcome.bind_ok, hi, Outcome.bind_ok]
    simp [placeBlock]
  · rw [modifyKey_keys]; exact assign_keys hk i b
  · rw [lookup_modifyKey, lookup_assign]
    by_cases hj : j = i
    · simp [hj, flagged]
    · simp [hj]

/-- Loading stored blocks into a layer, replacing what is there. -/
theorem loadBlocks_replace {env : Env V} {P : V → Prop} (he : EnvOk env P) {l : FLayer V}
    (hl : Storable env P l) : ∀ (bs : List (Idx × Block Word V)) (rest : List Byte) (cur : FLayer V),
    (∀ e ∈ bs, StorableBlock env P l e.1 e.2) → (bs.map (·.1)).Nodup →
    cur.voxelSize = l.voxelSize → cur.vps = l.vps → (cur.blocks.map (·.1)).Nodup →
    ∃ m, loadBlocks env .replace bs.length (blockBytes env bs ++ rest) cur =
        .ok (true, { cur with blocks := m }) ∧ (m.map (·.1)).Nodup ∧
      ∀ j, m.lookup j = match bs.lookup j with
        | some b => some (flagged b)
        | none => cur.blocks.lookup j := by
  intro bs
  induction bs with
  | nil => intro rest cur _ _ _ _ hk; exact ⟨cur.blocks, rfl, hk, fun j => rfl⟩
  | cons e bs ih =>
    intro rest cur hbs hnd h1 h2 hk
    obtain ⟨i, b⟩ := e
    rw [List.map_cons, List.nodup_cons] at hnd
    have hb := hbs _ List.mem_cons_self
    simp only at hb
    obtain ⟨eof, hread⟩ := readMsg_block he hl hb (blockBytes env bs ++ rest)
    obtain ⟨m1, hadd, hk1, hm1⟩ := add_replace (compatible_protoOf hl hb h1 h2)
      (blockFromProto_protoOf he hl hb) (i := i) (by rw [h1, h2]; exact hb.index) hk
    obtain ⟨m, hload, hk2, hm⟩ := ih rest { cur with blocks := m1 }
      (fun e he' => hbs e (List.mem_cons_of_mem _ he')) hnd.2 h1 h2 hk1
    refine ⟨m, ?_, hk2, fun j => ?_⟩
    · rw [List.length_cons, blockBytes_cons, List.append_assoc, loadBlocks, hread]
      simp only [hadd, Outcome.bind_ok, if_true]
      rw [hload]
    · rw [hm j, lookup_cons_ite]
      by_cases hj : j = i
      · subst hj
        rw [lookup_eq_none_iff'.2 hnd.1, if_pos rfl]
        simp [hm1, flagged, fresh]
      · rw [if_neg hj]
        simp only [hm1 j, if_neg hj]

theorem readCount_section {env : Env V} {l : FLayer V} (bs : List (Idx × Block Word V))
    (hcnt : bs.length + 1 < 2 ^ 32) (rest : List Byte) :
    readCount (section_ env l bs ++ rest) =
      some (1 + bs.length, writeMsg (layerProto env l).fields ++ (blockBytes env bs ++ rest)) := by
  unfold section_ readCount writeCount
  rw [Nat.mod_eq_of_lt (by omega), List.append_assoc, List.append_assoc, readVarint32_enc (by omega)]

/-- Loading a stored layer into one of the same configuration. -/
theorem load_replace {env : Env V} {P : V → Prop} (he : EnvOk env P) {l : FLayer V}
    (hl : Storable env P l) (multi : Bool) (c : Option (FLayer V)) (cur : FLayer V)
    (h1 : cur.voxelSize = l.voxelSize) (h2 : cur.vps = l.vps) (hk : (cur.blocks.map (·.1)).Nodup)
    (k : ℕ) (rest : List Byte) :
    ∃ m, loadLoop env .replace (judgeInto env cur) multi c (k + 1) (section_ env l l.blocks ++ rest) =
        .ok (true, some { cur with blocks := m }) ∧ (m.map (·.1)).Nodup ∧
      ∀ j, m.lookup j = match l.blocks.lookup j with
        | some b => some (flagged b)
        | none => cur.blocks.lookup j := by
  obtain ⟨m, hload, hk, hm⟩ := loadBlocks_replace he hl l.blocks rest cur hl.blocks hl.keys h1 h2 hk
  refine ⟨m, ?_, hk, hm⟩
  rw [loadLoop, readCount_section l.blocks hl.count]
  simp only
  rw [if_neg (by omega), header_ok he l]
  simp only [judgeInto_own hl cur h1 h2, Outcome.bind_ok, Nat.add_sub_cancel_left, hload]

theorem save_section {env : Env V} {P : V → Prop} (he : EnvOk env P) {l : FLayer V}
    (hl : Storable env P l) : saveLayer env l = .ok (section_ env l l.blocks) := by
  have hs := saveSubset_ok he hl [] true
  have hall : (l.blocks.filter fun e => selected true [] e.1) = l.blocks := by simp [selected]
  rw [hall] at hs
  exact hs

/-- Layers of another type, side or voxel size are incompatible. -/
theorem judgeInto_other {V' : Type} {env' : Env V'} {P' : V' → Prop} {l' : FLayer V'}
    (hl' : Storable env' P' l') (env : Env V) (cur : FLayer V)
    (h : env'.typeName ≠ env.typeName ∨ l'.vps ≠ cur.vps ∨
      closeVoxelSize (widen l'.voxelSize) cur.voxelSize = false) :
    judgeInto env cur (layerProto env' l') = .ok .mismatch := by
  have hv : l'.vps % 2 ^ 32 = l'.vps := Nat.mod_eq_of_lt (by have := hl'.side; omega)
  unfold judgeInto isCompatibleLayer layerProto
  rw [if_neg]
  simp only [hv, Bool.and_eq_true, decide_eq_true_eq]
  rintro ⟨⟨ha, hb⟩, hc⟩
  rcases h with h | h | h
  · exact h hc.symm
  · exact h hb
  · rw [ha] at h; exact Bool.noConfusion h

theorem readMsg_size {M : Type} {dec : List Field → Option M} {file rest : List Byte} {m : M} {eof : Bool}
    (h : readMsg dec file = some (m, rest, eof)) (hs : rest.length < file.length) :
    (file.length < chunk → eof = true) := by
  intro hlt
  unfold readMsg at h
  split at h
  · cases h
  · rename_i size r hr
    split at h
    · cases h
    · dsimp only at h
      split at h
      · cases h
      · simp only [Option.some.injEq, Prod.mk.injEq] at h
        obtain ⟨-, h2, h3⟩ := h
        rw [h2] at h3
        rw [← h3]
        unfold chunk at hlt
        unfold eofAfter chunk
        apply decide_eq_true
        omega

theorem blockMsg_pos (p : BlockProto) : 0 < (writeMsg p.fields).length := by
  have h : writeMsg p.fields ≠ [] := by
    unfold writeMsg
    intro h
    exact encVarintF_ne_nil 9 _ (List.append_eq_nil_iff.1 h).1
  exact List.length_pos_iff.2 h

/-- Skipping stored blocks reaches the bytes behind them; when fewer than a chunk of bytes was left, the
end-of-file flag is set. -/
theorem skipBlocks_any {env : Env V} {P : V → Prop} (he : EnvOk env P) {l : FLayer V}
    (hl : Storable env P l) : ∀ (bs : List (Idx × Block Word V)) (rest : List Byte) (e0 : Bool),
    (∀ e ∈ bs, StorableBlock env P l e.1 e.2) →
    ∃ eof, skipBlocks bs.length (blockBytes env bs ++ rest) e0 = some (rest, eof) ∧
      ((blockBytes env bs ++ rest).length < chunk → e0 = true → eof = true) := by
  intro bs
  induction bs with
  | nil => intro rest e0 _; exact ⟨e0, rfl, fun _ h => h⟩
  | cons e bs ih =>
    intro rest e0 hbs
    obtain ⟨i, b⟩ := e
    have hb := hbs _ List.mem_cons_self
    simp only at hb
    obtain ⟨eof, hread⟩ := readMsg_block he hl hb (blockBytes env bs ++ rest)
    obtain ⟨eof', hskip, hend⟩ := ih rest eof fun e he' => hbs e (List.mem_cons_of_mem _ he')
    refine ⟨eof', ?_, fun hlt _ => ?_⟩
    · rw [List.length_cons, blockBytes_cons, List.append_assoc, skipBlocks, hread]
      exact hskip
    · rw [blockBytes_cons, List.append_assoc, List.length_append] at hlt
      simp only at hlt
      have hpos := blockMsg_pos (protoOf env b)
      have hsum := List.length_append (as := writeMsg (protoOf env b).fields) (bs := blockBytes env bs ++ rest)
      exact hend (by omega) (readMsg_size hread (by omega) (by omega))

/-- A stored layer that does not fit: loading either gives up or goes on behind it; in a file of less than
a chunk it gives up. -/
theorem skip_any {V' : Type} {env' : Env V'} {P' : V' → Prop} (he' : EnvOk env' P') {l' : FLayer V'}
    (hl' : Storable env' P' l') (env : Env V) (cur : Option (FLayer V)) (s : Strategy)
    (judge : LayerProto → Outcome (Verdict V)) (hj : judge (layerProto env' l') = .ok .mismatch)
    (k : ℕ) (rest : List Byte) :
    (loadLoop env s judge true cur (k + 1) (section_ env' l' l'.blocks ++ rest) = .ok (false, cur) ∨
      loadLoop env s judge true cur (k + 1) (section_ env' l' l'.blocks ++ rest) =
        loadLoop env s judge true cur k rest) ∧
    ((section_ env' l' l'.blocks ++ rest).length < chunk →
      loadLoop env s judge true cur (k + 1) (section_ env' l' l'.blocks ++ rest) = .ok (false, cur)) := by
  have hh := header_ok he' l' (blockBytes env' l'.blocks ++ rest)
  obtain ⟨eof, hskip, hend⟩ := skipBlocks_any he' hl' l'.blocks rest
    (eofAfter ((writeMsg (layerProto env' l').fields).length + (blockBytes env' l'.blocks ++ rest).length)
        (writeMsg (layerProto env' l').fields).length) hl'.blocks
  have hrun : loadLoop env s judge true cur (k + 1) (section_ env' l' l'.blocks ++ rest) =
      if eof then .ok (false, cur) else loadLoop env s judge true cur k rest := by
    rw [loadLoop, readCount_section l'.blocks hl'.count]
    simp only
    rw [if_neg (by omega), hh]
    simp only [hj, Outcome.bind_ok, Nat.add_sub_cancel_left, Bool.not_true, Bool.false_eq_true, if_false]
    rw [hskip]
  rw [hrun]
  refine ⟨?_, fun hlt => ?_⟩
  · cases eof
    · exact Or.inr rfl
    · exact Or.inl rfl
  · have hpos : 0 < (writeMsg (layerProto env' l').fields).length := by
      have h : writeMsg (layerProto env' l').fields ≠ [] := by
        unfold writeMsg
        intro h
        exact encVarintF_ne_nil 9 _ (List.append_eq_nil_iff.1 h).1
      exact List.length_pos_iff.2 h
    have hsec : (section_ env' l' l'.blocks ++ rest).length =
        (writeCount (1 + l'.blocks.length)).length + ((writeMsg (layerProto env' l').fields).length +
          (blockBytes env' l'.blocks ++ rest).length) := by
      simp only [section_, List.length_append]; omega
    rw [hsec] at hlt
    have h2 := readMsg_size hh (by rw [List.length_append (as := writeMsg _)]; omega) (by
      rw [List.length_append (as := writeMsg _)]; omega)
    rw [if_pos (hend (by omega) h2)]

/-- The end-of-file flag after skipping stored blocks is the one of the last message. -/
theorem skipBlocks_last {env : Env V} {P : V → Prop} (he : EnvOk env P) {l : FLayer V}
    (hl : Storable env P l) (e : Idx × Block Word V) (hb : StorableBlock env P l e.1 e.2) :
    ∀ (bs : List (Idx × Block Word V)) (rest : List Byte) (e0 : Bool),
    (∀ e ∈ bs, StorableBlock env P l e.1 e.2) →
    skipBlocks (bs ++ [e]).length (blockBytes env (bs ++ [e]) ++ rest) e0 =
      some (rest, eofAfter ((writeMsg (protoOf env e.2).fields).length + rest.length)
        (writeMsg (protoOf env e.2).fields).length) := by
  intro bs
  induction bs with
  | nil =>
    intro rest e0 _
    rw [List.nil_append, List.length_singleton, blockBytes_cons, List.append_assoc, skipBlocks]
    have h := readMsg_write BlockProto.decode (blockFields_ok _) (fields_ne_nil _) (protoOf_size he hl hb)
      (block_decode (protoOf_vps e.2)) rest
    rw [show blockBytes env [] ++ rest = rest from rfl, h]
    rfl
  | cons f bs ih =>
    intro rest e0 hbs
    obtain ⟨i, b⟩ := f
    have hb' := hbs _ List.mem_cons_self
    simp only at hb'
    obtain ⟨eof, hread⟩ := readMsg_block he hl hb' (blockBytes env (bs ++ [e]) ++ rest)
    rw [List.cons_append, List.length_cons, blockBytes_cons, List.append_assoc, skipBlocks, hread]
    exact ih rest eof fun e he' => hbs e (List.mem_cons_of_mem _ he')

/-- Loading gives up behind a stored layer that does not fit when the chunk with the end of its last message
reaches the end of the file. -/
theorem skip_last {V' : Type} {env' : Env V'} {P' : V' → Prop} (he' : EnvOk env' P') {l' : FLayer V'}
    (hl' : Storable env' P' l') (env : Env V) (cur : Option (FLayer V)) (s : Strategy)
    (judge : LayerProto → Outcome (Verdict V)) (hj : judge (layerProto env' l') = .ok .mismatch)
    (k : ℕ) (rest : List Byte) (bs : List (Idx × Block Word V')) (e : Idx × Block Word V')
    (hbs : l'.blocks = bs ++ [e])
    (hlast : (writeMsg (protoOf env' e.2).fields).length + rest.length <
      chunk * (((writeMsg (protoOf env' e.2).fields).length + (chunk - 1)) / chunk)) :
    loadLoop env s judge true cur (k + 1) (section_ env' l' l'.blocks ++ rest) = .ok (false, cur) := by
  have hh := header_ok he' l' (blockBytes env' l'.blocks ++ rest)
  have hmem : ∀ f ∈ bs ++ [e], StorableBlock env' P' l' f.1 f.2 := by rw [← hbs]; exact hl'.blocks
  have hskip := skipBlocks_last he' hl' e (hmem e (by simp)) bs rest
    (eofAfter ((writeMsg (layerProto env' l').fields).length + (blockBytes env' l'.blocks ++ rest).length)
        (writeMsg (layerProto env' l').fields).length) fun f hf => hmem f (by simp [hf])
  rw [← hbs] at hskip
  rw [loadLoop, readCount_section l'.blocks hl'.count]
  simp only
  rw [if_neg (by omega), hh]
  simp only [hj, Outcome.bind_ok, Nat.add_sub_cancel_left, Bool.not_true, Bool.false_eq_true, if_false]
  rw [hskip]
  simp only
  exact if_pos (decide_eq_true hlast)

/-- The layer after a load is always there. -/
theorem loadLoop_some {env : Env V} {s : Strategy} {judge : LayerProto → Outcome (Verdict V)} {multi : Bool}
    {c : FLayer V} : ∀ (k : ℕ) (file : List Byte) (ok : Bool) (r : Option (FLayer V)),
    loadLoop env s judge multi (some c) k file = .ok (ok, r) → ∃ l', r = some l' := by
  intro k
  induction k with
  | zero => intro file ok r h; simp only [loadLoop, Outcome.ok.injEq, Prod.mk.injEq] at h; exact ⟨_, h.2.symm⟩
  | succ k ih =>
    intro file ok r h
    rw [loadLoop] at h
    split at h
    · simp only [Outcome.ok.injEq, Prod.mk.injEq] at h; exact ⟨_, h.2.symm⟩
    · split at h
      · simp only [Outcome.ok.injEq, Prod.mk.injEq] at h; exact ⟨_, h.2.symm⟩
      · split at h
        · simp only [Outcome.ok.injEq, Prod.mk.injEq] at h; exact ⟨_, h.2.symm⟩
        · obtain ⟨v, -, h⟩ := Outcome.bind_eq_ok.1 h
          cases v with
          | reject => simp only [Outcome.ok.injEq, Prod.mk.injEq] at h; exact ⟨_, h.2.symm⟩
          | mismatch =>
            simp only at h
            split at h
            · simp only [Outcome.ok.injEq, Prod.mk.injEq] at h; exact ⟨_, h.2.symm⟩
            · split at h
              · simp only [Outcome.ok.injEq, Prod.mk.injEq] at h; exact ⟨_, h.2.symm⟩
              · split at h
                · simp only [Outcome.ok.injEq, Prod.mk.injEq] at h; exact ⟨_, h.2.symm⟩
                · exact ih _ _ _ h
          | load l =>
            simp only at h
            obtain ⟨⟨ok', l'⟩, -, h⟩ := Outcome.bind_eq_ok.1 h
            simp only [Outcome.ok.injEq, Prod.mk.injEq] at h
            exact ⟨l', h.2.symm⟩

/-! ### Sizes -/

theorem encVarint_pos (n : ℕ) : 1 ≤ (encVarint n).length :=
  List.length_pos_iff.2 (encVarintF_ne_nil 9 n)

theorem dataFields_length_ge (ws : List Word) :
    2 * ws.length ≤ (encFields (ws.map fun w => ((7, .varint w.toNat) : Field))).length := by
  induction ws with
  | nil => simp
  | cons w ws ih =>
    have h1 := encVarint_pos (7 * 8 + 0)
    have h2 := encVarint_pos w.toNat
    simp only [encFields, List.map_cons, List.flatMap_cons, List.length_append, encField, Wire.enc,
      Wire.tag, List.length_cons] at ih ⊢
    omega

/-- Bytes of the voxel data of equal voxels. -/
theorem replicate_length (c : Codec V) (v : V) (n : ℕ) :
    (encFields (((List.replicate n v).flatMap c.enc).map fun w => ((7, .varint w.toNat) : Field))).length =
      n * (encFields ((c.enc v).map fun w => ((7, .varint w.toNat) : Field))).length := by
  unfold encFields
  induction n with
  | zero => simp
  | succ n ih =>
    rw [List.replicate_succ, List.flatMap_cons, List.map_append, List.flatMap_append, List.length_append, ih,
      Nat.add_mul, Nat.one_mul, Nat.add_comm]

theorem block_length_ge (env : Env V) {P : V → Prop} (he : EnvOk env P) (b : Block Word V) :
    2 * (b.voxels.length * env.codec.words) ≤ (writeMsg (protoOf env b).fields).length := by
  have h1 := dataFields_length_ge (protoOf env b).voxelData
  have h2 : (protoOf env b).voxelData.length = b.voxels.length * env.codec.words :=
    flatMap_enc_length env.codec he.lawful.1 b.voxels
  rw [h2] at h1
  unfold writeMsg BlockProto.fields encFields
  unfold encFields at h1
  rw [List.flatMap_append, List.length_append, List.length_append]
  omega

theorem blockBytes_length_ge {env : Env V} {P : V → Prop} (he : EnvOk env P) (n : ℕ)
    (bs : List (Idx × Block Word V)) (h : ∀ e ∈ bs, e.2.voxels.length = n) :
    bs.length * (2 * (n * env.codec.words)) ≤ (blockBytes env bs).length := by
  induction bs with
  | nil => simp
  | cons e bs ih =>
    have h1 := block_length_ge env he e.2
    have h2 := ih fun e' he' => h e' (List.mem_cons_of_mem _ he')
    rw [h e List.mem_cons_self] at h1
    rw [blockBytes_cons, List.length_append, List.length_cons, Nat.add_mul, Nat.one_mul]
    omega

/-- A stored layer takes at least two bytes per word. -/
theorem section_length_ge {env : Env V} {P : V → Prop} (he : EnvOk env P) {l : FLayer V}
    (hl : Storable env P l) :
    l.blocks.length * (2 * (numVoxels l.vps * env.codec.words)) ≤ (section_ env l l.blocks).length := by
  have h := blockBytes_length_ge he (numVoxels l.vps) l.blocks fun e h => (hl.blocks e h).length
  unfold section_
  rw [List.length_append]
  omega

end Vox.ServerIO
