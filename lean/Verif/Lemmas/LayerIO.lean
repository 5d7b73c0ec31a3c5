/-
Helper lemmas on saving and loading layers.
-/
import Verif.Model.LayerIO
import Verif.Lemmas.Proto
import Verif.Lemmas.FloatBits
import Verif.Lemmas.Serial
import Verif.Lemmas.Layer

namespace Vox.IO

open FloatBits Proto Serial Layer

variable {V : Type}

/-! ### Association lists -/

theorem lookup_assign {α : Type} (m : List (Idx × α)) (i j : Idx) (b : α) :
    (assign m i b).lookup j = if j = i then some b else m.lookup j := by
  unfold assign
  rw [lookup_cons_ite, lookup_filter_key]
  split <;> simp_all

theorem assign_keys {α : Type} {m : List (Idx × α)} (h : (m.map (·.1)).Nodup) (i : Idx) (b : α) :
    ((assign m i b).map (·.1)).Nodup := by
  unfold assign
  rw [List.map_cons, List.nodup_cons]
  refine ⟨?_, h.sublist (List.filter_sublist.map _)⟩
  simp [List.mem_map, List.mem_filter]

theorem lookup_modifyKey {α : Type} (m : List (Idx × α)) (i j : Idx) (f : α → α) :
    (modifyKey m i f).lookup j = if j = i then (m.lookup j).map f else m.lookup j := by
  induction m with
  | nil => simp [modifyKey]
  | cons e m ih =>
    obtain ⟨k, b⟩ := e
    have : modifyKey ((k, b) :: m) i f = (k, if k = i then f b else b) :: modifyKey m i f := by
      simp only [modifyKey, List.map_cons]
      split <;> rfl
    rw [this, lookup_cons_ite, lookup_cons_ite, ih]
    by_cases hj : j = k
    · subst hj
      rw [if_pos rfl, if_pos rfl]
      by_cases hi : j = i
      · rw [if_pos hi, if_pos hi]; rfl
      · rw [if_neg hi, if_neg hi]
    · rw [if_neg hj, if_neg hj]

theorem modifyKey_keys {α : Type} (m : List (Idx × α)) (i : Idx) (f : α → α) :
    (modifyKey m i f).map (·.1) = m.map (·.1) := by
  unfold modifyKey
  rw [List.map_map]
  apply List.map_congr_left
  intro e _
  simp only [Function.comp]
  split <;> rfl

/-! ### Sizes -/

theorem encVarint_length {n : ℕ} (m : ℕ) (h : n < 128 ^ m) (hm : 0 < m) : (encVarint n).length ≤ m :=
  encVarintF_length 10 n m h hm

theorem encVarint_length_ten (n : ℕ) : (encVarint n).length ≤ 10 := by
  unfold encVarint
  have : ∀ k n, (encVarintF k n).length ≤ k := by
    intro k
    induction k with
    | zero => intro n; simp [encVarintF]
    | succ k ih => intro n; rw [encVarintF]; split <;> simp [ih]
  exact this 10 n

theorem dataFields_length (ws : List Word) :
    (encFields (ws.map fun w => ((7, .varint w.toNat) : Field))).length ≤ 6 * ws.length := by
  induction ws with
  | nil => simp [encFields]
  | cons w ws ih =>
    have h1 : (encVarint (7 * 8 + 0)).length ≤ 1 := encVarint_length 1 (by norm_num) (by norm_num)
    have h2 : (encVarint w.toNat).length ≤ 5 :=
      encVarint_length 5 (lt_trans w.isLt (by norm_num)) (by norm_num)
    simp only [encFields, List.map_cons, List.flatMap_cons, List.length_append, encField, Wire.enc,
      Wire.tag, List.length_cons] at ih ⊢
    omega

theorem blockFields_length (p : BlockProto) :
    (encFields p.fields).length ≤ 100 + 6 * p.voxelData.length := by
  have h := dataFields_length p.voxelData
  have t : ∀ n, (encVarint n).length ≤ 10 := encVarint_length_ten
  unfold BlockProto.fields encFields
  rw [List.flatMap_append, List.length_append]
  unfold encFields at h
  simp only [List.flatMap_cons, List.flatMap_nil, List.length_append, encField, Wire.enc, Wire.tag,
    encLE_length, List.length_nil]
  have := t (1 * 8 + 0)
  have := t (p.vps % 2 ^ 64).toNat
  have := t (2 * 8 + 1)
  have := t (3 * 8 + 1)
  have := t (4 * 8 + 1)
  have := t (5 * 8 + 1)
  have := t (6 * 8 + 0)
  have := t (if p.hasData then 1 else 0)
  have h1 : (encVarint (2 * 8 + 1)).length ≤ 1 := encVarint_length 1 (by norm_num) (by norm_num)
  have h2 : (encVarint (3 * 8 + 1)).length ≤ 1 := encVarint_length 1 (by norm_num) (by norm_num)
  have h3 : (encVarint (4 * 8 + 1)).length ≤ 1 := encVarint_length 1 (by norm_num) (by norm_num)
  have h4 : (encVarint (5 * 8 + 1)).length ≤ 1 := encVarint_length 1 (by norm_num) (by norm_num)
  omega

theorem layerFields_length (p : LayerProto) : (encFields p.fields).length ≤ 100 + p.type.length := by
  have t : ∀ n, (encVarint n).length ≤ 10 := encVarint_length_ten
  simp only [LayerProto.fields, encFields, List.flatMap_cons, List.flatMap_nil, List.length_append,
    encField, Wire.enc, Wire.tag, encLE_length, List.length_nil]
  have := t (1 * 8 + 1)
  have := t (2 * 8 + 0)
  have := t (3 * 8 + 2)
  have := t p.vps
  have := t p.type.length
  omega

/-! ### Blocks and their messages -/

/-- What has to hold of a block (with map key `i`) of a layer for it to be stored faithfully. -/
structure StorableBlock (env : Env V) (P : V → Prop) (l : FLayer V) (i : Idx) (b : Block Word V) : Prop where
  vps : b.vps = l.vps
  voxelSize : b.voxelSize = l.voxelSize
  length : b.voxels.length = numVoxels l.vps
  voxels : ∀ v ∈ b.voxels, P v
  ox : ¬ IsNaN32 b.origin.x
  oy : ¬ IsNaN32 b.origin.y
  oz : ¬ IsNaN32 b.origin.z
  index : env.idxOf l.voxelSize l.vps b.origin = .ok i

/-- What has to hold of a layer for it to be stored faithfully: a positive finite voxel size, a positive
side with block messages below protobuf's 2 GiB limit, and storable blocks under unique indices. -/
structure Storable (env : Env V) (P : V → Prop) (l : FLayer V) : Prop where
  size : ∃ q : ℚ, fl32 l.voxelSize = .fin q ∧ 0 < q
  vps : 0 < l.vps
  side : l.vps < 2 ^ 31
  words : numVoxels l.vps * env.codec.words ≤ 2 ^ 28
  keys : (l.blocks.map (·.1)).Nodup
  count : l.blocks.length + 1 < 2 ^ 32
  blocks : ∀ e ∈ l.blocks, StorableBlock env P l e.1 e.2

/-- Conditions on the voxel type. -/
structure EnvOk (env : Env V) (P : V → Prop) : Prop where
  lawful : LawfulOn env.codec P
  words : 0 < env.codec.words
  name : env.typeName ≠ []
  nameLen : env.typeName.length < 2 ^ 20

/-- The message of a block. -/
def protoOf (env : Env V) (b : Block Word V) : BlockProto :=
  { vps := wrap32 b.vps, voxelSize := widen b.voxelSize, originX := widen b.origin.x,
    originY := widen b.origin.y, originZ := widen b.origin.z, hasData := b.hasData,
    voxelData := b.voxels.flatMap env.codec.enc }

theorem blockProto_ok {env : Env V} {P : V → Prop} (he : EnvOk env P) (b : Block Word V) :
    blockProto env b = .ok (protoOf env b) := by
  simp only [blockProto, serialize_ok env.codec he.lawful.1, Outcome.bind_ok, Outcome.pure_eq, protoOf]

theorem not_nan_of_fin {w : Word} {q : ℚ} (h : fl32 w = .fin q) : ¬ IsNaN32 w := by
  intro hn
  unfold IsNaN32 at hn
  unfold fl32 at h
  simp only [hn.1, if_true, hn.2, if_false] at h
  exact Fl.noConfusion h

/-- The block read back: identical except for the update flags, which start cleared. -/
def fresh (b : Block Word V) : Block Word V := { b with updated := Flags.ofBool false }

/-- The block as it is in the layer after loading: identical except that all update flags are set. -/
def flagged (b : Block Word V) : Block Word V := { b with updated := Flags.setAll }

theorem blockFromProto_protoOf {env : Env V} {P : V → Prop} (he : EnvOk env P) {l : FLayer V}
    (hl : Storable env P l) {i : Idx} {b : Block Word V} (hb : StorableBlock env P l i b) :
    blockFromProto env (protoOf env b) = .ok (fresh b) := by
  obtain ⟨q, hq, -⟩ := hl.size
  have hvps : wrap32 (b.vps : ℤ) = b.vps := by
    apply wrap32_of_range
    have := hl.side
    rw [hb.vps]; constructor <;> omega
  obtain ⟨ws, hw, hd⟩ := roundtrip_of_lawful he.lawful b.voxels hb.voxels
  rw [serialize_ok env.codec he.lawful.1] at hw
  simp only [Outcome.ok.injEq] at hw
  subst hw
  have hnn : ¬ IsNaN32 b.voxelSize := by rw [hb.voxelSize]; exact not_nan_of_fin hq
  simp only [blockFromProto, protoOf, hvps]
  rw [show numVoxels (b.vps : ℤ).toNat = b.voxels.length by
    rw [hb.length, hb.vps]; rfl, hd]
  simp only [Outcome.check, Int.natCast_nonneg, decide_true, if_true, Outcome.bind_ok, Outcome.pure_eq,
    narrow_widen hnn, narrow_widen hb.ox, narrow_widen hb.oy, narrow_widen hb.oz, Int.toNat_natCast, fresh]

theorem compatible_protoOf {env : Env V} {P : V → Prop} {l : FLayer V}
    (hl : Storable env P l) {i : Idx} {b : Block Word V} (hb : StorableBlock env P l i b) {l' : FLayer V}
    (h1 : l'.voxelSize = l.voxelSize) (h2 : l'.vps = l.vps) :
    isCompatibleBlock l' (protoOf env b) = true := by
  obtain ⟨q, hq, -⟩ := hl.size
  simp only [isCompatibleBlock, protoOf, h1, h2, hb.vps, hb.voxelSize, closeVoxelSize_widen hq,
    decide_true, Bool.and_self]

/-- Adding a decoded block that is not yet present. -/
theorem add_missing {env : Env V} {l : FLayer V} {p : BlockProto} {s : Strategy} {i : Idx}
    {b : Block Word V} (hc : isCompatibleBlock l p = true) (hb : blockFromProto env p = .ok b)
    (hi : env.idxOf l.voxelSize l.vps b.origin = .ok i) (hk : (l.blocks.map (·.1)).Nodup)
    (hn : l.blocks.lookup i = none) :
    ∃ m, addBlockFromProto env l p s = .ok (true, { l with blocks := m }) ∧ (m.map (·.1)).Nodup ∧
      ∀ j, m.lookup j = if j = i then some (flagged b) else l.blocks.lookup j := by
  have hmain : ∀ m0 : List (Idx × Block Word V), (m0.map (·.1)).Nodup →
      (∀ j, m0.lookup j = if j = i then some b else l.blocks.lookup j) →
      ((modifyKey m0 i fun b => { b with updated := Flags.setAll }).map (·.1)).Nodup ∧
      ∀ j, (modifyKey m0 i fun b => { b with updated := Flags.setAll }).lookup j =
        if j = i then some (flagged b) else l.blocks.lookup j := by
    intro m0 hk0 hm0
    refine ⟨by rw [modifyKey_keys]; exact hk0, fun j => ?_⟩
    rw [lookup_modifyKey, hm0 j]
    by_cases hj : j = i
    · simp [hj, flagged]
    · simp [hj]
  have hassign := hmain (assign l.blocks i b) (assign_keys hk i b) (fun j => lookup_assign _ i j b)
  have hcons := hmain ((i, b) :: l.blocks)
    (by rw [List.map_cons, List.nodup_cons]; exact ⟨lookup_eq_none_iff'.1 hn, hk⟩)
    (fun j => lookup_cons_ite _ i j b)
  unfold addBlockFromProto
  rw [if_pos hc, hb, Outcome.bind_ok, hi, Outcome.bind_ok]
  cases s with
  | prohibit => exact ⟨_, by simp [placeBlock, hn, Outcome.check], hassign⟩
  | replace => exact ⟨_, by simp [placeBlock], hassign⟩
  | discard => exact ⟨_, by simp [placeBlock, hn], hcons⟩
  | merge => exact ⟨_, by simp [placeBlock, hn], hassign⟩

/-! ### Messages in a file -/

/-- The bytes of a sequence of block messages. -/
def blockBytes (env : Env V) (bs : List (Idx × Block Word V)) : List Byte :=
  (bs.map fun e => writeMsg (protoOf env e.2).fields).flatten

theorem blockBytes_cons (env : Env V) (e : Idx × Block Word V) (bs : List (Idx × Block Word V)) :
    blockBytes env (e :: bs) = writeMsg (protoOf env e.2).fields ++ blockBytes env bs := rfl

theorem fields_ne_nil (p : BlockProto) : p.fields ≠ [] := by simp [BlockProto.fields]

theorem protoOf_vps {env : Env V} (b : Block Word V) : IsI32 (protoOf env b).vps := by
  change IsI32 (wrap32 b.vps)
  unfold IsI32 wrap32
  omega

theorem protoOf_size {env : Env V} {P : V → Prop} (he : EnvOk env P) {l : FLayer V}
    (hl : Storable env P l) {i : Idx} {b : Block Word V} (hb : StorableBlock env P l i b) :
    (encFields (protoOf env b).fields).length < 2 ^ 31 := by
  have h1 := blockFields_length (protoOf env b)
  have h2 : (protoOf env b).voxelData.length = b.voxels.length * env.codec.words :=
    flatMap_enc_length env.codec he.lawful.1 b.voxels
  have h3 := hl.words
  rw [h2, hb.length] at h1
  omega

theorem readMsg_block {env : Env V} {P : V → Prop} (he : EnvOk env P) {l : FLayer V}
    (hl : Storable env P l) {i : Idx} {b : Block Word V} (hb : StorableBlock env P l i b)
    (rest : List Byte) :
    ∃ eof, readMsg BlockProto.decode (writeMsg (protoOf env b).fields ++ rest) =
      some (protoOf env b, rest, eof) :=
  ⟨_, readMsg_write BlockProto.decode (blockFields_ok _) (fields_ne_nil _) (protoOf_size he hl hb)
    (block_decode (protoOf_vps b)) rest⟩

/-- Loading a sequence of stored blocks whose indices are not yet present. -/
theorem loadBlocks_ok {env : Env V} {P : V → Prop} (he : EnvOk env P) {l : FLayer V}
    (hl : Storable env P l) (s : Strategy) : ∀ (bs : List (Idx × Block Word V)) (rest : List Byte) (cur : FLayer V),
    (∀ e ∈ bs, StorableBlock env P l e.1 e.2) → (bs.map (·.1)).Nodup →
    cur.voxelSize = l.voxelSize → cur.vps = l.vps → (cur.blocks.map (·.1)).Nodup →
    (∀ e ∈ bs, cur.blocks.lookup e.1 = none) →
    ∃ m, loadBlocks env s bs.length (blockBytes env bs ++ rest) cur = .ok (true, { cur with blocks := m }) ∧
      (m.map (·.1)).Nodup ∧
      ∀ j, m.lookup j = match bs.lookup j with
        | some b => some (flagged b)
        | none => cur.blocks.lookup j := by
  intro bs
  induction bs with
  | nil => intro rest cur _ _ _ _ hk _; exact ⟨cur.blocks, rfl, hk, fun j => rfl⟩
  | cons e bs ih =>
    intro rest cur hbs hnd h1 h2 hk hnone
    obtain ⟨i, b⟩ := e
    rw [List.map_cons, List.nodup_cons] at hnd
    have hb := hbs _ List.mem_cons_self
    simp only at hb
    obtain ⟨eof, hread⟩ := readMsg_block he hl hb (blockBytes env bs ++ rest)
    obtain ⟨m1, hadd, hk1, hm1⟩ := add_missing (s := s) (compatible_protoOf hl hb h1 h2)
      (blockFromProto_protoOf he hl hb) (i := i) (by rw [h1, h2]; exact hb.index) hk
      (hnone _ List.mem_cons_self)
    obtain ⟨m, hload, hk2, hm⟩ := ih rest { cur with blocks := m1 }
      (fun e he' => hbs e (List.mem_cons_of_mem _ he')) hnd.2 h1 h2 hk1 (by
        intro e he'
        have hne : e.1 ≠ i := fun h => hnd.1 (List.mem_map.2 ⟨e, he', h⟩)
        simp only [hm1 e.1, if_neg hne]
        exact hnone e (List.mem_cons_of_mem _ he'))
    refine ⟨m, ?_, hk2, fun j => ?_⟩
    · rw [List.length_cons, blockBytes_cons, List.append_assoc, loadBlocks, hread]
      simp only [hadd, Outcome.bind_ok, if_true]
      rw [hload]
    · rw [hm j, lookup_cons_ite]
      by_cases hj : j = i
      · subst hj
        rw [lookup_eq_none_iff'.2 hnd.1, if_pos rfl]
        simp [hm1, flagged, fresh]
      · rw [if_neg hj]
        simp only [hm1 j, if_neg hj]

theorem filter_storable {env : Env V} {P : V → Prop} {l : FLayer V} (hl : Storable env P l)
    (q : Idx × Block Word V → Bool) :
    (∀ e ∈ l.blocks.filter q, StorableBlock env P l e.1 e.2) ∧ ((l.blocks.filter q).map (·.1)).Nodup :=
  ⟨fun e he => hl.blocks e (List.mem_filter.1 he).1, hl.keys.sublist (List.filter_sublist.map _)⟩

/-- Bytes of a layer section. -/
def section_ (env : Env V) (l : FLayer V) (bs : List (Idx × Block Word V)) : List Byte :=
  writeCount (1 + bs.length) ++ writeMsg (layerProto env l).fields ++ blockBytes env bs

/-- Saving succeeds and writes the section of the selected blocks. -/
theorem saveSubset_ok {env : Env V} {P : V → Prop} (he : EnvOk env P) {l : FLayer V}
    (hl : Storable env P l) (list : List Idx) (all : Bool) :
    saveSubset env l list all = .ok (section_ env l (l.blocks.filter fun e => selected all list e.1)) := by
  have hn : (if (all && !l.blocks.isEmpty) || !list.isEmpty then
      l.blocks.countP fun e => if !all then list.contains e.1 else true else 0) =
      (l.blocks.filter fun e => selected all list e.1).length := by
    cases all with
    | true =>
      cases hb : l.blocks with
      | nil => simp
      | cons e t => simp [selected]
    | false =>
      cases hll : list with
      | nil => simp [selected]
      | cons i t =>
        simp only [Bool.false_and, List.isEmpty_cons, Bool.not_false, Bool.or_true, if_true,
          List.countP_eq_length_filter, selected, Bool.false_or]
  have hsave : saveBlocks env all list l =
      .ok (blockBytes env (l.blocks.filter fun e => selected all list e.1)) := by
    unfold saveBlocks
    rw [mapM_ok _ (fun e => writeMsg (protoOf env e.2).fields) _ (by
      intro e _
      simp only [blockProto_ok he, Outcome.bind_ok, Outcome.pure_eq])]
    rfl
  have hle : (l.blocks.filter fun e => selected all list e.1).length ≤ l.blocks.length :=
    List.length_filter_le _ _
  unfold saveSubset
  simp only [hn, hsave]
  cases all with
  | true =>
    have : (l.blocks.filter fun e => selected true list e.1).length = l.blocks.length := by
      simp [selected]
    simp only [if_true, this, decide_true, Outcome.check, Outcome.bind_ok, Outcome.pure_eq]
    simp only [section_, this]
  | false =>
    have hsub : (l.blocks.filter fun e => selected false list e.1).length ≤ list.length := by
      have hnd : ((l.blocks.filter fun e => selected false list e.1).map (·.1)).Nodup :=
        hl.keys.sublist (List.filter_sublist.map _)
      have hs : ((l.blocks.filter fun e => selected false list e.1).map (·.1)) ⊆ list := by
        intro i hi
        obtain ⟨e, he', rfl⟩ := List.mem_map.1 hi
        simpa [selected] using (List.mem_filter.1 he').2
      simpa using (hnd.subperm hs).length_le
    simp only [Bool.false_eq_true, if_false, Outcome.check, hle, hsub, decide_true, if_true,
      Outcome.bind_ok, Outcome.pure_eq, section_]

theorem header_ok {env : Env V} {P : V → Prop} (he : EnvOk env P) (l : FLayer V)
    (rest : List Byte) :
    readMsg LayerProto.decode (writeMsg (layerProto env l).fields ++ rest) =
      some (layerProto env l, rest, eofAfter ((writeMsg (layerProto env l).fields).length + rest.length)
        (writeMsg (layerProto env l).fields).length) := by
  have h1 := he.nameLen
  refine readMsg_write LayerProto.decode (layerFields_ok ?_ ?_) (by simp [LayerProto.fields]) ?_
    (layer_decode ?_) rest
  · exact Nat.mod_lt _ (by norm_num)
  · change env.typeName.length < 2 ^ 32; omega
  · have := layerFields_length (layerProto env l)
    have h2 : (layerProto env l).type.length = env.typeName.length := rfl
    omega
  · exact Nat.mod_lt _ (by norm_num)

theorem judgeNew_own {env : Env V} {P : V → Prop} {l : FLayer V} (hl : Storable env P l) :
    judgeNew env (layerProto env l) = .ok (.load { voxelSize := l.voxelSize, vps := l.vps, blocks := [] }) := by
  obtain ⟨q, hq, hq0⟩ := hl.size
  have hv : l.vps % 2 ^ 32 = l.vps := Nat.mod_eq_of_lt (by have := hl.side; omega)
  have hnn := not_nan_of_fin hq
  have hvp := hl.vps
  have hle : ¬ q ≤ 0 := not_le.2 hq0
  simp only [judgeNew, layerProto, hv, fl64_widen, hq, Fl.le, hle, decide_false, Bool.false_or,
    Bool.false_eq_true, show ¬ l.vps = 0 by omega, if_false, layerFromProto, decide_true, Outcome.check,
    if_true, Outcome.bind_ok, Fl.lt, hq0, narrow_widen hnn, hvp, Bool.and_self, Outcome.pure_eq]

/-- Loading a file that starts with a stored section. -/
theorem load_section {env : Env V} {P : V → Prop} (he : EnvOk env P) {l : FLayer V}
    (hl : Storable env P l) (bs : List (Idx × Block Word V))
    (hbs : ∀ e ∈ bs, StorableBlock env P l e.1 e.2) (hnd : (bs.map (·.1)).Nodup)
    (hcnt : bs.length + 1 < 2 ^ 32) (multi : Bool) (cur : Option (FLayer V)) (s : Strategy)
    (judge : LayerProto → Outcome (Verdict V)) (l0 : FLayer V) (hj : judge (layerProto env l) = .ok (.load l0))
    (hl0 : l0.voxelSize = l.voxelSize ∧ l0.vps = l.vps ∧ (l0.blocks.map (·.1)).Nodup)
    (hnone : ∀ e ∈ bs, l0.blocks.lookup e.1 = none) (k : ℕ) (rest : List Byte) :
    ∃ m, loadLoop env s judge multi cur (k + 1) (section_ env l bs ++ rest) =
        .ok (true, some { l0 with blocks := m }) ∧ (m.map (·.1)).Nodup ∧
      ∀ j, m.lookup j = match bs.lookup j with
        | some b => some (flagged b)
        | none => l0.blocks.lookup j := by
  obtain ⟨m, hload, hk, hm⟩ := loadBlocks_ok he hl s bs rest l0 hbs hnd hl0.1 hl0.2.1 hl0.2.2 hnone
  refine ⟨m, ?_, hk, hm⟩
  have hc : readCount (section_ env l bs ++ rest) =
      some (1 + bs.length, writeMsg (layerProto env l).fields ++ (blockBytes env bs ++ rest)) := by
    unfold section_ readCount writeCount
    rw [Nat.mod_eq_of_lt (by omega), List.append_assoc, List.append_assoc, readVarint32_enc (by omega)]
  rw [loadLoop, hc]
  simp only
  rw [if_neg (by omega), header_ok he l]
  simp only [hj, Outcome.bind_ok, Nat.add_sub_cancel_left, hload]

theorem judgeInto_own {env : Env V} {P : V → Prop} {l : FLayer V} (hl : Storable env P l) (cur : FLayer V)
    (h1 : cur.voxelSize = l.voxelSize) (h2 : cur.vps = l.vps) :
    judgeInto env cur (layerProto env l) = .ok (.load cur) := by
  obtain ⟨q, hq, -⟩ := hl.size
  have hv : l.vps % 2 ^ 32 = l.vps := Nat.mod_eq_of_lt (by have := hl.side; omega)
  simp only [judgeInto, isCompatibleLayer, layerProto, hv, h1, h2, closeVoxelSize_widen hq, decide_true,
    Bool.and_self, if_true]

/-! ### Truncated files -/

theorem add_keeps_config {env : Env V} {l l' : FLayer V} {p : BlockProto} {s : Strategy} {ok : Bool}
    (h : addBlockFromProto env l p s = .ok (ok, l')) : l'.voxelSize = l.voxelSize ∧ l'.vps = l.vps := by
  unfold addBlockFromProto at h
  split at h
  · obtain ⟨b, -, h⟩ := Outcome.bind_eq_ok.1 h
    obtain ⟨i, -, h⟩ := Outcome.bind_eq_ok.1 h
    obtain ⟨m, -, h⟩ := Outcome.bind_eq_ok.1 h
    simp only [Outcome.pure_eq, Outcome.ok.injEq, Prod.mk.injEq] at h
    rw [← h.2]; exact ⟨rfl, rfl⟩
  · simp only [Outcome.pure_eq, Outcome.ok.injEq, Prod.mk.injEq] at h
    rw [← h.2]; exact ⟨rfl, rfl⟩

theorem add_short {env : Env V} {P : V → Prop} {l : FLayer V} (hl : Storable env P l) {cur : FLayer V}
    (hc : cur.vps = l.vps) {p : BlockProto} {s : Strategy}
    (hlen : p.voxelData.length < numVoxels l.vps * env.codec.words) (r : FLayer V) :
    addBlockFromProto env cur p s ≠ .ok (true, r) := by
  intro h
  unfold addBlockFromProto at h
  split at h
  · rename_i hcomp
    obtain ⟨b, hb, -⟩ := Outcome.bind_eq_ok.1 h
    unfold isCompatibleBlock at hcomp
    simp only [Bool.and_eq_true, decide_eq_true_eq] at hcomp
    have hv : p.vps = (l.vps : ℤ) := by
      rw [hcomp.2, hc]
      apply wrap32_of_range
      have := hl.side
      constructor <;> omega
    unfold blockFromProto at hb
    obtain ⟨_, -, hb⟩ := Outcome.bind_eq_ok.1 hb
    obtain ⟨vs, hvs, -⟩ := Outcome.bind_eq_ok.1 hb
    unfold deserialize at hvs
    obtain ⟨_, hlen', -⟩ := Outcome.bind_eq_ok.1 hvs
    rw [hv, Int.toNat_natCast] at hlen'
    unfold Outcome.check at hlen'
    split at hlen'
    · rename_i hd
      rw [beq_iff_eq] at hd
      omega
    · cases hlen'
  · simp at h

theorem loadBlocks_prefix {env : Env V} {P : V → Prop} (he : EnvOk env P) {l : FLayer V}
    (hl : Storable env P l) (s : Strategy) : ∀ (bs : List (Idx × Block Word V)) (p q : List Byte) (cur : FLayer V),
    (∀ e ∈ bs, StorableBlock env P l e.1 e.2) → cur.vps = l.vps → p ++ q = blockBytes env bs → q ≠ [] →
    ∀ r, loadBlocks env s bs.length p cur ≠ .ok (true, r) := by
  intro bs
  induction bs with
  | nil =>
    intro p q cur _ _ h hq
    exact absurd (List.append_eq_nil_iff.1 h).2 hq
  | cons e bs ih =>
    intro p q cur hbs hc h hq r
    obtain ⟨i, b⟩ := e
    have hb := hbs _ List.mem_cons_self
    simp only at hb
    rw [blockBytes_cons] at h
    simp only at h
    rw [List.length_cons, loadBlocks]
    have hshort : ∀ t, p ++ t = writeMsg (protoOf env b).fields → t ≠ [] →
        (match readMsg BlockProto.decode p with
          | none => (.ok (false, cur) : Outcome (Bool × FLayer V))
          | some (p, rest, _) => do
            let (ok, l') ← addBlockFromProto env cur p s
            if ok then loadBlocks env s bs.length rest l' else .ok (false, l')) ≠ .ok (true, r) := by
      intro t ht htn
      rcases readMsg_prefix BlockProto.decode (blockFields_ok _) (fields_ne_nil _) (protoOf_size he hl hb) ht
        htn with hnone | ⟨j, m, eof, hj, hm, hr⟩
      · rw [hnone]; simp
      · rw [hr]
        simp only
        have h2 : (protoOf env b).voxelData.length = b.voxels.length * env.codec.words :=
          flatMap_enc_length env.codec he.lawful.1 b.voxels
        have hpos : 0 < (protoOf env b).voxelData.length := by
          rw [h2, hb.length]
          apply Nat.mul_pos _ he.words
          have := hl.vps
          unfold numVoxels
          positivity
        have hl2 := block_decode_take hj hm (List.length_pos_iff.1 hpos)
        rw [h2, hb.length] at hl2
        intro hcon
        obtain ⟨⟨ok, l'⟩, hadd, hcon⟩ := Outcome.bind_eq_ok.1 hcon
        cases ok with
        | true => exact add_short hl hc hl2 l' hadd
        | false => simp at hcon
    have hlong : ∀ c, p = writeMsg (protoOf env b).fields ++ c → c ++ q = blockBytes env bs →
        (match readMsg BlockProto.decode p with
          | none => (.ok (false, cur) : Outcome (Bool × FLayer V))
          | some (p, rest, _) => do
            let (ok, l') ← addBlockFromProto env cur p s
            if ok then loadBlocks env s bs.length rest l' else .ok (false, l')) ≠ .ok (true, r) := by
      intro c e1 e2
      rw [e1]
      obtain ⟨eof, hread⟩ := readMsg_block he hl hb c
      rw [hread]
      intro hcon
      simp only at hcon
      obtain ⟨⟨ok, l'⟩, hadd, hcon⟩ := Outcome.bind_eq_ok.1 hcon
      cases ok with
      | false => simp at hcon
      | true =>
        simp only [if_true] at hcon
        exact ih c q l' (fun e he' => hbs e (List.mem_cons_of_mem _ he'))
          ((add_keeps_config hadd).2.trans hc) e2 hq r hcon
    rcases List.append_eq_append_iff.1 h with ⟨c, e1, e2⟩ | ⟨c, e1, e2⟩
    · by_cases hcn : c = []
      · subst hcn
        exact hlong [] (by simpa using e1.symm) (by simpa using e2)
      · exact hshort c e1.symm hcn
    · exact hlong c e1 e2.symm

theorem skipBlocks_prefix {env : Env V} {P : V → Prop} (he : EnvOk env P) {l : FLayer V}
    (hl : Storable env P l) : ∀ (bs : List (Idx × Block Word V)) (p q : List Byte) (e0 : Bool),
    (∀ e ∈ bs, StorableBlock env P l e.1 e.2) → p ++ q = blockBytes env bs → q ≠ [] →
    skipBlocks bs.length p e0 = none ∨ ∃ eof, skipBlocks bs.length p e0 = some ([], eof) := by
  intro bs
  induction bs with
  | nil =>
    intro p q e0 _ h hq
    exact absurd (List.append_eq_nil_iff.1 h).2 hq
  | cons e bs ih =>
    intro p q e0 hbs h hq
    obtain ⟨i, b⟩ := e
    have hb := hbs _ List.mem_cons_self
    simp only at hb
    rw [blockBytes_cons] at h
    simp only at h
    rw [List.length_cons, skipBlocks]
    have hlong : ∀ c, p = writeMsg (protoOf env b).fields ++ c → c ++ q = blockBytes env bs →
        (match readMsg BlockProto.decode p with
          | none => none
          | some (_, rest, eof) => skipBlocks bs.length rest eof) = none ∨
        ∃ eof, (match readMsg BlockProto.decode p with
          | none => none
          | some (_, rest, eof) => skipBlocks bs.length rest eof) = some ([], eof) := by
      intro c e1 e2
      rw [e1]
      obtain ⟨eof, hread⟩ := readMsg_block he hl hb c
      rw [hread]
      exact ih c q eof (fun e he' => hbs e (List.mem_cons_of_mem _ he')) e2 hq
    rcases List.append_eq_append_iff.1 h with ⟨c, e1, e2⟩ | ⟨c, e1, e2⟩
    · by_cases hcn : c = []
      · subst hcn
        exact hlong [] (by simpa using e1.symm) (by simpa using e2)
      · rcases readMsg_prefix BlockProto.decode (blockFields_ok _) (fields_ne_nil _) (protoOf_size he hl hb)
          e1.symm hcn with hnone | ⟨j, m, eof, hj, hm, hr⟩
        · rw [hnone]; exact Or.inl rfl
        · rw [hr]
          simp only
          cases bs with
          | nil => exact Or.inr ⟨eof, rfl⟩
          | cons e' bs' =>
            left
            rw [List.length_cons, skipBlocks]
            rfl
    · exact hlong c e1 e2.symm

theorem loadLoop_nil (env : Env V) (s : Strategy) (judge : LayerProto → Outcome (Verdict V)) (multi : Bool)
    (cur : Option (FLayer V)) (k : ℕ) : loadLoop env s judge multi cur k [] = .ok (false, cur) := by
  cases k <;> rfl

/-- No strict prefix of a section loads successfully. -/
theorem load_prefix {env : Env V} {P : V → Prop} (he : EnvOk env P) {l : FLayer V}
    (hl : Storable env P l) (bs : List (Idx × Block Word V))
    (hbs : ∀ e ∈ bs, StorableBlock env P l e.1 e.2) (hcnt : bs.length + 1 < 2 ^ 32)
    (multi : Bool) (cur : Option (FLayer V)) (s : Strategy) (judge : LayerProto → Outcome (Verdict V))
    (hj1 : ∀ h l0, judge h = .ok (.load l0) → h.type = env.typeName ∧ h.vps = l0.vps)
    (k : ℕ) (p q : List Byte) (hp : p ++ q = section_ env l bs) (hq : q ≠ []) (r : Option (FLayer V)) :
    loadLoop env s judge multi cur k p ≠ .ok (true, r) := by
  cases k with
  | zero => simp [loadLoop]
  | succ k =>
    have hc0 : (1 + bs.length) % 2 ^ 32 = 1 + bs.length := Nat.mod_eq_of_lt (by omega)
    unfold section_ writeCount at hp
    rw [hc0, List.append_assoc] at hp
    have hcount : ∀ c, p = encVarint (1 + bs.length) ++ c →
        c ++ q = writeMsg (layerProto env l).fields ++ blockBytes env bs →
        loadLoop env s judge multi cur (k + 1) p ≠ .ok (true, r) := by
      intro c e1 e2
      rw [loadLoop, e1, readCount, readVarint32_enc (by omega)]
      simp only
      rw [if_neg (by omega), Nat.add_sub_cancel_left]
      have hhdr : ∀ d, c = writeMsg (layerProto env l).fields ++ d → d ++ q = blockBytes env bs →
          (match readMsg LayerProto.decode c with
          | none => (.ok (false, cur) : Outcome (Bool × Option (FLayer V)))
          | some (h, rest, eof) => do
            match ← judge h with
            | .reject => .ok (false, cur)
            | .mismatch =>
              if !multi then .ok (false, cur)
              else
                match skipBlocks bs.length rest eof with
                | none => .ok (false, cur)
                | some (rest, eof) =>
                  if eof then .ok (false, cur) else loadLoop env s judge multi cur k rest
            | .load l => do
              let (ok, l') ← loadBlocks env s bs.length rest l
              .ok (ok, some l')) ≠ .ok (true, r) := by
        intro d f1 f2
        rw [f1, header_ok he l]
        simp only
        intro hcon
        obtain ⟨v, hv, hcon⟩ := Outcome.bind_eq_ok.1 hcon
        cases v with
        | reject => simp at hcon
        | mismatch =>
          simp only at hcon
          split at hcon
          · simp at hcon
          · rcases skipBlocks_prefix he hl bs d q _ hbs f2 hq with hn | ⟨eof, hs⟩
            · rw [hn] at hcon; simp at hcon
            · rw [hs] at hcon
              simp only [loadLoop_nil] at hcon
              split at hcon <;> simp at hcon
        | load l0 =>
          simp only at hcon
          obtain ⟨⟨ok, l'⟩, hlb, hcon⟩ := Outcome.bind_eq_ok.1 hcon
          simp only [Outcome.ok.injEq, Prod.mk.injEq] at hcon
          obtain ⟨rfl, -⟩ := hcon
          have hvps : l0.vps = l.vps := by
            rw [← (hj1 _ _ hv).2]
            exact Nat.mod_eq_of_lt (by have := hl.side; omega)
          exact loadBlocks_prefix he hl s bs d q l0 hbs hvps f2 hq l' hlb
      rcases List.append_eq_append_iff.1 e2 with ⟨d, f1, f2⟩ | ⟨d, f1, f2⟩
      · by_cases hd : d = []
        · subst hd
          exact hhdr [] (by simpa using f1.symm) (by simpa using f2)
        · have h1 := he.nameLen
          rcases readMsg_prefix LayerProto.decode
            (layerFields_ok (p := layerProto env l) (Nat.mod_lt _ (by norm_num))
              (by change env.typeName.length < 2 ^ 32; omega)) (by simp [LayerProto.fields])
            (by
              have := layerFields_length (layerProto env l)
              have h2 : (layerProto env l).type.length = env.typeName.length := rfl
              omega) f1.symm hd with hn | ⟨j, m, eof, hj, hm, hr⟩
          · rw [hn]; simp
          · rw [hr]
            simp only
            have hty := layer_decode_take hj hm
            intro hcon
            obtain ⟨v, hv, hcon⟩ := Outcome.bind_eq_ok.1 hcon
            cases v with
            | reject => simp at hcon
            | mismatch =>
              simp only at hcon
              split at hcon
              · simp at hcon
              · cases bs with
                | nil =>
                  simp only [List.length_nil, skipBlocks, loadLoop_nil] at hcon
                  split at hcon <;> simp at hcon
                | cons e' bs' =>
                  have : skipBlocks (e' :: bs').length [] eof = none := rfl
                  rw [this] at hcon
                  simp at hcon
            | load l0 =>
              have := (hj1 _ _ hv).1
              rw [hty] at this
              exact he.name this.symm
      · exact hhdr d f1 f2.symm
    rcases List.append_eq_append_iff.1 hp with ⟨c, e1, e2⟩ | ⟨c, e1, e2⟩
    · by_cases hcn : c = []
      · subst hcn
        exact hcount [] (by simpa using e1.symm) (by simpa using e2)
      · rw [loadLoop, readCount, readVarint32_prefix e1.symm hcn]
        simp
    · exact hcount c e1 e2.symm

theorem judgeNew_load {env : Env V} (h : LayerProto) (l0 : FLayer V)
    (hj : judgeNew env h = .ok (.load l0)) : h.type = env.typeName ∧ h.vps = l0.vps := by
  unfold judgeNew at hj
  split at hj
  · simp at hj
  · split at hj
    · rename_i ht
      obtain ⟨l1, hl1, hj⟩ := Outcome.bind_eq_ok.1 hj
      simp only [Outcome.pure_eq, Outcome.ok.injEq, Verdict.load.injEq] at hj
      subst hj
      unfold layerFromProto at hl1
      obtain ⟨_, -, hl1⟩ := Outcome.bind_eq_ok.1 hl1
      obtain ⟨_, -, hl1⟩ := Outcome.bind_eq_ok.1 hl1
      obtain ⟨_, -, hl1⟩ := Outcome.bind_eq_ok.1 hl1
      obtain ⟨_, -, hl1⟩ := Outcome.bind_eq_ok.1 hl1
      simp only [Outcome.pure_eq, Outcome.ok.injEq] at hl1
      subst hl1
      exact ⟨ht.symm, rfl⟩
    · simp at hj

theorem judgeInto_load {env : Env V} (cur : FLayer V) (h : LayerProto) (l0 : FLayer V)
    (hj : judgeInto env cur h = .ok (.load l0)) : h.type = env.typeName ∧ h.vps = l0.vps := by
  unfold judgeInto isCompatibleLayer at hj
  split at hj
  · rename_i hc
    simp only [Bool.and_eq_true, decide_eq_true_eq] at hc
    simp only [Outcome.ok.injEq, Verdict.load.injEq] at hj
    subst hj
    exact ⟨hc.2.symm, hc.1.2⟩
  · simp at hj

/-! ### Several layers in one file -/

theorem skipBlocks_ok {env : Env V} {P : V → Prop} (he : EnvOk env P) {l : FLayer V}
    (hl : Storable env P l) : ∀ (bs : List (Idx × Block Word V)) (rest : List Byte) (e0 : Bool),
    (∀ e ∈ bs, StorableBlock env P l e.1 e.2) → chunk - 1 ≤ rest.length → e0 = false →
    skipBlocks bs.length (blockBytes env bs ++ rest) e0 = some (rest, false) := by
  intro bs
  induction bs with
  | nil => intro rest e0 _ _ h0; subst h0; rfl
  | cons e bs ih =>
    intro rest e0 hbs hr _
    obtain ⟨i, b⟩ := e
    have hb := hbs _ List.mem_cons_self
    simp only at hb
    rw [blockBytes_cons, List.append_assoc, List.length_cons, skipBlocks,
      readMsg_write BlockProto.decode (blockFields_ok _) (fields_ne_nil _) (protoOf_size he hl hb)
        (block_decode (protoOf_vps b))]
    simp only
    refine ih rest _ (fun e he' => hbs e (List.mem_cons_of_mem _ he')) hr ?_
    simp only [eofAfter, chunk, decide_eq_false_iff_not, List.length_append] at hr ⊢
    omega

/-- A section that the judge finds incompatible is skipped, if enough bytes follow. -/
theorem skip_section {V' : Type} {env' : Env V'} {P' : V' → Prop} (he' : EnvOk env' P') {l' : FLayer V'}
    (hl' : Storable env' P' l') (bs : List (Idx × Block Word V'))
    (hbs : ∀ e ∈ bs, StorableBlock env' P' l' e.1 e.2) (hcnt : bs.length + 1 < 2 ^ 32)
    (env : Env V) (cur : Option (FLayer V)) (s : Strategy)
    (judge : LayerProto → Outcome (Verdict V)) (hj : judge (layerProto env' l') = .ok .mismatch)
    (k : ℕ) (rest : List Byte) (hr : chunk - 1 ≤ rest.length) :
    loadLoop env s judge true cur (k + 1) (section_ env' l' bs ++ rest) =
      loadLoop env s judge true cur k rest := by
  have hc : readCount (section_ env' l' bs ++ rest) =
      some (1 + bs.length, writeMsg (layerProto env' l').fields ++ (blockBytes env' bs ++ rest)) := by
    unfold section_ readCount writeCount
    rw [Nat.mod_eq_of_lt (by omega), List.append_assoc, List.append_assoc, readVarint32_enc (by omega)]
  rw [loadLoop, hc]
  simp only
  rw [if_neg (by omega), header_ok he' l']
  simp only [hj, Outcome.bind_ok, Nat.add_sub_cancel_left, Bool.not_true, Bool.false_eq_true, if_false]
  rw [skipBlocks_ok he' hl' bs rest _ hbs hr]
  · simp
  · simp only [eofAfter, chunk, decide_eq_false_iff_not, List.length_append] at hr ⊢
    omega

theorem section_ne_nil (env : Env V) (l : FLayer V) (bs : List (Idx × Block Word V)) :
    0 < (section_ env l bs).length := by
  unfold section_ writeCount
  have := encVarintF_ne_nil 9 ((1 + bs.length) % 2 ^ 32)
  have : 0 < (encVarint ((1 + bs.length) % 2 ^ 32)).length := List.length_pos_iff.2 this
  rw [List.length_append, List.length_append]
  omega

end Vox.IO
