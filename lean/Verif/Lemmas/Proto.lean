/-
Helper lemmas on the wire format.
-/
import Verif.Model.Proto
import Mathlib.Tactic.Ring
import Mathlib.Tactic.Linarith
import Mathlib.Tactic.NormNum

namespace Vox.Proto

open FloatBits

/-! ### Varints -/

theorem encVarintF_ne_nil (k n : ℕ) : encVarintF (k + 1) n ≠ [] := by
  unfold encVarintF; split <;> simp

theorem readVarintF_enc : ∀ (k n j : ℕ) (rest : List Byte), n < 128 ^ (k + 1) → k + 1 ≤ j →
    readVarintF j (encVarintF (k + 1) n ++ rest) = some (n, rest) := by
  intro k
  induction k with
  | zero =>
    intro n j rest hn hj
    obtain ⟨j, rfl⟩ : ∃ i, j = i + 1 := ⟨j - 1, by omega⟩
    simp only [zero_add, pow_one] at hn
    have hv : (Fin.ofNat 256 n).val = n := by simp [Fin.ofNat]; omega
    simp only [encVarintF, if_pos hn, List.cons_append, List.nil_append, readVarintF, hv]
  | succ k ih =>
    intro n j rest hn hj
    obtain ⟨j, rfl⟩ : ∃ i, j = i + 1 := ⟨j - 1, by omega⟩
    by_cases h : n < 128
    · have hv : (Fin.ofNat 256 n).val = n := by simp [Fin.ofNat]; omega
      rw [encVarintF, if_pos h]
      simp only [List.cons_append, List.nil_append, readVarintF, hv, if_pos h]
    · have hv : (Fin.ofNat 256 (n % 128 + 128)).val = n % 128 + 128 := by simp [Fin.ofNat]; omega
      have hd : n / 128 < 128 ^ (k + 1) := by
        rw [Nat.div_lt_iff_lt_mul (by norm_num)]
        rw [pow_succ] at hn; exact hn
      rw [encVarintF, if_neg h]
      simp only [List.cons_append, readVarintF, hv, ih (n / 128) j rest hd (by omega)]
      rw [if_neg (by omega)]
      simp only [Option.some.injEq, Prod.mk.injEq, and_true]
      omega

theorem readVarintF_prefix : ∀ (k n j : ℕ) (p q : List Byte), p ++ q = encVarintF k n → q ≠ [] →
    readVarintF j p = none := by
  intro k
  induction k with
  | zero =>
    intro n j p q h hq
    simp only [encVarintF, List.append_eq_nil_iff] at h
    exact absurd h.2 hq
  | succ k ih =>
    intro n j p q h hq
    cases j with
    | zero => rfl
    | succ j =>
      cases p with
      | nil => rfl
      | cons b p =>
        rw [encVarintF] at h
        split at h
        · simp only [List.cons_append, List.cons.injEq, List.append_eq_nil_iff] at h
          exact absurd h.2.2 hq
        · rw [List.cons_append, List.cons.injEq] at h
          have hb : b.val = n % 128 + 128 := by
            rw [h.1]; simp [Fin.ofNat]; omega
          simp only [readVarintF, hb, ih (n / 128) j p q h.2 hq]
          rw [if_neg (by omega)]

theorem encVarintF_length : ∀ (k n m : ℕ), n < 128 ^ m → 0 < m → (encVarintF k n).length ≤ m := by
  intro k
  induction k with
  | zero => intro n m _ _; simp [encVarintF]
  | succ k ih =>
    intro n m hn hm
    rw [encVarintF]
    split
    · simp only [List.length_singleton]; omega
    · next h =>
      have hm1 : m ≠ 1 := by rintro rfl; simp only [pow_one] at hn; exact h hn
      obtain ⟨m, rfl⟩ : ∃ i, m = i + 1 := ⟨m - 1, by omega⟩
      rw [pow_succ] at hn
      have := ih (n / 128) m ((Nat.div_lt_iff_lt_mul (by norm_num)).2 hn) (by omega)
      simpa using this

theorem readVarint32_enc {n : ℕ} (h : n < 2 ^ 32) (rest : List Byte) :
    readVarint32 (encVarint n ++ rest) = some (n, rest) := by
  unfold readVarint32 encVarint
  rw [readVarintF_enc 9 n 10 rest (lt_trans h (by norm_num)) le_rfl]
  simp only [Option.map_some, Nat.mod_eq_of_lt h]

theorem readVarint64_enc {n : ℕ} (h : n < 2 ^ 64) (rest : List Byte) :
    readVarint64 (encVarint n ++ rest) = some (n, rest) := by
  unfold readVarint64 encVarint
  rw [readVarintF_enc 9 n 10 rest (lt_trans h (by norm_num)) le_rfl]
  simp only [Option.map_some, Nat.mod_eq_of_lt h]

theorem readVarint32_prefix {n : ℕ} {p q : List Byte} (h : p ++ q = encVarint n) (hq : q ≠ []) :
    readVarint32 p = none := by
  unfold readVarint32
  rw [readVarintF_prefix 10 n 10 p q h hq]; rfl

theorem readVarint64_prefix {n : ℕ} {p q : List Byte} (h : p ++ q = encVarint n) (hq : q ≠ []) :
    readVarint64 p = none := by
  unfold readVarint64
  rw [readVarintF_prefix 10 n 10 p q h hq]; rfl

/-! ### Fixed-width numbers -/

theorem encLE_length (k n : ℕ) : (encLE k n).length = k := by
  induction k generalizing n with
  | zero => rfl
  | succ k ih => simp [encLE, ih]

theorem readLE_enc (k n : ℕ) (rest : List Byte) : readLE k (encLE k n ++ rest) = some (n % 256 ^ k, rest) := by
  induction k generalizing n with
  | zero => simp [encLE, readLE, Nat.mod_one]
  | succ k ih =>
    have hv : (Fin.ofNat 256 (n % 256)).val = n % 256 := by simp [Fin.ofNat]
    simp only [encLE, List.cons_append, readLE, ih, hv]
    simp only [Option.some.injEq, Prod.mk.injEq, and_true]
    rw [pow_succ, mul_comm (256 ^ k) 256, Nat.mod_mul]

theorem readLE_short (k : ℕ) (p : List Byte) (h : p.length < k) : readLE k p = none := by
  induction k generalizing p with
  | zero => omega
  | succ k ih =>
    cases p with
    | nil => rfl
    | cons b p => simp only [readLE, ih p (by simpa using h)]

/-! ### Fields -/

/-- A value that fits its wire type. -/
def WireOk : Wire → Prop
  | .varint n => n < 2 ^ 64
  | .fixed64 n => n < 2 ^ 64
  | .bytes l => l.length < 2 ^ 32
  | .fixed32 n => n < 2 ^ 32

/-- A field with a valid number and value. -/
def FieldOk (f : Field) : Prop := 0 < f.1 ∧ f.1 < 2 ^ 29 ∧ WireOk f.2

theorem readPayload_enc {w : Wire} (h : WireOk w) (rest : List Byte) :
    readPayload w.tag (w.enc ++ rest) = some (w, rest) := by
  cases w with
  | varint n => simp only [readPayload, Wire.tag, Wire.enc, if_true, readVarint64_enc h, Option.map_some]
  | fixed64 n =>
    have h : n < 2 ^ 64 := h
    simp only [readPayload, Wire.tag, Wire.enc, readLE_enc, Option.map_some]
    rw [Nat.mod_eq_of_lt (lt_of_lt_of_eq h (by norm_num))]
    rfl
  | bytes l =>
    simp only [readPayload, Wire.tag, Wire.enc, List.append_assoc, readVarint32_enc h]
    simp [readBytes]
  | fixed32 n =>
    have h : n < 2 ^ 32 := h
    simp only [readPayload, Wire.tag, Wire.enc, readLE_enc, Option.map_some]
    rw [Nat.mod_eq_of_lt (lt_of_lt_of_eq h (by norm_num))]
    rfl

theorem readPayload_prefix {w : Wire} (h : WireOk w) {p q : List Byte} (hp : p ++ q = w.enc) (hq : q ≠ []) :
    readPayload w.tag p = none := by
  have hlen : p.length + q.length = w.enc.length := by rw [← hp, List.length_append]
  have hq0 : 0 < q.length := List.length_pos_iff.2 hq
  cases w with
  | varint n => simp only [readPayload, Wire.tag, if_true, readVarint64_prefix hp hq, Option.map_none]
  | fixed64 n =>
    simp only [Wire.enc, encLE_length] at hlen
    simp [readPayload, Wire.tag, readLE_short 8 p (by omega)]
  | bytes l =>
    simp only [Wire.enc] at hp
    simp only [readPayload, Wire.tag]
    rcases List.append_eq_append_iff.1 hp with ⟨c, h1, h2⟩ | ⟨c, h1, h2⟩
    · by_cases hc : c = []
      · subst hc
        rw [List.append_nil] at h1
        have := readVarint32_enc h []
        rw [List.append_nil, h1] at this
        simp only [List.nil_append] at h2
        have hl0 : ¬ l.length ≤ 0 := by rw [← h2]; omega
        simp only [this, readBytes, List.length_nil, if_neg hl0]
        rfl
      · simp [readVarint32_prefix h1.symm hc]
    · subst h1
      have hcl : c.length + q.length = l.length := by rw [h2, List.length_append]
      simp [readVarint32_enc h c, readBytes]
      omega
  | fixed32 n =>
    simp only [Wire.enc, encLE_length] at hlen
    simp [readPayload, Wire.tag, readLE_short 4 p (by omega)]

theorem tag_lt (w : Wire) : w.tag < 8 := by cases w <;> simp [Wire.tag]

theorem readField_enc {f : Field} (h : FieldOk f) (rest : List Byte) :
    readField (encField f ++ rest) = some (f, rest) := by
  obtain ⟨h0, h1, hw⟩ := h
  have ht := tag_lt f.2
  unfold readField encField
  rw [List.append_assoc, readVarint32_enc (by omega)]
  simp only
  rw [show (f.1 * 8 + f.2.tag) / 8 = f.1 by omega, show (f.1 * 8 + f.2.tag) % 8 = f.2.tag by omega,
    if_neg (by omega), readPayload_enc hw]
  rfl

theorem readField_prefix {f : Field} (h : FieldOk f) {p q : List Byte} (hp : p ++ q = encField f)
    (hq : q ≠ []) : readField p = none := by
  obtain ⟨h0, h1, hw⟩ := h
  have ht := tag_lt f.2
  unfold encField at hp
  unfold readField
  rcases List.append_eq_append_iff.1 hp with ⟨c, e1, e2⟩ | ⟨c, e1, e2⟩
  · by_cases hc : c = []
    · subst hc
      rw [List.append_nil] at e1
      have := readVarint32_enc (n := f.1 * 8 + f.2.tag) (by omega) []
      rw [List.append_nil, e1] at this
      rw [List.nil_append] at e2
      simp only [this]
      rw [show (f.1 * 8 + f.2.tag) / 8 = f.1 by omega, show (f.1 * 8 + f.2.tag) % 8 = f.2.tag by omega,
        if_neg (by omega), readPayload_prefix hw (p := []) (q := q) (by simpa using e2) hq]
      rfl
    · rw [readVarint32_prefix e1.symm hc]
  · subst e1
    rw [readVarint32_enc (by omega)]
    simp only
    rw [show (f.1 * 8 + f.2.tag) / 8 = f.1 by omega, show (f.1 * 8 + f.2.tag) % 8 = f.2.tag by omega,
      if_neg (by omega), readPayload_prefix hw e2.symm hq]
    rfl

theorem encField_ne_nil (f : Field) : encField f ≠ [] := by
  unfold encField encVarint
  simp [encVarintF_ne_nil]

theorem parseFieldsF_enc : ∀ (fs : List Field) (k : ℕ), (∀ f ∈ fs, FieldOk f) →
    (encFields fs).length ≤ k → parseFieldsF k (encFields fs) = some fs := by
  intro fs
  induction fs with
  | nil => intro k _ _; cases k <;> rfl
  | cons f fs ih =>
    intro k hok hk
    have hcons : encFields (f :: fs) = encField f ++ encFields fs := rfl
    have hne : 0 < (encField f).length := List.length_pos_iff.2 (encField_ne_nil f)
    rw [hcons] at hk ⊢
    rw [List.length_append] at hk
    obtain ⟨k, rfl⟩ : ∃ i, k = i + 1 := ⟨k - 1, by omega⟩
    have hread := readField_enc (hok f List.mem_cons_self) (encFields fs)
    cases hl : encField f ++ encFields fs with
    | nil => exact absurd (List.append_eq_nil_iff.1 hl).1 (encField_ne_nil f)
    | cons b bs =>
      rw [hl] at hread
      simp only [parseFieldsF, hread]
      rw [ih k (fun g hg => hok g (List.mem_cons_of_mem _ hg)) (by omega)]
      rfl

theorem parseFields_enc {fs : List Field} (h : ∀ f ∈ fs, FieldOk f) :
    parseFields (encFields fs) = some fs := parseFieldsF_enc fs _ h le_rfl

theorem parseFieldsF_prefix : ∀ (fs : List Field) (k : ℕ) (p q : List Byte), (∀ f ∈ fs, FieldOk f) →
    p ++ q = encFields fs → q ≠ [] → p.length ≤ k →
    parseFieldsF k p = none ∨ ∃ j < fs.length, parseFieldsF k p = some (fs.take j) := by
  intro fs
  induction fs with
  | nil =>
    intro k p q _ h hq _
    exact absurd (List.append_eq_nil_iff.1 h).2 hq
  | cons f fs ih =>
    intro k p q hok h hq hk
    have hcons : encFields (f :: fs) = encField f ++ encFields fs := rfl
    rw [hcons] at h
    cases p with
    | nil => right; exact ⟨0, by simp, by cases k <;> rfl⟩
    | cons b p =>
      obtain ⟨k, rfl⟩ : ∃ i, k = i + 1 := ⟨k - 1, by simp at hk; omega⟩
      have hf := hok f List.mem_cons_self
      rcases List.append_eq_append_iff.1 h with ⟨c, e1, e2⟩ | ⟨c, e1, e2⟩
      · by_cases hc : c = []
        · subst hc
          rw [List.append_nil] at e1
          have hr := readField_enc hf []
          rw [List.append_nil, e1] at hr
          right
          rw [List.nil_append] at e2
          have hfs : 0 < fs.length := by
            cases fs with
            | nil => exact absurd e2 hq
            | cons => simp
          refine ⟨1, by simpa using hfs, ?_⟩
          simp only [parseFieldsF, hr]
          cases k <;> rfl
        · left
          simp only [parseFieldsF, readField_prefix hf e1.symm hc]
      · have hr := readField_enc hf c
        rw [← e1] at hr
        have hne : 0 < (encField f).length := List.length_pos_iff.2 (encField_ne_nil f)
        have hlen : (b :: p).length = (encField f).length + c.length := by rw [e1, List.length_append]
        rcases ih k c q (fun g hg => hok g (List.mem_cons_of_mem _ hg)) e2.symm hq (by omega) with h' | ⟨j, hj, h'⟩
        · left; simp only [parseFieldsF, hr, h']; rfl
        · right
          exact ⟨j + 1, by simpa using hj, by simp only [parseFieldsF, hr, h']; rfl⟩

theorem parseFields_prefix {fs : List Field} {p q : List Byte} (h : ∀ f ∈ fs, FieldOk f)
    (hp : p ++ q = encFields fs) (hq : q ≠ []) :
    parseFields p = none ∨ ∃ j < fs.length, parseFields p = some (fs.take j) :=
  parseFieldsF_prefix fs _ p q h hp hq le_rfl

/-! ### Messages -/

theorem readMsg_write {M : Type} (decode : List Field → Option M) {fs : List Field} {m : M}
    (hok : ∀ f ∈ fs, FieldOk f) (hne : fs ≠ []) (hsz : (encFields fs).length < 2 ^ 31)
    (hd : decode fs = some m) (rest : List Byte) :
    readMsg decode (writeMsg fs ++ rest) =
      some (m, rest, eofAfter ((writeMsg fs).length + rest.length) (writeMsg fs).length) := by
  have hpos : 0 < (encFields fs).length := by
    cases fs with
    | nil => exact absurd rfl hne
    | cons f fs =>
      have : 0 < (encField f).length := List.length_pos_iff.2 (encField_ne_nil f)
      simp only [encFields, List.flatMap_cons, List.length_append]; omega
  unfold readMsg writeMsg
  rw [Nat.mod_eq_of_lt (by omega), List.append_assoc, readVarint32_enc (by omega)]
  simp only
  rw [if_neg (by omega), if_pos hsz, List.take_left, parseFields_enc hok]
  simp only [Option.bind_some, hd, List.drop_left, List.length_append]
  congr 4 <;> omega

theorem readMsg_prefix {M : Type} (decode : List Field → Option M) {fs : List Field}
    (hok : ∀ f ∈ fs, FieldOk f) (hne : fs ≠ []) (hsz : (encFields fs).length < 2 ^ 31)
    {p q : List Byte} (hp : p ++ q = writeMsg fs) (hq : q ≠ []) :
    readMsg decode p = none ∨
      ∃ j m eof, j < fs.length ∧ decode (fs.take j) = some m ∧ readMsg decode p = some (m, [], eof) := by
  have hpos : 0 < (encFields fs).length := by
    cases fs with
    | nil => exact absurd rfl hne
    | cons f fs =>
      have : 0 < (encField f).length := List.length_pos_iff.2 (encField_ne_nil f)
      simp only [encFields, List.flatMap_cons, List.length_append]; omega
  unfold writeMsg at hp
  rw [Nat.mod_eq_of_lt (by omega)] at hp
  -- the case in which the size prefix is complete
  have key : ∀ c : List Byte, p = encVarint (encFields fs).length ++ c → encFields fs = c ++ q →
      readMsg decode p = none ∨
      ∃ j m eof, j < fs.length ∧ decode (fs.take j) = some m ∧ readMsg decode p = some (m, [], eof) := by
    intro c e1 e2
    have hcl : c.length ≤ (encFields fs).length := by rw [e2, List.length_append]; omega
    unfold readMsg
    rw [e1, readVarint32_enc (by omega)]
    simp only
    rw [if_neg (by omega), if_pos hsz, List.take_of_length_le hcl]
    rcases parseFields_prefix hok e2.symm hq with h' | ⟨j, hj, h'⟩
    · left; rw [h']; rfl
    · rw [h', Option.bind_some]
      cases hd : decode (fs.take j) with
      | none => left; rfl
      | some m => right; exact ⟨j, m, _, hj, hd, by simp only [List.drop_length]; rfl⟩
  rcases List.append_eq_append_iff.1 hp with ⟨c, e1, e2⟩ | ⟨c, e1, e2⟩
  · by_cases hc : c = []
    · subst hc
      rw [List.append_nil] at e1
      exact key [] (by rw [List.append_nil, e1]) (by rw [e2]; rfl)
    · left
      unfold readMsg
      rw [readVarint32_prefix e1.symm hc]
  · exact key c e1 e2

/-! ### Block and layer messages -/

/-- A block message with in-range fields. -/
structure BlockProtoOk (p : BlockProto) : Prop where
  vps : IsI32 p.vps

theorem blockFields_ok (p : BlockProto) : ∀ f ∈ p.fields, FieldOk f := by
  intro f hf
  simp only [BlockProto.fields, List.mem_append, List.mem_cons, List.not_mem_nil, or_false,
    List.mem_map] at hf
  rcases hf with (rfl | rfl | rfl | rfl | rfl | rfl) | ⟨w, -, rfl⟩
  · refine ⟨by norm_num, by norm_num, ?_⟩
    change (p.vps % 2 ^ 64).toNat < 2 ^ 64
    omega
  · exact ⟨by norm_num, by norm_num, p.voxelSize.isLt⟩
  · exact ⟨by norm_num, by norm_num, p.originX.isLt⟩
  · exact ⟨by norm_num, by norm_num, p.originY.isLt⟩
  · exact ⟨by norm_num, by norm_num, p.originZ.isLt⟩
  · refine ⟨by norm_num, by norm_num, ?_⟩
    change (if p.hasData then 1 else 0) < 2 ^ 64
    split <;> norm_num
  · exact ⟨by norm_num, by norm_num, lt_trans w.isLt (by norm_num)⟩

theorem foldlM_data (ws : List Word) (p : BlockProto) :
    (ws.map fun w => ((7, .varint w.toNat) : Field)).foldlM BlockProto.apply p =
      some { p with voxelData := p.voxelData ++ ws } := by
  induction ws generalizing p with
  | nil => simp
  | cons w ws ih =>
    rw [List.map_cons, List.foldlM_cons]
    simp only [BlockProto.apply, Option.bind_eq_bind, Option.bind_some, BitVec.ofNat_toNat,
      BitVec.setWidth_eq]
    rw [ih]
    simp

theorem block_decode {p : BlockProto} (h : IsI32 p.vps) : BlockProto.decode p.fields = some p := by
  unfold BlockProto.decode BlockProto.fields
  rw [List.foldlM_append]
  have hv : wrap32 ((p.vps % 2 ^ 64).toNat : ℤ) = p.vps := by
    unfold IsI32 at h
    unfold wrap32
    omega
  simp only [List.foldlM_cons, List.foldlM_nil, BlockProto.apply, Option.bind_eq_bind, Option.bind_some,
    Option.pure_def, BlockProto.empty, BitVec.ofNat_toNat, BitVec.setWidth_eq, hv]
  rw [foldlM_data]
  simp only [List.nil_append]
  obtain ⟨a1, a2, a3, a4, a5, a6, a7⟩ := p
  cases a6 <;> rfl

/-- A decoded prefix of the fields of a block message misses voxel data. -/
theorem block_decode_take {p : BlockProto} {j : ℕ} (hj : j < p.fields.length) {m : BlockProto}
    (h : BlockProto.decode (p.fields.take j) = some m) (hn : p.voxelData ≠ []) :
    m.voxelData.length < p.voxelData.length := by
  have hpos : 0 < p.voxelData.length := List.length_pos_iff.2 hn
  have hlen : p.fields.length = 6 + p.voxelData.length := by simp [BlockProto.fields]; omega
  -- decoding never yields more data words than fields numbered 7
  by_cases h6 : j ≤ 6
  · have : m.voxelData = [] := by
      have hsub : p.fields.take j = ([(1, .varint (p.vps % 2 ^ 64).toNat), (2, .fixed64 p.voxelSize.toNat),
        (3, .fixed64 p.originX.toNat), (4, .fixed64 p.originY.toNat), (5, .fixed64 p.originZ.toNat),
        (6, .varint (if p.hasData then 1 else 0))] : List Field).take j := by
        simp only [BlockProto.fields]
        rw [List.take_append_of_le_length (by simpa using h6)]
      rw [hsub] at h
      unfold BlockProto.decode at h
      have hj' : j = 0 ∨ j = 1 ∨ j = 2 ∨ j = 3 ∨ j = 4 ∨ j = 5 ∨ j = 6 := by omega
      rcases hj' with rfl | rfl | rfl | rfl | rfl | rfl | rfl <;>
        simp [BlockProto.apply, BlockProto.empty] at h <;> rw [← h]
    rw [this]; exact hpos
  · obtain ⟨i, rfl⟩ : ∃ i, j = 6 + i := ⟨j - 6, by omega⟩
    have hi : i < p.voxelData.length := by omega
    have hsub : p.fields.take (6 + i) = ([(1, .varint (p.vps % 2 ^ 64).toNat), (2, .fixed64 p.voxelSize.toNat),
        (3, .fixed64 p.originX.toNat), (4, .fixed64 p.originY.toNat), (5, .fixed64 p.originZ.toNat),
        (6, .varint (if p.hasData then 1 else 0))] : List Field) ++
        (p.voxelData.take i).map fun w => ((7, .varint w.toNat) : Field) := by
      simp only [BlockProto.fields]
      rw [List.take_append, List.take_of_length_le (by simp), List.map_take]
      congr 1
      simp
    rw [hsub] at h
    unfold BlockProto.decode at h
    rw [List.foldlM_append] at h
    simp only [List.foldlM_cons, List.foldlM_nil, BlockProto.apply, Option.bind_eq_bind, Option.bind_some,
      Option.pure_def, BlockProto.empty] at h
    rw [foldlM_data] at h
    simp only [Option.some.injEq, List.nil_append] at h
    rw [← h]
    simp only [List.length_take]
    omega

theorem layerFields_ok {p : LayerProto} (hv : p.vps < 2 ^ 32) (ht : p.type.length < 2 ^ 32) :
    ∀ f ∈ p.fields, FieldOk f := by
  intro f hf
  simp only [LayerProto.fields, List.mem_cons, List.not_mem_nil, or_false] at hf
  rcases hf with rfl | rfl | rfl
  · exact ⟨by norm_num, by norm_num, p.voxelSize.isLt⟩
  · exact ⟨by norm_num, by norm_num, lt_trans hv (by norm_num)⟩
  · exact ⟨by norm_num, by norm_num, ht⟩

theorem layer_decode {p : LayerProto} (hv : p.vps < 2 ^ 32) : LayerProto.decode p.fields = some p := by
  unfold LayerProto.decode LayerProto.fields
  obtain ⟨a1, a2, a3⟩ := p
  have hv : a2 < 4294967296 := hv
  simp [LayerProto.apply, LayerProto.empty, Nat.mod_eq_of_lt hv]

/-- A decoded prefix of the fields of a layer header has no type name. -/
theorem layer_decode_take {p : LayerProto} {j : ℕ} (hj : j < p.fields.length) {m : LayerProto}
    (h : LayerProto.decode (p.fields.take j) = some m) : m.type = [] := by
  have hlen : p.fields.length = 3 := rfl
  unfold LayerProto.decode LayerProto.fields at h
  have hj' : j = 0 ∨ j = 1 ∨ j = 2 := by omega
  rcases hj' with rfl | rfl | rfl <;> simp [LayerProto.apply, LayerProto.empty] at h <;> rw [← h]

end Vox.Proto
