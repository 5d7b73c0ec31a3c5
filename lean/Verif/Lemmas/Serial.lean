/-
Helper lemmas on voxel serialization.
-/
import Verif.Model.Voxel
import Verif.Spec.Serial
import Mathlib.Tactic.Ring
import Mathlib.Tactic.Linarith
import Mathlib.Tactic.IntervalCases

namespace Vox.Serial
open Vox.Spec

set_option linter.unusedSimpArgs false

/-- A codec that restores every voxel satisfying `P`. -/
def LawfulOn {V : Type} (c : Codec V) (P : V → Prop) : Prop :=
  (∀ v, (c.enc v).length = c.words) ∧
  ∀ v, P v → ∀ get : ℕ → Outcome Word, (∀ j w, (c.enc v)[j]? = some w → get j = .ok w) →
    c.dec get = .ok v

theorem flatMap_enc_length {V : Type} (c : Codec V) (h : ∀ v, (c.enc v).length = c.words)
    (l : List V) : (l.flatMap c.enc).length = l.length * c.words := by
  induction l with
  | nil => simp
  | cons a l ih => simp [ih, h]; ring

theorem serialize_ok {V : Type} (c : Codec V) (h : ∀ v, (c.enc v).length = c.words) (l : List V) :
    serialize c l = .ok (l.flatMap c.enc) := by
  simp only [serialize, flatMap_enc_length c h, Outcome.check, beq_self_eq_true, if_true,
    Outcome.bind_ok, Outcome.pure_eq]

theorem flatMap_get {V : Type} (c : Codec V) (h : ∀ v, (c.enc v).length = c.words) :
    ∀ (l : List V) (i : ℕ) (hi : i < l.length) (j : ℕ), j < c.words →
      (l.flatMap c.enc)[i * c.words + j]? = (c.enc l[i])[j]? := by
  intro l
  induction l with
  | nil => intro i hi; simp at hi
  | cons a l ih =>
    intro i hi j hj
    rw [List.flatMap_cons]
    cases i with
    | zero =>
      rw [List.getElem?_append_left (by rw [h]; omega)]
      simp
    | succ i =>
      rw [List.getElem?_append_right (by rw [h, Nat.succ_mul]; omega), h]
      have : (i + 1) * c.words + j - c.words = i * c.words + j := by rw [Nat.succ_mul]; omega
      rw [this, ih i (by simpa using hi) j hj]
      simp

theorem mapM_ok {α β : Type} (f : α → Outcome β) (g : α → β) :
    ∀ l : List α, (∀ a ∈ l, f a = .ok (g a)) → l.mapM f = .ok (l.map g) := by
  intro l
  induction l with
  | nil => intro _; rfl
  | cons a l ih =>
    intro h
    rw [List.mapM_cons, h a (List.mem_cons_self ..), Outcome.bind_ok,
      ih fun b hb => h b (List.mem_cons_of_mem _ hb)]
    rfl

theorem roundtrip_of_lawful {V : Type} {c : Codec V} {P : V → Prop} (h : LawfulOn c P)
    (l : List V) (hP : ∀ v ∈ l, P v) :
    ∃ ws, serialize c l = .ok ws ∧ deserialize c l.length ws = .ok l := by
  refine ⟨_, serialize_ok c h.1 l, ?_⟩
  unfold deserialize
  rw [flatMap_enc_length c h.1]
  simp only [Outcome.check, beq_self_eq_true, if_true, Outcome.bind_ok]
  by_cases hl : l = []
  · subst hl; rfl
  · obtain ⟨d, _⟩ := List.exists_mem_of_ne_nil l hl
    rw [mapM_ok _ (fun i => (l[i]?).getD d)]
    · congr 1
      apply List.ext_getElem
      · simp
      · intro i h1 h2
        simp [List.getElem?_eq_getElem h2]
    · intro i hi
      have hi : i < l.length := List.mem_range.1 hi
      rw [List.getElem?_eq_getElem hi, Option.getD_some]
      refine h.2 _ (hP _ (List.getElem_mem hi)) _ ?_
      intro j w hw
      have hj : j < c.words := by
        rw [← h.1 l[i]]
        by_contra hc
        rw [List.getElem?_eq_none (not_lt.1 hc)] at hw
        cases hw
      unfold readWord
      rw [flatMap_get c h.1 l i hi j hj, hw]

/-- Decoding is total if every word index below `words` can be read. -/
def TotalDec {V : Type} (c : Codec V) : Prop :=
  ∀ get : ℕ → Outcome Word, (∀ j < c.words, ∃ w, get j = .ok w) → ∃ v, c.dec get = .ok v

theorem mapM_exists {α β : Type} (f : α → Outcome β) :
    ∀ l : List α, (∀ a ∈ l, ∃ b, f a = .ok b) → ∃ r, l.mapM f = .ok r ∧ r.length = l.length := by
  intro l
  induction l with
  | nil => intro _; exact ⟨[], rfl, rfl⟩
  | cons a l ih =>
    intro h
    obtain ⟨b, hb⟩ := h a (List.mem_cons_self ..)
    obtain ⟨r, hr, hrl⟩ := ih fun x hx => h x (List.mem_cons_of_mem _ hx)
    refine ⟨b :: r, ?_, by simp [hrl]⟩
    rw [List.mapM_cons, hb, Outcome.bind_ok, hr]
    rfl

theorem deserialize_total {V : Type} {c : Codec V} (h : TotalDec c) (n : ℕ) (data : List Word)
    (hl : data.length = n * c.words) : ∃ r, deserialize c n data = .ok r ∧ r.length = n := by
  unfold deserialize
  simp only [hl, Outcome.check, beq_self_eq_true, if_true, Outcome.bind_ok]
  obtain ⟨r, hr, hrl⟩ := mapM_exists (fun i => c.dec fun j => readWord data (i * c.words + j))
    (List.range n) (by
      intro i hi
      have hi := List.mem_range.1 hi
      apply h
      intro j hj
      have hlt : i * c.words + j < data.length := by
        rw [hl]
        calc i * c.words + j < i * c.words + c.words := by omega
          _ = (i + 1) * c.words := by ring
          _ ≤ n * c.words := Nat.mul_le_mul_right _ hi
      exact ⟨data[i * c.words + j], by simp [readWord, List.getElem?_eq_getElem hlt]⟩)
  exact ⟨r, hr, by simpa using hrl⟩

/-! ### Bit-level facts -/

theorem color_bytes (r g b a : BitVec 8) :
    let w : Word := a.setWidth 32 ||| (b.setWidth 32 <<< 8) ||| (g.setWidth 32 <<< 16) |||
      (r.setWidth 32 <<< 24)
    toU8 (w >>> 24) = r ∧ toU8 ((w &&& 0x00FF0000#32) >>> 16) = g ∧
    toU8 ((w &&& 0x0000FF00#32) >>> 8) = b ∧ toU8 (w &&& 0x000000FF#32) = a := by
  refine ⟨?_, ?_, ?_, ?_⟩ <;> unfold toU8 <;> apply BitVec.eq_of_getLsbD_eq <;> intro i hi <;>
    interval_cases i <;> simp

/-- The sign of a byte as a mask. -/
def signMask (b : BitVec 8) : BitVec 8 := if b.msb then 255#8 else 0#8

theorem signMask_bit (b : BitVec 8) (i : ℕ) (hi : i < 8) : (signMask b).getLsbD i = b.msb := by
  unfold signMask
  cases b.msb <;> interval_cases i <;> rfl

theorem direction_bytes (x y z f : BitVec 8) :
    let w : Word := (((0#32 ||| (x.signExtend 32 <<< 24)) ||| (y.signExtend 32 <<< 16)) |||
      (z.signExtend 32 <<< 8)) ||| (f.setWidth 32 &&& 0x000000FF#32)
    toU8 ((w >>> 24) &&& 0x000000FF#32) = x ||| signMask y ||| signMask z ∧
    toU8 ((w >>> 16) &&& 0x000000FF#32) = y ||| signMask z ∧
    toU8 ((w >>> 8) &&& 0x000000FF#32) = z ∧ toU8 (w &&& 0x000000FF#32) = f := by
  refine ⟨?_, ?_, ?_, ?_⟩ <;> unfold toU8 <;> apply BitVec.eq_of_getLsbD_eq <;> intro i hi
  · rw [BitVec.getLsbD_or, BitVec.getLsbD_or, signMask_bit _ _ hi, signMask_bit _ _ hi]
    interval_cases i <;> simp [BitVec.getElem_signExtend]
  · rw [BitVec.getLsbD_or, signMask_bit _ _ hi]
    interval_cases i <;> simp [BitVec.getElem_signExtend]
  · interval_cases i <;> simp [BitVec.getElem_signExtend]
  · interval_cases i <;> simp [BitVec.getElem_signExtend]

theorem and_bit (w : Word) (k : ℕ) (m : Word) (hm : m = BitVec.twoPow 32 k) (hk : m ≠ 0#32) :
    (w &&& m != 0#32) = w.getLsbD k := by
  rw [hm, BitVec.and_twoPow]
  cases w.getLsbD k with
  | true => simpa [hm] using hk
  | false => simp

theorem flags_eq (v : EsdfVoxel Word) (w : Word) (h : toU8 (w &&& 0x000000FF#32) = flagByte v) :
    (w &&& 1#32 != 0#32) = v.observed ∧ (w &&& 2#32 != 0#32) = v.hallucinated ∧
    (w &&& 4#32 != 0#32) = v.inQueue ∧ (w &&& 8#32 != 0#32) = v.fixed := by
  have hb : ∀ i < 8, w.getLsbD i = (flagByte v).getLsbD i := by
    intro i hi
    rw [← h]
    unfold toU8
    interval_cases i <;> simp
  rw [and_bit w 0 _ (by decide) (by decide), and_bit w 1 _ (by decide) (by decide),
    and_bit w 2 _ (by decide) (by decide), and_bit w 3 _ (by decide) (by decide),
    hb 0 (by decide), hb 1 (by decide), hb 2 (by decide), hb 3 (by decide)]
  unfold flagByte
  cases v.observed <;> cases v.hallucinated <;> cases v.inQueue <;> cases v.fixed <;> decide

theorem clampI8_toInt {c : ℤ} (h : -128 ≤ c ∧ c ≤ 127) : (clampI8 c).toInt = c := by
  unfold clampI8
  rw [max_eq_left h.1, min_eq_right h.2, BitVec.toInt_ofInt]
  simp only [Int.bmod_def]
  split <;> omega

theorem clampI8_msb {c : ℤ} (h : -128 ≤ c ∧ c ≤ 127) : (clampI8 c).msb = decide (c < 0) := by
  rw [BitVec.msb_eq_toInt, clampI8_toInt h]

/-! ### The four codecs -/

theorem tsdf_lawful : LawfulOn tsdfCodec fun _ => True := by
  refine ⟨fun v => rfl, ?_⟩
  intro v _ get hget
  have h0 := hget 0 _ rfl
  have h1 := hget 1 _ rfl
  have h2 := hget 2 _ rfl
  simp only [tsdfCodec, h0, h1, h2, Outcome.bind_ok, Outcome.pure_eq]
  obtain ⟨hr, hg, hb, ha⟩ := color_bytes v.color.r v.color.g v.color.b v.color.a
  rw [hr, hg, hb, ha]

theorem or_signMask (b c : BitVec 8) : b ||| signMask c = if c.msb then 255#8 else b := by
  unfold signMask
  cases c.msb with
  | true =>
    have : (255#8 : BitVec 8) = BitVec.allOnes 8 := by decide
    simp only [if_true]
    rw [this, BitVec.or_allOnes]
  | false => simp

theorem deser_ser (p : Idx) (f : BitVec 8) (hp : InI8 p) :
    deserializeDirection (serializeDirection p ||| (f.setWidth 32 &&& 0x000000FF#32)) =
      ⟨if p.y < 0 ∨ p.z < 0 then -1 else p.x, if p.z < 0 then -1 else p.y, p.z⟩ := by
  obtain ⟨hx, hy, hz⟩ := hp
  obtain ⟨h1, h2, h3, _⟩ := direction_bytes (clampI8 p.x) (clampI8 p.y) (clampI8 p.z) f
  unfold deserializeDirection serializeDirection
  rw [h1, h2, h3, or_signMask, or_signMask, or_signMask, clampI8_msb hy, clampI8_msb hz,
    clampI8_toInt hz]
  have m1 : (255#8 : BitVec 8).toInt = -1 := by decide
  ext
  · by_cases a : p.y < 0 <;> by_cases b : p.z < 0 <;> simp [a, b, m1, clampI8_toInt hx]
  · by_cases b : p.z < 0 <;> simp [b, m1, clampI8_toInt hy]
  · rfl

theorem esdf_lawful : LawfulOn esdfCodec fun v => InI8 v.parent ∧ ParentSurvives v.parent := by
  refine ⟨fun v => rfl, ?_⟩
  rintro v ⟨h8, hs1, hs2⟩ get hget
  have h0 := hget 0 _ rfl
  have h1 := hget 1 _ rfl
  obtain ⟨_, _, _, hf⟩ := direction_bytes (clampI8 v.parent.x) (clampI8 v.parent.y)
    (clampI8 v.parent.z) (flagByte v)
  obtain ⟨f1, f2, f3, f4⟩ := flags_eq v _ hf
  have hd := deser_ser v.parent (flagByte v) h8
  simp only [esdfCodec, h0, h1, Outcome.bind_ok, Outcome.pure_eq, hd]
  unfold serializeDirection
  rw [f1, f2, f3, f4]
  congr 1
  obtain ⟨d, o, hh, iq, fx, ⟨px, py, pz⟩⟩ := v
  simp only [EsdfVoxel.mk.injEq, Vec3.mk.injEq, true_and, and_true]
  simp only at hs1 hs2
  refine ⟨?_, ?_⟩
  · split
    · rename_i h; exact (hs2 h).symm
    · rfl
  · split
    · rename_i h; exact (hs1 h).symm
    · rfl

theorem occ_lawful : LawfulOn occCodec fun _ => True := by
  refine ⟨fun v => rfl, ?_⟩
  intro v _ get hget
  have h0 := hget 0 _ rfl
  have h1 := hget 1 _ rfl
  simp only [occCodec, h0, h1, Outcome.bind_ok, Outcome.pure_eq]
  obtain ⟨p, o⟩ := v
  cases o <;> simp

theorem intensity_lawful : LawfulOn intensityCodec fun _ => True := by
  refine ⟨fun v => rfl, ?_⟩
  intro v _ get hget
  have h0 := hget 0 _ rfl
  have h1 := hget 1 _ rfl
  simp only [intensityCodec, h0, h1, Outcome.bind_ok, Outcome.pure_eq]

end Vox.Serial
