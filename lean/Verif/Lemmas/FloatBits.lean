import Verif.Model.FloatBits
import Mathlib.Data.Nat.Log
import Mathlib.Data.Nat.Bitwise
import Mathlib.Tactic.Ring
import Mathlib.Tactic.FieldSimp
import Mathlib.Tactic.NormNum

namespace Vox.FloatBits

theorem roundShift_exact (q d : ℕ) : roundShift (q * 2 ^ d) d = q := by
  have h : 0 < 2 ^ d := Nat.two_pow_pos d
  unfold roundShift
  rw [Nat.mul_mod_left, Nat.mul_div_cancel _ h, if_neg]
  omega

theorem fields32_lt (w : Word) : (fields32 w).1 < 2 ∧ (fields32 w).2.1 < 256 ∧
    (fields32 w).2.2 < 2 ^ 23 := by
  have := w.isLt
  unfold fields32
  simp only
  omega

theorem ofFields32 (w : Word) :
    w = .ofNat 32 ((fields32 w).1 * 2 ^ 31 + (fields32 w).2.1 * 2 ^ 23 + (fields32 w).2.2) := by
  apply BitVec.eq_of_toNat_eq
  have := w.isLt
  simp only [BitVec.toNat_ofNat, fields32]
  omega

theorem fields64_mk {s e m : ℕ} (hs : s < 2) (he : e < 2048) (hm : m < 2 ^ 52) :
    fields64 (.ofNat 64 (s * 2 ^ 63 + e * 2 ^ 52 + m)) = (s, e, m) := by
  unfold fields64
  simp only [BitVec.toNat_ofNat]
  refine Prod.ext ?_ (Prod.ext ?_ ?_) <;> simp only <;> omega

theorem sub_shift_lt {m k : ℕ} (hk : k ≤ 22) (h2 : m < 2 ^ (k + 1)) :
    (m - 2 ^ k) * 2 ^ (52 - k) < 2 ^ 52 := by
  have h1 : m - 2 ^ k < 2 ^ k := by rw [pow_succ] at h2; omega
  calc (m - 2 ^ k) * 2 ^ (52 - k) < 2 ^ k * 2 ^ (52 - k) :=
        Nat.mul_lt_mul_of_pos_right h1 (Nat.two_pow_pos _)
    _ = 2 ^ 52 := by rw [← pow_add]; congr 1; omega

theorem log2_bounds {m : ℕ} (h0 : m ≠ 0) (hm : m < 2 ^ 23) :
    Nat.log2 m ≤ 22 ∧ 2 ^ Nat.log2 m ≤ m ∧ m < 2 ^ (Nat.log2 m + 1) := by
  refine ⟨?_, Nat.log2_self_le h0, Nat.lt_log2_self⟩
  have := (Nat.log2_lt h0).2 hm
  omega

theorem sub_shift_eq {m k : ℕ} (hk : k ≤ 22) (h1 : 2 ^ k ≤ m) :
    2 ^ 52 + (m - 2 ^ k) * 2 ^ (52 - k) = m * 2 ^ (52 - k) := by
  have : 2 ^ 52 = 2 ^ k * 2 ^ (52 - k) := by rw [← pow_add]; congr 1; omega
  rw [this, ← Nat.add_mul]; congr 1; omega

/-- Storing a `float` in a `double` and converting back gives the same bits. -/
theorem narrow_widen {w : Word} (h : ¬ IsNaN32 w) : narrow (widen w) = w := by
  obtain ⟨hs, he, hm⟩ := fields32_lt w
  have hw := ofFields32 w
  unfold IsNaN32 at h
  unfold widen
  generalize (fields32 w).1 = s at *
  generalize (fields32 w).2.1 = e at *
  generalize (fields32 w).2.2 = m at *
  by_cases h255 : e = 255
  · have hm0 : m = 0 := by tauto
    subst h255 hm0
    simp only [if_true, narrow, fields64_mk hs (by norm_num : 2047 < 2048) (by norm_num : 0 < 2 ^ 52)]
    exact hw.symm
  by_cases h0 : e = 0
  · subst h0
    by_cases hm0 : m = 0
    · subst hm0
      simp only [if_true, if_neg h255]
      have := fields64_mk hs (by norm_num : 0 < 2048) (by norm_num : 0 < 2 ^ 52)
      simp only [Nat.zero_mul, Nat.add_zero] at this
      simp only [narrow, this]
      simpa using hw.symm
    · obtain ⟨hk, hk1, hk2⟩ := log2_bounds hm0 hm
      have := fields64_mk hs (by omega : Nat.log2 m + 874 < 2048) (sub_shift_lt hk hk2)
      simp only [if_true, if_neg h255, if_neg hm0, narrow, this]
      rw [if_neg (by omega), if_neg (by omega), if_neg (by omega), if_neg (by omega),
        sub_shift_eq hk hk1, show 926 - (Nat.log2 m + 874) = 52 - Nat.log2 m by omega,
        roundShift_exact]
      simpa using hw.symm
  · have := fields64_mk hs (by omega : e + 896 < 2048) (by omega : m * 2 ^ 29 < 2 ^ 52)
    simp only [if_neg h255, if_neg h0, narrow, this]
    rw [if_neg (by omega), if_neg (by omega), if_pos (by omega),
      show 2 ^ 52 + m * 2 ^ 29 = (2 ^ 23 + m) * 2 ^ 29 by ring, roundShift_exact]
    refine Eq.trans (congrArg (BitVec.ofNat 32) ?_) hw.symm
    omega

theorem two_pow_split {n a b c : ℕ} (h : n = a + b + c) : (2 : ℚ) ^ n = 2 ^ a * 2 ^ b * 2 ^ c := by
  subst h; rw [pow_add, pow_add]

/-- The conversion to `double` preserves the value. -/
theorem fl64_widen (w : Word) : fl64 (widen w) = fl32 w := by
  obtain ⟨hs, he, hm⟩ := fields32_lt w
  unfold widen fl32
  generalize (fields32 w).1 = s at *
  generalize (fields32 w).2.1 = e at *
  generalize (fields32 w).2.2 = m at *
  by_cases h255 : e = 255
  · subst h255
    by_cases hm0 : m = 0
    · subst hm0
      simp only [if_true, fl64,
        fields64_mk hs (by norm_num : 2047 < 2048) (by norm_num : 0 < 2 ^ 52)]
    · have hor : m ||| 2 ^ 22 < 2 ^ 23 := Nat.or_lt_two_pow hm (by norm_num)
      have hor0 : m ||| 2 ^ 22 ≠ 0 := by
        intro h
        have : 2 ^ 22 ≤ m ||| 2 ^ 22 := Nat.right_le_or
        omega
      simp only [if_true, if_neg hm0, fl64, fields64_mk hs (by norm_num : 2047 < 2048)
        (by omega : (m ||| 2 ^ 22) * 2 ^ 29 < 2 ^ 52)]
      rw [if_neg]
      omega
  by_cases h0 : e = 0
  · subst h0
    by_cases hm0 : m = 0
    · subst hm0
      have := fields64_mk hs (by norm_num : 0 < 2048) (by norm_num : 0 < 2 ^ 52)
      simp only [Nat.zero_mul, Nat.add_zero] at this
      simp only [if_true, if_neg h255, fl64, this]
      rw [if_neg (by omega)]
      simp
    · obtain ⟨hk, hk1, hk2⟩ := log2_bounds hm0 hm
      have := fields64_mk hs (by omega : Nat.log2 m + 874 < 2048) (sub_shift_lt hk hk2)
      simp only [if_true, if_neg h255, if_neg hm0, fl64, this]
      rw [if_neg (by omega), if_neg (by omega), sub_shift_eq hk hk1]
      congr 1
      generalize Nat.log2 m = k at *
      have h1 : (2 : ℚ) ^ 1075 = 2 ^ (52 - k) * 2 ^ (k + 874) * 2 ^ 149 := two_pow_split (by omega)
      rw [h1]
      rw [Nat.cast_mul, Nat.cast_pow, Nat.cast_ofNat]
      have h2 : (2 : ℚ) ^ (52 - k) ≠ 0 := by positivity
      have h3 : (2 : ℚ) ^ (k + 874) ≠ 0 := by positivity
      field_simp
  · have := fields64_mk hs (by omega : e + 896 < 2048) (by omega : m * 2 ^ 29 < 2 ^ 52)
    simp only [if_neg h255, if_neg h0, fl64, this]
    rw [if_neg (by omega), if_neg (by omega)]
    congr 1
    have h1 : (2 : ℚ) ^ 1075 = 2 ^ 29 * 2 ^ 896 * 2 ^ 150 := two_pow_split (by norm_num)
    rw [h1, pow_add, show 2 ^ 52 + m * 2 ^ 29 = (2 ^ 23 + m) * 2 ^ 29 by ring]
    rw [Nat.cast_mul (2 ^ 23 + m), Nat.cast_pow, Nat.cast_ofNat]
    have h2 : (2 : ℚ) ^ 29 ≠ 0 := by positivity
    have h3 : (2 : ℚ) ^ 896 ≠ 0 := by positivity
    have h4 : (2 : ℚ) ^ 150 ≠ 0 := by positivity
    generalize (2 : ℚ) ^ 29 = a at *
    generalize (2 : ℚ) ^ 896 = b at *
    generalize (2 : ℚ) ^ 150 = c at *
    field_simp

theorem closeVoxelSize_widen {w : Word} {q : ℚ} (h : fl32 w = .fin q) :
    closeVoxelSize (widen w) w = true := by
  simp [closeVoxelSize, fl64_widen, h]

end Vox.FloatBits
