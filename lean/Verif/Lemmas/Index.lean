import Verif.Model.Index
import Verif.Spec.Index
import Mathlib.Tactic.Ring
import Mathlib.Tactic.Linarith
import Mathlib.Tactic.Positivity
import Mathlib.Tactic.FieldSimp
import Mathlib.Tactic.NormNum
import Mathlib.Tactic.IntervalCases

namespace Vox
open Spec

theorem vps_le_1290 {vps : ℕ} (h : numVoxels vps ≤ 2 ^ 31) : vps ≤ 1290 := by
  unfold numVoxels at h
  by_contra hc
  have h1 : 1291 ≤ vps := by omega
  have h2 : 1291 * 1291 ≤ vps * vps := Nat.mul_le_mul h1 h1
  have h3 : 1291 * 1291 * 1291 ≤ vps * vps * vps := Nat.mul_le_mul h2 h1
  omega

theorem linear_lt {n x y z : ℤ} (hx : 0 ≤ x ∧ x < n) (hy : 0 ≤ y ∧ y < n) (hz : 0 ≤ z ∧ z < n) :
    0 ≤ x + n * (y + z * n) ∧ x + n * (y + z * n) < n * n * n := by
  have hn : 0 < n := by omega
  constructor
  · have : 0 ≤ z * n := Int.mul_nonneg hz.1 hn.le
    have : 0 ≤ n * (y + z * n) := Int.mul_nonneg hn.le (by omega)
    omega
  · have h1 : z * n ≤ (n - 1) * n := Int.mul_le_mul_of_nonneg_right (by omega) hn.le
    have h2 : y + z * n ≤ n * n - 1 := by nlinarith
    have h3 : n * (y + z * n) ≤ n * (n * n - 1) := Int.mul_le_mul_of_nonneg_left h2 hn.le
    nlinarith

theorem isValidVoxelIndex_iff {vps : ℕ} (hv : vps < 2 ^ 31) (v : Idx) :
    isValidVoxelIndex vps v = true ↔ InBlock vps v := by
  have hw : wrap32 (vps : ℤ) = vps := wrap32_of_range ⟨by omega, by exact_mod_cast hv⟩
  unfold isValidVoxelIndex InBlock Vec3.All
  rw [hw]
  split_ifs <;> simp <;> omega

/-! ### float32 conversion of integers -/

theorem natToF32_exact {n : ℕ} (h : n ≤ 2 ^ 24) : natToF32 n = n := by
  unfold natToF32
  rcases Nat.lt_or_ge n (2 ^ 24) with h1 | h1
  · have : Nat.log2 n + 1 - 24 = 0 := by
      rcases Nat.eq_zero_or_pos n with h0 | h0
      · subst h0; decide
      · have : Nat.log2 n < 24 := (Nat.log2_lt (by omega)).2 h1
        omega
    simp [this]
  · have : n = 2 ^ 24 := by omega
    subst this
    decide +kernel

theorem intToF32_exact {n : ℤ} (h : |n| ≤ 2 ^ 24) : intToF32 n = n := by
  have h' : n.natAbs ≤ 2 ^ 24 := by
    have := abs_le.1 h
    omega
  unfold intToF32
  rw [natToF32_exact h']
  split_ifs <;> omega

theorem floor_mul_inv_two_pow (g : ℤ) (k : ℕ) : ⌊(g : ℚ) * (1 / 2 ^ k)⌋ = g / 2 ^ k := by
  have h : (g : ℚ) * (1 / 2 ^ k) = (g : ℚ) / ((2 ^ k : ℕ) : ℚ) := by push_cast; ring
  rw [h]
  have := Rat.floor_intCast_div_natCast g (2 ^ k)
  rw [this]; push_cast; rfl

theorem ediv_two_pow_i32 {g : ℤ} (k : ℕ) (h : |g| ≤ 2 ^ 24) : IsI32 (g / 2 ^ k) := by
  have := abs_le.1 h
  have hk : (1 : ℤ) ≤ 2 ^ k := one_le_pow₀ (by norm_num)
  constructor
  · have : -2 ^ 24 ≤ g / 2 ^ k := by
      rw [Int.le_ediv_iff_mul_le (by omega)]
      nlinarith
    omega
  · have : g / 2 ^ k ≤ 2 ^ 24 := by
      apply Int.ediv_le_of_le_mul (by omega)
      nlinarith
    omega

theorem blockFromGlobal1_exact {g : ℤ} (k : ℕ) (h : |g| ≤ 2 ^ 24) :
    blockFromGlobal1 k g = .ok (g / 2 ^ k) := by
  unfold blockFromGlobal1
  simp only [intToF32_exact h, floor_mul_inv_two_pow, ediv_two_pow_i32 k h, if_true]

/-! ### power-of-two test and masking -/

theorem isPowerOfTwo_iff {x : ℕ} (h0 : 0 < x) (h1 : x < 2 ^ 31) :
    isPowerOfTwo x = .ok (decide (∃ k, k < 31 ∧ x = 2 ^ k)) := by
  unfold isPowerOfTwo
  rw [if_neg (by omega)]
  congr 1
  have hsub : ((x : ℤ) - 1) = ((x - 1 : ℕ) : ℤ) := by omega
  rw [hsub, Bool.eq_iff_iff, beq_iff_eq, decide_eq_true_eq, BitVec.ofInt_natCast,
    BitVec.ofInt_natCast, BitVec.toNat_eq, BitVec.toNat_and, BitVec.toNat_ofNat,
    BitVec.toNat_ofNat, Nat.mod_eq_of_lt (by omega), Nat.mod_eq_of_lt (by omega)]
  simp only [BitVec.toNat_ofNat, Nat.zero_mod]
  rw [Nat.and_sub_one_eq_zero_iff_isPowerOfTwo (by omega)]
  constructor
  · rintro ⟨k, rfl⟩
    refine ⟨k, ?_, rfl⟩
    exact (Nat.pow_lt_pow_iff_right (by norm_num)).1 h1
  · rintro ⟨k, _, rfl⟩
    exact ⟨k, rfl⟩

theorem isPowerOfTwo_two_pow {k : ℕ} (hk : k < 31) : isPowerOfTwo (2 ^ k) = .ok true := by
  have h1 : (2 : ℕ) ^ k < 2 ^ 31 := (Nat.pow_lt_pow_iff_right (by norm_num)).2 hk
  have := isPowerOfTwo_iff (x := 2 ^ k) (by positivity) h1
  push_cast at this
  rw [this]
  congr 1
  exact decide_eq_true ⟨k, hk, by norm_num⟩

theorem mask_eq_emod {k : ℕ} (hk : k < 31) (a : ℤ) :
    (BitVec.ofInt 64 a &&& BitVec.ofInt 64 ((2 : ℤ) ^ k - 1)).toInt = a % 2 ^ k := by
  have hk2 : (2 : ℕ) ^ k ≤ 2 ^ 30 := Nat.pow_le_pow_right (by norm_num) (by omega)
  have hk1 : 1 ≤ (2 : ℕ) ^ k := Nat.one_le_two_pow
  have hsub : ((2 : ℤ) ^ k - 1) = ((2 ^ k - 1 : ℕ) : ℤ) := by push_cast [hk1]; rfl
  have hnat : (BitVec.ofInt 64 a &&& BitVec.ofInt 64 ((2 : ℤ) ^ k - 1)).toNat
      = (a % 2 ^ 64).toNat % 2 ^ k := by
    rw [BitVec.toNat_and, hsub, BitVec.ofInt_natCast, BitVec.toNat_ofNat, BitVec.toNat_ofInt,
      Nat.mod_eq_of_lt (a := 2 ^ k - 1) (by omega), Nat.and_two_pow_sub_one_eq_mod]
    norm_num
  rw [BitVec.toInt_eq_toNat_of_lt]
  · rw [hnat]
    push_cast
    rw [Int.toNat_of_nonneg (Int.emod_nonneg _ (by norm_num))]
    have h64 : (2 : ℤ) ^ k ∣ 2 ^ 64 := pow_dvd_pow 2 (by omega)
    exact Int.emod_emod_of_dvd _ h64
  · rw [hnat]
    have : (a % 2 ^ 64).toNat % 2 ^ k < 2 ^ k := Nat.mod_lt _ (by omega)
    omega

theorem localFromGlobal1_two_pow {k : ℕ} (hk : k < 31) {g : ℤ} (hg : IsI64 (g + localOffset)) :
    localFromGlobal1 (2 ^ k) g = .ok (g % 2 ^ k) := by
  unfold localFromGlobal1
  rw [if_pos hg, mask_eq_emod hk]
  have hk2 : (2 : ℤ) ^ k ≤ 2 ^ 30 := pow_le_pow_right₀ (by norm_num) (by omega)
  have hk1 : 0 < (2 : ℤ) ^ k := by positivity
  have hmod : (g + localOffset) % 2 ^ k = g % 2 ^ k := by
    have : (2 : ℤ) ^ k ∣ localOffset := by
      unfold localOffset
      rw [dvd_neg]
      exact pow_dvd_pow 2 (by omega)
    rw [Int.add_emod, Int.emod_eq_zero_of_dvd this, add_zero, Int.emod_emod_of_dvd _ dvd_rfl]
  rw [hmod, wrap32_of_range]
  constructor
  · have := Int.emod_nonneg g (by omega : (2 : ℤ) ^ k ≠ 0); omega
  · have := Int.emod_lt_of_pos g hk1; omega

/-! ### Neighbour carry loops -/

theorem carryUp_spec {vps : ℕ} (hv : 0 < vps) : ∀ (n : ℕ) (b v : ℤ), v < 0 → v.natAbs < n →
    let s := carryUp vps n (b, v)
    s.1 * vps + s.2 = b * vps + v ∧ 0 ≤ s.2 ∧ s.2 < vps := by
  intro n
  induction n with
  | zero => intro b v _ h; omega
  | succ n ih =>
    intro b v hneg h
    simp only [carryUp, if_pos hneg]
    by_cases h2 : v + vps < 0
    · obtain ⟨e1, e2, e3⟩ := ih (b - 1) (v + vps) h2 (by omega)
      exact ⟨by rw [e1]; ring, e2, e3⟩
    · have : carryUp vps n (b - 1, v + (vps : ℤ)) = (b - 1, v + (vps : ℤ)) := by
        cases n with
        | zero => rfl
        | succ n => simp [carryUp, h2]
      simp only [this]
      exact ⟨by ring, by omega, by omega⟩

theorem carryDown_spec {vps : ℕ} (hv : 0 < vps) : ∀ (n : ℕ) (b v : ℤ), 0 ≤ v → v.natAbs < n →
    let s := carryDown vps n (b, v)
    s.1 * vps + s.2 = b * vps + v ∧ 0 ≤ s.2 ∧ s.2 < vps := by
  intro n
  induction n with
  | zero => intro b v _ h; omega
  | succ n ih =>
    intro b v hpos h
    by_cases h2 : v ≥ vps
    · simp only [carryDown, if_pos h2]
      obtain ⟨e1, e2, e3⟩ := ih (b + 1) (v - vps) (by omega) (by omega)
      exact ⟨by rw [e1]; ring, e2, e3⟩
    · simp only [carryDown, if_neg h2]
      exact ⟨trivial, hpos, by omega⟩

/-- The fuel of `neighborAxis` always suffices: the result is in range and at the same position. -/
theorem neighborAxis_spec {vps : ℕ} (hv : 0 < vps) (b v : ℤ) :
    (neighborAxis vps b v).1 * vps + (neighborAxis vps b v).2 = b * vps + v ∧
    0 ≤ (neighborAxis vps b v).2 ∧ (neighborAxis vps b v).2 < vps := by
  unfold neighborAxis
  by_cases h : v < 0
  · obtain ⟨e1, e2, e3⟩ := carryUp_spec hv (v.natAbs + 1) b v h (by omega)
    obtain ⟨f1, f2, f3⟩ := carryDown_spec hv ((carryUp vps (v.natAbs + 1) (b, v)).2.natAbs + 1)
      (carryUp vps (v.natAbs + 1) (b, v)).1 (carryUp vps (v.natAbs + 1) (b, v)).2 e2 (by omega)
    exact ⟨f1.trans e1, f2, f3⟩
  · have : carryUp vps (v.natAbs + 1) (b, v) = (b, v) := by simp [carryUp, h]
    simp only [this]
    exact carryDown_spec hv _ b v (by omega) (by omega)

theorem div_mod_unique {n : ℤ} {a b c d : ℤ} (h : a * n + b = c * n + d)
    (hb : 0 ≤ b ∧ b < n) (hd : 0 ≤ d ∧ d < n) : a = c ∧ b = d := by
  have hn : 0 < n := by omega
  have h1 : (a - c) * n = d - b := by linarith
  have h2 : a - c = 0 := by
    by_contra hne
    rcases lt_or_gt_of_ne hne with hlt | hgt
    · have : (a - c) * n ≤ -1 * n := Int.mul_le_mul_of_nonneg_right (by omega) hn.le
      omega
    · have : 1 * n ≤ (a - c) * n := Int.mul_le_mul_of_nonneg_right (by omega) hn.le
      omega
  constructor
  · omega
  · rw [h2] at h1; omega

end Vox
