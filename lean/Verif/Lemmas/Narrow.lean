/-
The conversion of `double` patterns to `float` patterns is the rounding of the numbers they denote.
-/
import Verif.Lemmas.FloatBits
import Verif.Lemmas.Ieee
import Verif.Lemmas.IndexFloat
import Mathlib.Tactic.Linarith
import Mathlib.Tactic.Positivity

namespace Vox.FloatBits

open Ieee

theorem roundEven_shift (a d : ℕ) : roundEven ((a : ℚ) / (2 ^ d : ℕ)) = roundShift a d := by
  have hD : 0 < 2 ^ d := Nat.two_pow_pos d
  unfold roundShift
  generalize 2 ^ d = D at *
  have hDq : (0 : ℚ) < D := by exact_mod_cast hD
  have hf : ⌊(a : ℚ) / D⌋ = ((a / D : ℕ) : ℤ) := by
    rw [Int.floor_eq_iff]
    have h1 : a / D * D ≤ a := Nat.div_mul_le_self a D
    have h2 : a < (a / D + 1) * D := by
      have := Nat.lt_div_mul_add hD (a := a)
      rw [Nat.add_mul, Nat.one_mul]
      exact this
    constructor
    · rw [le_div_iff₀ hDq]; exact_mod_cast h1
    · rw [div_lt_iff₀ hDq]; exact_mod_cast h2
  have hmod : (a : ℚ) / D - ((a / D : ℕ) : ℤ) = ((a % D : ℕ) : ℚ) / D := by
    have h := Nat.div_add_mod a D
    have hq : (a : ℚ) = D * (a / D : ℕ) + (a % D : ℕ) := by exact_mod_cast h.symm
    rw [Int.cast_natCast, eq_div_iff hDq.ne', sub_mul, div_mul_cancel₀ _ hDq.ne']
    linarith
  unfold roundEven
  simp only [hf]
  rw [hmod]
  generalize a / D = q
  generalize a % D = r
  have e1 : ((r : ℚ) / D < 1 / 2) ↔ 2 * r < D := by
    rw [div_lt_div_iff₀ hDq (by norm_num), one_mul]
    constructor
    · intro h
      have h' : r * 2 < D := by exact_mod_cast h
      omega
    · intro h
      have h' : r * 2 < D := by omega
      exact_mod_cast h'
  have e2 : (1 / 2 < (r : ℚ) / D) ↔ D < 2 * r := by
    rw [div_lt_div_iff₀ (by norm_num) hDq, one_mul]
    constructor
    · intro h
      have h' : D < r * 2 := by exact_mod_cast h
      omega
    · intro h
      have h' : D < r * 2 := by omega
      exact_mod_cast h'
  simp only [e1, e2]
  split_ifs <;> push_cast <;> omega

theorem ilog2_eq {x : ℚ} {k : ℤ} (h1 : pow2 k ≤ |x|) (h2 : |x| < pow2 (k + 1)) : ilog2 x = k := by
  have hx : x ≠ 0 := by
    rintro rfl
    rw [abs_zero] at h1
    exact absurd (pow2_pos k) (not_lt.2 h1)
  obtain ⟨s1, s2⟩ := ilog2_spec hx
  have a := pow2_lt_iff.1 (lt_of_le_of_lt h1 s2)
  have b := pow2_lt_iff.1 (lt_of_le_of_lt s1 h2)
  omega

/-- Rounding `a * 2^g` for a 53-bit integer `a`. -/
theorem rnd32_scaled {a : ℕ} (ha1 : 2 ^ 52 ≤ a) (ha2 : a < 2 ^ 53) (g : ℤ) {d : ℕ} (hd : (d : ℤ) = max (g + 29) (-149) - g) :
    rnd32 (a * pow2 g) = roundShift a d * pow2 (max (g + 29) (-149)) := by
  have hpos : (0 : ℚ) < a * pow2 g := mul_pos (by exact_mod_cast lt_of_lt_of_le (by norm_num) ha1) (pow2_pos g)
  have hl : ilog2 ((a : ℚ) * pow2 g) = g + 52 := by
    apply ilog2_eq
    · rw [abs_of_pos hpos, add_comm, pow2_add, show (52 : ℤ) = ((52 : ℕ) : ℤ) from rfl, pow2_nat]
      exact mul_le_mul_of_nonneg_right (by exact_mod_cast ha1) (pow2_pos g).le
    · rw [abs_of_pos hpos, show g + 52 + 1 = ((53 : ℕ) : ℤ) + g by push_cast; ring, pow2_add, pow2_nat]
      exact mul_lt_mul_of_pos_right (by exact_mod_cast ha2) (pow2_pos g)
  have hD : lastDigit 24 (-149) ((a : ℚ) * pow2 g) = max (g + 29) (-149) := by
    unfold lastDigit
    rw [hl]
    congr 1
    push_cast
    ring
  unfold rnd32 rne
  rw [hD]
  have e : (a : ℚ) * pow2 g / pow2 (max (g + 29) (-149)) = (a : ℚ) / (2 ^ d : ℕ) := by
    have h : pow2 (max (g + 29) (-149)) = (2 ^ d : ℕ) * pow2 g := by
      rw [← pow2_nat, ← pow2_add]
      congr 1
      omega
    rw [h, mul_div_mul_right _ _ (pow2_ne g)]
  rw [e, roundEven_shift, Int.cast_natCast]

theorem roundShift_bounds {a d l h : ℕ} (h1 : l * 2 ^ d ≤ a) (h2 : a ≤ h * 2 ^ d) : l ≤ roundShift a d ∧ roundShift a d ≤ h := by
  have e := roundEven_shift a d
  have hD : (0 : ℚ) < (2 ^ d : ℕ) := by exact_mod_cast Nat.two_pow_pos d
  constructor
  · have := le_roundEven (q := (a : ℚ) / (2 ^ d : ℕ)) (n := (l : ℤ)) (by rw [Int.cast_natCast, le_div_iff₀ hD]; exact_mod_cast h1)
    rw [e] at this
    exact_mod_cast this
  · have := roundEven_le (q := (a : ℚ) / (2 ^ d : ℕ)) (n := (h : ℤ)) (by rw [Int.cast_natCast, div_le_iff₀ hD]; exact_mod_cast h2)
    rw [e] at this
    exact_mod_cast this

theorem fields32_mk {s n : ℕ} (hs : s < 2) (hn : n < 2 ^ 31) : fields32 (.ofNat 32 (s * 2 ^ 31 + n)) = (s, n / 2 ^ 23, n % 2 ^ 23) := by
  unfold fields32
  simp only [BitVec.toNat_ofNat]
  refine Prod.ext ?_ (Prod.ext ?_ ?_) <;> simp only <;> omega

/-- The number of sign `s` and size `y`. -/
def signed (s : ℕ) (y : ℚ) : ℚ := if s = 0 then y else -y

theorem float32_signed (s : ℕ) {y r : ℚ} (h : rnd32 y = r) (hr : 0 ≤ r) : float32.rnd (signed s y) =
    if 2 ^ 128 ≤ r then (if s = 0 then .pinf else .ninf) else .fin (signed s r) := by
  show overflow (2 ^ 128) (rnd32 (signed s y)) = _
  by_cases hs : s = 0
  · simp only [signed, if_pos hs, h]
    unfold overflow
    split_ifs with h1 h2
    · rfl
    · exfalso
      have : (0 : ℚ) < 2 ^ 128 := by norm_num
      linarith
    · rfl
  · simp only [signed, if_neg hs]
    rw [show rnd32 (-y) = -r from by rw [← h]; exact rne_neg y]
    unfold overflow
    have : (0 : ℚ) < 2 ^ 128 := by norm_num
    split_ifs <;> first | rfl | (exfalso; linarith)

/-- The value of a finite `float` pattern with exponent field above zero. -/
theorem fl32_normal {s E R : ℕ} (hs : s < 2) (hE : E ≤ 253) (h1 : 2 ^ 23 ≤ R) (h2 : R ≤ 2 ^ 24) :
    fl32 (.ofNat 32 (s * 2 ^ 31 + E * 2 ^ 23 + R)) =
      if (2 : ℚ) ^ 128 ≤ R * 2 ^ (E + 1) / 2 ^ 150 then (if s = 0 then .pinf else .ninf) else .fin (signed s (R * 2 ^ (E + 1) / 2 ^ 150)) := by
  have hn : E * 2 ^ 23 + R < 2 ^ 31 := by omega
  have hf := fields32_mk hs hn
  rw [← Nat.add_assoc] at hf
  unfold fl32
  rw [hf]
  dsimp only
  rcases Nat.lt_or_ge R (2 ^ 24) with hlt | hge
  · have e1 : (E * 2 ^ 23 + R) / 2 ^ 23 = E + 1 := by omega
    have e2 : (E * 2 ^ 23 + R) % 2 ^ 23 = R - 2 ^ 23 := by omega
    rw [e1, e2, if_neg (by omega), if_neg (by omega), show 2 ^ 23 + (R - 2 ^ 23) = R by omega]
    have hbig : ¬ (2 : ℚ) ^ 128 ≤ R * 2 ^ (E + 1) / 2 ^ 150 := by
      rw [not_le, div_lt_iff₀ (by norm_num)]
      have a : (R : ℚ) < 2 ^ 24 := by exact_mod_cast hlt
      have b : (2 : ℚ) ^ (E + 1) ≤ 2 ^ 254 := pow_le_pow_right₀ (by norm_num) (by omega)
      calc (R : ℚ) * 2 ^ (E + 1) < 2 ^ 24 * 2 ^ (E + 1) := mul_lt_mul_of_pos_right a (by positivity)
        _ ≤ 2 ^ 24 * 2 ^ 254 := mul_le_mul_of_nonneg_left b (by norm_num)
        _ = 2 ^ 128 * 2 ^ 150 := by norm_num
    rw [if_neg hbig]
    congr 1
    unfold signed
    split_ifs <;> ring
  · obtain rfl : R = 2 ^ 24 := by omega
    have e1 : (E * 2 ^ 23 + 2 ^ 24) / 2 ^ 23 = E + 2 := by omega
    have e2 : (E * 2 ^ 23 + 2 ^ 24) % 2 ^ 23 = 0 := by omega
    rw [e1, e2]
    by_cases h255 : E + 2 = 255
    · obtain rfl : E = 253 := by omega
      have hbig : (2 : ℚ) ^ 128 ≤ ((2 ^ 24 : ℕ) : ℚ) * 2 ^ (253 + 1) / 2 ^ 150 := by norm_num
      rw [if_pos hbig, if_pos rfl, if_pos rfl]
    · have hbig : ¬ (2 : ℚ) ^ 128 ≤ ((2 ^ 24 : ℕ) : ℚ) * 2 ^ (E + 1) / 2 ^ 150 := by
        rw [not_le, div_lt_iff₀ (by norm_num)]
        have b : (2 : ℚ) ^ (E + 1) ≤ 2 ^ 253 := pow_le_pow_right₀ (by norm_num) (by omega)
        calc (((2 ^ 24 : ℕ) : ℚ)) * 2 ^ (E + 1) ≤ ((2 ^ 24 : ℕ) : ℚ) * 2 ^ 253 := mul_le_mul_of_nonneg_left b (by positivity)
          _ < 2 ^ 128 * 2 ^ 150 := by norm_num
      rw [if_neg hbig, if_neg h255, if_neg (by omega)]
      have hv : (if s = 0 then (1 : ℚ) else -1) * ((2 ^ 23 + 0 : ℕ) : ℚ) * 2 ^ (E + 2) / 2 ^ 150 =
          signed s (((2 ^ 24 : ℕ) : ℚ) * 2 ^ (E + 1) / 2 ^ 150) := by
        unfold signed
        have : (2 : ℚ) ^ (E + 2) = 2 * 2 ^ (E + 1) := by rw [pow_succ]; ring
        rw [this]
        split_ifs <;> push_cast <;> ring
      rw [hv]

/-- The value of a `float` pattern that is subnormal, or the least normal one. -/
theorem fl32_subnormal {s R : ℕ} (hs : s < 2) (h2 : R ≤ 2 ^ 23) :
    fl32 (.ofNat 32 (s * 2 ^ 31 + R)) = .fin (signed s (R / 2 ^ 149)) := by
  have hf := fields32_mk hs (show R < 2 ^ 31 by omega)
  unfold fl32
  rw [hf]
  dsimp only
  rcases Nat.lt_or_ge R (2 ^ 23) with hlt | hge
  · have e1 : R / 2 ^ 23 = 0 := by omega
    have e2 : R % 2 ^ 23 = R := by omega
    rw [e1, e2, if_neg (by omega), if_pos rfl]
    congr 1
    unfold signed
    split_ifs <;> ring
  · obtain rfl : R = 2 ^ 23 := by omega
    norm_num
    unfold signed
    split_ifs <;> norm_num

theorem pow2_frac (e k : ℕ) : (2 : ℚ) ^ e / 2 ^ k = pow2 ((e : ℤ) - k) := by
  rw [pow2_eq, zpow_sub₀ (by norm_num), zpow_natCast, zpow_natCast]

/-- The conversion of a `double` pattern to `float` denotes the rounded number. -/
theorem fl32_narrow (w : Word64) : fl32 (narrow w) = match fl64 w with
    | .fin q => float32.rnd q
    | x => x := by
  have hb : (fields64 w).1 < 2 ∧ (fields64 w).2.1 < 2048 ∧ (fields64 w).2.2 < 2 ^ 52 := by
    have := w.isLt
    unfold fields64
    simp only
    omega
  obtain ⟨hs, he, hm⟩ := hb
  unfold narrow fl64
  generalize (fields64 w).1 = s at *
  generalize (fields64 w).2.1 = e at *
  generalize (fields64 w).2.2 = m at *
  dsimp only
  by_cases h2047 : e = 2047
  · rw [if_pos h2047, if_pos h2047]
    by_cases hm0 : m = 0
    · rw [if_pos hm0, if_pos hm0]
      have hf := fields32_mk hs (show 255 * 2 ^ 23 + 0 < 2 ^ 31 by norm_num)
      rw [← Nat.add_assoc] at hf
      unfold fl32
      rw [hf]
      norm_num
      split_ifs <;> rfl
    · rw [if_neg hm0, if_neg hm0]
      have hor : m / 2 ^ 29 ||| 2 ^ 22 < 2 ^ 23 := Nat.or_lt_two_pow (by omega) (by norm_num)
      have hor0 : m / 2 ^ 29 ||| 2 ^ 22 ≠ 0 := by
        intro h
        have : 2 ^ 22 ≤ m / 2 ^ 29 ||| 2 ^ 22 := Nat.right_le_or
        omega
      generalize m / 2 ^ 29 ||| 2 ^ 22 = k at *
      have hf := fields32_mk hs (show 255 * 2 ^ 23 + k < 2 ^ 31 by omega)
      rw [← Nat.add_assoc] at hf
      unfold fl32
      rw [hf]
      dsimp only
      rw [if_pos (by omega), if_neg (by omega)]
  rw [if_neg h2047, if_neg h2047]
  by_cases h0 : e = 0
  · subst h0
    rw [if_neg (by omega), if_neg (by omega), if_pos rfl, if_pos rfl]
    dsimp only
    have hr : rnd32 ((m : ℚ) / 2 ^ 1074) = 0 := by
      by_cases hm0 : m = 0
      · subst hm0
        rw [Nat.cast_zero, zero_div]
        exact rne_zero
      · have hx0 : (0 : ℚ) < (m : ℚ) / 2 ^ 1074 := div_pos (by exact_mod_cast Nat.pos_of_ne_zero hm0) (by positivity)
        have hx1 : (m : ℚ) / 2 ^ 1074 < pow2 (-1022) := by
          have : (m : ℚ) < 2 ^ 52 := by exact_mod_cast hm
          have h2 : (m : ℚ) / 2 ^ 1074 < 2 ^ 52 / 2 ^ 1074 := div_lt_div_of_pos_right this (by positivity)
          rw [pow2_frac] at h2
          exact h2
        have hl : ilog2 ((m : ℚ) / 2 ^ 1074) < -1022 := by
          obtain ⟨s1, -⟩ := ilog2_spec hx0.ne'
          rw [abs_of_pos hx0] at s1
          exact pow2_lt_iff.1 (lt_of_le_of_lt s1 hx1)
        have hD : lastDigit 24 (-149) ((m : ℚ) / 2 ^ 1074) = -149 := by
          unfold lastDigit
          push_cast
          omega
        unfold rnd32 rne
        rw [hD]
        have hq : (m : ℚ) / 2 ^ 1074 / pow2 (-149) < 1 / 2 := by
          rw [div_lt_iff₀ (pow2_pos _)]
          refine lt_of_lt_of_le hx1 ?_
          have : (1 / 2 : ℚ) = pow2 (-1) := by norm_num [pow2]
          rw [this, ← pow2_add]
          exact pow2_le (by norm_num)
        have hq0 : 0 ≤ (m : ℚ) / 2 ^ 1074 / pow2 (-149) := div_nonneg hx0.le (pow2_pos _).le
        have hz : roundEven ((m : ℚ) / 2 ^ 1074 / pow2 (-149)) = 0 := by
          have hfl : ⌊(m : ℚ) / 2 ^ 1074 / pow2 (-149)⌋ = 0 := by
            rw [Int.floor_eq_iff]
            constructor
            · exact_mod_cast hq0
            · rw [Int.cast_zero]; linarith
          unfold roundEven
          simp only [hfl]
          rw [if_pos (by rw [Int.cast_zero]; linarith)]
        rw [hz, Int.cast_zero, zero_mul]
    have hx : (if s = 0 then (1 : ℚ) else -1) * m / 2 ^ 1074 = signed s ((m : ℚ) / 2 ^ 1074) := by
      unfold signed
      split_ifs <;> ring
    rw [hx, float32_signed s hr le_rfl, if_neg (by norm_num)]
    have := fl32_subnormal (s := s) (R := 0) hs (by norm_num)
    rw [Nat.add_zero, Nat.cast_zero, zero_div] at this
    exact this
  rw [if_neg h0 (α := Fl)]
  have ha1 : 2 ^ 52 ≤ 2 ^ 52 + m := by omega
  have ha2 : 2 ^ 52 + m < 2 ^ 53 := by omega
  have hx : (if s = 0 then (1 : ℚ) else -1) * ((2 ^ 52 + m : ℕ) : ℚ) * 2 ^ e / 2 ^ 1075 = signed s (((2 ^ 52 + m : ℕ) : ℚ) * pow2 ((e : ℤ) - 1075)) := by
    rw [show ((1075 : ℤ)) = ((1075 : ℕ) : ℤ) from rfl, ← pow2_frac]
    unfold signed
    split_ifs <;> ring
  dsimp only
  rw [hx]
  generalize ha : 2 ^ 52 + m = a at *
  by_cases hbig : 1151 ≤ e
  · rw [if_pos hbig]
    have hr : 2 ^ 128 ≤ rnd32 ((a : ℚ) * pow2 ((e : ℤ) - 1075)) := by
      have h1 : ((1 : ℤ) : ℚ) * pow2 128 ≤ (a : ℚ) * pow2 ((e : ℤ) - 1075) := by
        rw [Int.cast_one, one_mul]
        calc pow2 128 ≤ pow2 (52 + ((e : ℤ) - 1075)) := pow2_le (by omega)
          _ = ((2 ^ 52 : ℕ) : ℚ) * pow2 ((e : ℤ) - 1075) := by rw [pow2_add]; rfl
          _ ≤ _ := mul_le_mul_of_nonneg_right (by exact_mod_cast ha1) (pow2_pos _).le
      have h2 := rne_mono (p := 24) (qmin := -149) (by norm_num) h1
      rw [rne_exact (by norm_num) (by norm_num) (by norm_num), Int.cast_one, one_mul] at h2
      have h3 : pow2 128 = 2 ^ 128 := by rw [show (128 : ℤ) = ((128 : ℕ) : ℤ) from rfl, pow2_nat]; push_cast; rfl
      rw [h3] at h2
      exact h2
    rw [float32_signed s rfl (le_trans (by norm_num) hr), if_pos hr]
    have hf := fields32_mk hs (show 255 * 2 ^ 23 + 0 < 2 ^ 31 by norm_num)
    rw [← Nat.add_assoc] at hf
    unfold fl32
    rw [Nat.add_zero] at hf
    rw [hf]
    norm_num
  rw [if_neg hbig]
  by_cases hn : 897 ≤ e
  · rw [if_pos hn]
    have hr := rnd32_scaled ha1 ha2 ((e : ℤ) - 1075) (d := 29) (by push_cast; omega)
    obtain ⟨r1, r2⟩ := roundShift_bounds (a := a) (d := 29) (l := 2 ^ 23) (h := 2 ^ 24) (by omega) (by omega)
    have hv : (roundShift a 29 : ℚ) * pow2 (max ((e : ℤ) - 1075 + 29) (-149)) = roundShift a 29 * 2 ^ (e - 897 + 1) / 2 ^ 150 := by
      have h : max ((e : ℤ) - 1075 + 29) (-149) = ((e - 897 + 1 : ℕ) : ℤ) - (150 : ℕ) := by omega
      rw [mul_div_assoc, pow2_frac, h]
    rw [hv] at hr
    rw [float32_signed s hr (by positivity), fl32_normal hs (by omega) r1 r2]
  · rw [if_neg hn, if_neg h0]
    have hr := rnd32_scaled ha1 ha2 ((e : ℤ) - 1075) (d := 926 - e) (by omega)
    have hpow : 2 ^ 53 ≤ 2 ^ 23 * 2 ^ (926 - e) := by
      rw [← pow_add]
      exact Nat.pow_le_pow_right (by norm_num) (by omega)
    obtain ⟨-, r2⟩ := roundShift_bounds (a := a) (d := 926 - e) (l := 0) (h := 2 ^ 23) (by omega) (by omega)
    have hv : (roundShift a (926 - e) : ℚ) * pow2 (max ((e : ℤ) - 1075 + 29) (-149)) = roundShift a (926 - e) / 2 ^ 149 := by
      have : max ((e : ℤ) - 1075 + 29) (-149) = -149 := by omega
      rw [this, div_eq_mul_inv, pow2_eq, zpow_neg]
      norm_num
    rw [hv] at hr
    rw [float32_signed s hr (by positivity), fl32_subnormal hs r2, if_neg]
    rw [not_le, div_lt_iff₀ (by norm_num)]
    have : (roundShift a (926 - e) : ℚ) ≤ 2 ^ 23 := by exact_mod_cast r2
    refine lt_of_le_of_lt this (by norm_num)

end Vox.FloatBits
