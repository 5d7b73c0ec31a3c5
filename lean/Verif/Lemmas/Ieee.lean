/-
IEEE rounding: monotone, odd, idempotent, accurate.
-/
import Verif.Model.Ieee
import Mathlib.Data.Rat.Floor
import Mathlib.Algebra.Order.Floor.Ring
import Mathlib.Algebra.Order.Field.Power
import Mathlib.Tactic.Linarith
import Mathlib.Tactic.Ring
import Mathlib.Tactic.Positivity
import Mathlib.Tactic.FieldSimp
import Mathlib.Data.Nat.Log

namespace Vox.Ieee

/-! ### Rounding to integers -/

theorem roundEven_close (q : ℚ) : |(roundEven q : ℚ) - q| ≤ 1 / 2 := by
  have h1 := Int.floor_le q
  have h2 := Int.lt_floor_add_one q
  unfold roundEven
  rw [abs_le]
  dsimp only
  split_ifs <;> push_cast <;> constructor <;> linarith

theorem roundEven_int (n : ℤ) : roundEven n = n := by
  unfold roundEven
  simp

theorem roundEven_mono {a b : ℚ} (h : a ≤ b) : roundEven a ≤ roundEven b := by
  rcases lt_or_ge ⌊a⌋ ⌊b⌋ with hf | hf
  · have ha : roundEven a ≤ ⌊a⌋ + 1 := by unfold roundEven; dsimp only; split_ifs <;> omega
    have hb : ⌊b⌋ ≤ roundEven b := by unfold roundEven; dsimp only; split_ifs <;> omega
    omega
  · have he : ⌊a⌋ = ⌊b⌋ := le_antisymm (Int.floor_le_floor h) hf
    unfold roundEven
    simp only [he]
    split_ifs <;> first | omega | (exfalso; linarith)

theorem roundEven_neg (q : ℚ) : roundEven (-q) = -roundEven q := by
  rcases eq_or_lt_of_le (Int.floor_le q) with he | hlt
  · rw [← he, ← Int.cast_neg, roundEven_int, roundEven_int]
  · have hf : ⌊-q⌋ = -⌊q⌋ - 1 := by
      rw [Int.floor_eq_iff]
      have := Int.lt_floor_add_one q
      push_cast
      constructor <;> linarith
    unfold roundEven
    simp only [hf]
    push_cast
    have e : -q - (-(⌊q⌋ : ℚ) - 1) = 1 - (q - ⌊q⌋) := by ring
    rw [e]
    split_ifs <;> first | omega | (exfalso; linarith)

theorem roundEven_le {q : ℚ} {n : ℤ} (h : q ≤ n) : roundEven q ≤ n := by
  have := roundEven_mono h
  rwa [roundEven_int] at this

theorem le_roundEven {q : ℚ} {n : ℤ} (h : (n : ℚ) ≤ q) : n ≤ roundEven q := by
  have := roundEven_mono h
  rwa [roundEven_int] at this

/-! ### Powers of two -/

theorem pow2_eq (e : ℤ) : pow2 e = 2 ^ e := by
  unfold pow2
  split_ifs with h
  · obtain ⟨n, rfl⟩ := Int.eq_ofNat_of_zero_le h
    simp
  · obtain ⟨n, hn⟩ := Int.eq_ofNat_of_zero_le (show 0 ≤ -e by omega)
    have : e = -n := by omega
    subst this
    simp

theorem pow2_pos (e : ℤ) : 0 < pow2 e := by rw [pow2_eq]; positivity

theorem pow2_ne (e : ℤ) : pow2 e ≠ 0 := (pow2_pos e).ne'

theorem pow2_add (a b : ℤ) : pow2 (a + b) = pow2 a * pow2 b := by
  simp only [pow2_eq]
  exact zpow_add₀ (by norm_num) a b

theorem pow2_le {a b : ℤ} (h : a ≤ b) : pow2 a ≤ pow2 b := by
  simp only [pow2_eq]
  exact zpow_le_zpow_right₀ (by norm_num) h

theorem pow2_lt_iff {a b : ℤ} : pow2 a < pow2 b ↔ a < b := by
  simp only [pow2_eq]
  exact zpow_lt_zpow_iff_right₀ (by norm_num)

theorem pow2_nat (n : ℕ) : pow2 n = (2 ^ n : ℕ) := by unfold pow2; simp

theorem pow2_sub_nat {a b : ℤ} (h : b ≤ a) : ∃ n : ℕ, (n : ℤ) = a - b ∧ pow2 a = (2 ^ n : ℕ) * pow2 b := by
  obtain ⟨n, hn⟩ := Int.eq_ofNat_of_zero_le (show 0 ≤ a - b by omega)
  refine ⟨n, hn.symm, ?_⟩
  have : a = n + b := by omega
  rw [this, pow2_add, pow2_nat]

theorem log2_bounds {n : ℕ} (h : n ≠ 0) : 2 ^ Nat.log2 n ≤ n ∧ n < 2 ^ (Nat.log2 n + 1) :=
  ⟨Nat.log2_self_le h, Nat.lt_log2_self⟩

theorem ilog2_spec {x : ℚ} (hx : x ≠ 0) : pow2 (ilog2 x) ≤ |x| ∧ |x| < pow2 (ilog2 x + 1) := by
  have hn : x.num.natAbs ≠ 0 := by simpa using hx
  have hd : x.den ≠ 0 := x.den_nz
  obtain ⟨n1, n2⟩ := log2_bounds hn
  obtain ⟨d1, d2⟩ := log2_bounds hd
  have habs : |x| = (x.num.natAbs : ℚ) / x.den := by
    conv_lhs => rw [← Rat.num_div_den x]
    rw [abs_div, Nat.abs_cast, ← Int.cast_abs, Nat.cast_natAbs]
  have hdp : (0 : ℚ) < x.den := by exact_mod_cast Nat.pos_of_ne_zero hd
  have n1' : pow2 (Nat.log2 x.num.natAbs) ≤ (x.num.natAbs : ℚ) := by rw [pow2_nat]; exact_mod_cast n1
  have n2' : (x.num.natAbs : ℚ) < pow2 (Nat.log2 x.num.natAbs + 1) := by
    have := pow2_nat (Nat.log2 x.num.natAbs + 1)
    push_cast at this
    rw [this]; exact_mod_cast n2
  have d1' : pow2 (Nat.log2 x.den) ≤ (x.den : ℚ) := by rw [pow2_nat]; exact_mod_cast d1
  have d2' : (x.den : ℚ) < pow2 (Nat.log2 x.den + 1) := by
    have := pow2_nat (Nat.log2 x.den + 1)
    push_cast at this
    rw [this]; exact_mod_cast d2
  set a : ℤ := (Nat.log2 x.num.natAbs : ℤ)
  set b : ℤ := (Nat.log2 x.den : ℤ)
  have up : |x| < pow2 (a - b + 1) := by
    rw [habs, div_lt_iff₀ hdp]
    have : pow2 (a + 1) = pow2 (a - b + 1) * pow2 b := by rw [← pow2_add]; congr 1; ring
    calc (x.num.natAbs : ℚ) < pow2 (a + 1) := n2'
      _ = pow2 (a - b + 1) * pow2 b := this
      _ ≤ pow2 (a - b + 1) * x.den := mul_le_mul_of_nonneg_left d1' (pow2_pos _).le
  have low : pow2 (a - b - 1) ≤ |x| := by
    rw [habs, le_div_iff₀ hdp]
    have : pow2 a = pow2 (a - b - 1) * pow2 (b + 1) := by rw [← pow2_add]; congr 1; ring
    calc pow2 (a - b - 1) * x.den ≤ pow2 (a - b - 1) * pow2 (b + 1) := mul_le_mul_of_nonneg_left d2'.le (pow2_pos _).le
      _ = pow2 a := this.symm
      _ ≤ _ := n1'
  unfold ilog2
  simp only
  split_ifs with h
  · exact ⟨h, up⟩
  · refine ⟨low, ?_⟩
    rw [sub_add_cancel]
    exact not_le.1 h

theorem ilog2_neg (x : ℚ) : ilog2 (-x) = ilog2 x := by unfold ilog2; simp [abs_neg]

theorem ilog2_mono {x y : ℚ} (hx : x ≠ 0) (h : |x| ≤ |y|) : ilog2 x ≤ ilog2 y := by
  have hy : y ≠ 0 := by
    rintro rfl
    rw [abs_zero] at h
    exact hx (abs_eq_zero.1 (le_antisymm h (abs_nonneg x)))
  by_contra hlt
  have h1 := (ilog2_spec hx).1
  have h2 := (ilog2_spec hy).2
  have h3 := pow2_le (show ilog2 y + 1 ≤ ilog2 x by omega)
  linarith

/-! ### Rounding -/

section

variable {p : ℕ} {qmin : ℤ}

theorem rne_neg (x : ℚ) : rne p qmin (-x) = -rne p qmin x := by
  unfold rne lastDigit
  rw [ilog2_neg, neg_div, roundEven_neg]
  push_cast
  ring

theorem rne_zero : rne p qmin 0 = 0 := by
  unfold rne
  rw [zero_div]
  have := roundEven_int 0
  rw [Int.cast_zero] at this
  rw [this]
  simp

theorem rne_nonneg {x : ℚ} (h : 0 ≤ x) : 0 ≤ rne p qmin x := by
  unfold rne
  have h1 : (0 : ℤ) ≤ roundEven (x / pow2 (lastDigit p qmin x)) :=
    le_roundEven (by rw [Int.cast_zero]; exact div_nonneg h (pow2_pos _).le)
  exact mul_nonneg (by exact_mod_cast h1) (pow2_pos _).le

/-- Multiples of the last digit are not passed. -/
theorem rne_le_of_multiple {x : ℚ} {e : ℤ} (n : ℤ) (he : lastDigit p qmin x ≤ e) (h : x ≤ n * pow2 e) : rne p qmin x ≤ n * pow2 e := by
  obtain ⟨m, -, hm⟩ := pow2_sub_nat he
  unfold rne
  have hp := pow2_pos (lastDigit p qmin x)
  rw [hm] at h ⊢
  have : roundEven (x / pow2 (lastDigit p qmin x)) ≤ n * (2 ^ m : ℕ) := by
    refine roundEven_le ?_
    rw [div_le_iff₀ hp]
    push_cast at h ⊢
    linarith
  have h' : ((roundEven (x / pow2 (lastDigit p qmin x)) : ℤ) : ℚ) ≤ n * (2 ^ m : ℕ) := by exact_mod_cast this
  calc _ ≤ (n * (2 ^ m : ℕ) : ℚ) * pow2 (lastDigit p qmin x) := mul_le_mul_of_nonneg_right h' hp.le
    _ = _ := by ring

theorem le_rne_of_multiple {x : ℚ} {e : ℤ} (n : ℤ) (he : lastDigit p qmin x ≤ e) (h : n * pow2 e ≤ x) : n * pow2 e ≤ rne p qmin x := by
  have := rne_le_of_multiple (p := p) (qmin := qmin) (x := -x) (e := e) (-n) (by unfold lastDigit at *; rwa [ilog2_neg])
    (by push_cast; linarith)
  rw [rne_neg] at this
  push_cast at this
  linarith

theorem rne_mono_pos (hp0 : 0 < p) {x y : ℚ} (hx : 0 < x) (h : x ≤ y) : rne p qmin x ≤ rne p qmin y := by
  have hy : 0 < y := lt_of_lt_of_le hx h
  have hl : ilog2 x ≤ ilog2 y := ilog2_mono hx.ne' (by rw [abs_of_pos hx, abs_of_pos hy]; exact h)
  have hd : lastDigit p qmin x ≤ lastDigit p qmin y := by unfold lastDigit; omega
  rcases eq_or_lt_of_le hd with he | hlt
  · unfold rne
    rw [he]
    refine mul_le_mul_of_nonneg_right ?_ (pow2_pos _).le
    exact_mod_cast roundEven_mono (div_le_div_of_nonneg_right h (pow2_pos _).le)
  · have h1 : ilog2 x < ilog2 y := by unfold lastDigit at hlt; omega
    have hyq : lastDigit p qmin y = ilog2 y - ((p : ℤ) - 1) := by unfold lastDigit at hlt ⊢; omega
    have hxs := (ilog2_spec hx.ne').2
    rw [abs_of_pos hx] at hxs
    have hpl : pow2 (ilog2 x + 1) ≤ pow2 (ilog2 y) := pow2_le (by omega)
    have hyl := (ilog2_spec hy.ne').1
    rw [abs_of_pos hy] at hyl
    have a := rne_le_of_multiple (p := p) (qmin := qmin) (x := x) (e := ilog2 y) 1 (by omega) (by push_cast; linarith)
    have b := le_rne_of_multiple (p := p) (qmin := qmin) (x := y) (e := ilog2 y) 1 (by omega) (by push_cast; linarith)
    linarith

/-- Rounding is monotone. -/
theorem rne_mono (hp0 : 0 < p) {x y : ℚ} (h : x ≤ y) : rne p qmin x ≤ rne p qmin y := by
  rcases lt_trichotomy x 0 with hx | rfl | hx
  · rcases le_or_gt 0 y with hy | hy
    · have a : 0 ≤ rne p qmin (-x) := rne_nonneg (by linarith)
      rw [rne_neg] at a
      have b : 0 ≤ rne p qmin y := rne_nonneg hy
      linarith
    · have := rne_mono_pos (p := p) (qmin := qmin) hp0 (show 0 < -y by linarith) (show -y ≤ -x by linarith)
      rw [rne_neg, rne_neg] at this
      linarith
  · rw [rne_zero]; exact rne_nonneg h
  · exact rne_mono_pos hp0 hx h

/-- Numbers with at most `p` digits are left alone. -/
theorem rne_exact (hp0 : 0 < p) {k e : ℤ} (hk : |k| ≤ 2 ^ p) (he : qmin ≤ e) : rne p qmin (k * pow2 e) = k * pow2 e := by
  rcases eq_or_ne k 0 with rfl | hk0
  · simp [rne_zero]
  have hne : (k : ℚ) * pow2 e ≠ 0 := mul_ne_zero (by exact_mod_cast hk0) (pow2_ne e)
  obtain ⟨s1, s2⟩ := ilog2_spec hne
  have habs : |(k : ℚ) * pow2 e| = |k| * pow2 e := by rw [abs_mul, abs_of_pos (pow2_pos e), Int.cast_abs]
  have key : ∃ n : ℤ, (k : ℚ) * pow2 e = n * pow2 (lastDigit p qmin (k * pow2 e)) := by
    have hle : pow2 (ilog2 ((k : ℚ) * pow2 e)) ≤ pow2 (p + e) := by
      refine s1.trans ?_
      rw [habs, pow2_add, pow2_nat]
      refine mul_le_mul_of_nonneg_right ?_ (pow2_pos e).le
      exact_mod_cast hk
    have hle' : ilog2 ((k : ℚ) * pow2 e) ≤ p + e := by
      by_contra hc
      exact absurd hle (not_le.2 (pow2_lt_iff.2 (not_le.1 hc)))
    rcases eq_or_lt_of_le hle' with heq | hlt
    · -- a power of two
      have hkk : |k| = 2 ^ p := by
        rw [heq, habs, pow2_add, pow2_nat] at s1
        have := le_of_mul_le_mul_right s1 (pow2_pos e)
        have : (2 : ℤ) ^ p ≤ |k| := by exact_mod_cast this
        omega
      have hl : lastDigit p qmin ((k : ℚ) * pow2 e) = e + 1 := by unfold lastDigit; omega
      obtain ⟨p', rfl⟩ : ∃ p', p = p' + 1 := ⟨p - 1, by omega⟩
      have h2 : pow2 (e + 1) = 2 * pow2 e := by
        rw [pow2_add]
        have := pow2_nat 1
        push_cast at this
        rw [this]; ring
      rw [hl, h2]
      rcases abs_choice k with hs | hs
      · refine ⟨2 ^ p', ?_⟩
        rw [hs] at hkk
        rw [hkk]
        push_cast
        ring
      · refine ⟨-2 ^ p', ?_⟩
        rw [hs] at hkk
        have : k = -2 ^ (p' + 1) := by omega
        rw [this]
        push_cast
        ring
    · have hl : lastDigit p qmin ((k : ℚ) * pow2 e) ≤ e := by unfold lastDigit; omega
      obtain ⟨n, -, hn⟩ := pow2_sub_nat hl
      refine ⟨k * (2 ^ n : ℕ), ?_⟩
      conv_lhs => rw [hn]
      push_cast
      ring
  obtain ⟨n, hn⟩ := key
  unfold rne
  have : (k : ℚ) * pow2 e / pow2 (lastDigit p qmin (k * pow2 e)) = n := by
    rw [div_eq_iff (pow2_ne _)]; exact hn
  rw [this, roundEven_int]
  exact hn.symm

/-- Results have at most `p` digits. -/
theorem rne_form (x : ℚ) : ∃ k e : ℤ, |k| ≤ 2 ^ p ∧ qmin ≤ e ∧ rne p qmin x = k * pow2 e := by
  refine ⟨roundEven (x / pow2 (lastDigit p qmin x)), lastDigit p qmin x, ?_, by unfold lastDigit; omega, rfl⟩
  rcases eq_or_ne x 0 with rfl | hx
  · rw [zero_div]
    have := roundEven_int 0
    rw [Int.cast_zero] at this
    rw [this]; simp
  have hb : |x / pow2 (lastDigit p qmin x)| ≤ ((2 ^ p : ℤ) : ℚ) := by
    rw [abs_div, abs_of_pos (pow2_pos _), div_le_iff₀ (pow2_pos _)]
    have h1 := (ilog2_spec hx).2
    have h2 : pow2 (ilog2 x + 1) ≤ pow2 (p + lastDigit p qmin x) := pow2_le (by unfold lastDigit; omega)
    rw [pow2_add p, pow2_nat] at h2
    push_cast at h2 ⊢
    linarith
  obtain ⟨b1, b2⟩ := abs_le.1 hb
  rw [abs_le]
  refine ⟨?_, roundEven_le b2⟩
  refine le_roundEven ?_
  push_cast at b1 ⊢
  exact b1

theorem rne_idem (hp0 : 0 < p) (x : ℚ) : rne p qmin (rne p qmin x) = rne p qmin x := by
  obtain ⟨k, e, hk, he, h⟩ := rne_form (p := p) (qmin := qmin) x
  rw [h]
  exact rne_exact hp0 hk he

theorem rne_grid (x : ℚ) : ∃ k : ℤ, rne p qmin x = k * pow2 qmin := by
  obtain ⟨k, e, -, he, h⟩ := rne_form (p := p) (qmin := qmin) x
  obtain ⟨n, -, hn⟩ := pow2_sub_nat he
  refine ⟨k * (2 ^ n : ℕ), ?_⟩
  rw [h, hn]
  push_cast
  ring

/-- The error is at most half of the last digit. -/
theorem rne_error (x : ℚ) : |rne p qmin x - x| ≤ pow2 (lastDigit p qmin x) / 2 := by
  have h := roundEven_close (x / pow2 (lastDigit p qmin x))
  have hp := pow2_pos (lastDigit p qmin x)
  unfold rne
  set q := x / pow2 (lastDigit p qmin x) with hq
  have hx : x = q * pow2 (lastDigit p qmin x) := by rw [hq, div_mul_cancel₀ _ hp.ne']
  have e : (roundEven q : ℚ) * pow2 (lastDigit p qmin x) - x = ((roundEven q : ℚ) - q) * pow2 (lastDigit p qmin x) := by
    rw [sub_mul, ← hx]
  rw [e, abs_mul, abs_of_pos hp]
  calc |(roundEven q : ℚ) - q| * pow2 (lastDigit p qmin x) ≤ 1 / 2 * pow2 (lastDigit p qmin x) :=
        mul_le_mul_of_nonneg_right h hp.le
    _ = _ := by ring

/-- The relative error of normal results is at most half a unit in the last place. -/
theorem rne_relative {x : ℚ} (h : pow2 (qmin + p - 1) ≤ |x|) : |rne p qmin x - x| ≤ pow2 (-p) * |x| := by
  have hx : x ≠ 0 := by
    rintro rfl
    rw [abs_zero] at h
    exact absurd (pow2_pos _) (not_lt.2 h)
  obtain ⟨s1, s2⟩ := ilog2_spec hx
  have hi : qmin + p - 1 ≤ ilog2 x := by
    by_contra hc
    have := pow2_le (show ilog2 x + 1 ≤ qmin + p - 1 by omega)
    linarith
  have hl : lastDigit p qmin x = ilog2 x + 1 + -p := by unfold lastDigit; omega
  refine (rne_error x).trans ?_
  rw [hl, pow2_add, pow2_add]
  have h1 : pow2 1 = 2 := by have := pow2_nat 1; push_cast at this; rw [this]
  rw [h1]
  have := mul_le_mul_of_nonneg_left s1 (pow2_pos (-p)).le
  linarith

theorem roundEven_nearest (q : ℚ) (n : ℤ) : |(roundEven q : ℚ) - q| ≤ |(n : ℚ) - q| := by
  rcases eq_or_ne n (roundEven q) with h | h
  · rw [h]
  · have h1 := roundEven_close q
    have h2 : (1 : ℚ) ≤ |(n : ℚ) - roundEven q| := by
      have : (1 : ℤ) ≤ |n - roundEven q| := Int.one_le_abs (sub_ne_zero.2 h)
      exact_mod_cast this
    have h3 : |(n : ℚ) - roundEven q| ≤ |(n : ℚ) - q| + |q - roundEven q| := abs_sub_le _ _ _
    rw [abs_sub_comm q] at h3
    linarith

/-- Rounding picks a nearest number among those with at most `p` digits. -/
theorem rne_nearest (hp0 : 0 < p) (x : ℚ) {k e : ℤ} (hk : |k| ≤ 2 ^ p) (he : qmin ≤ e) : |rne p qmin x - x| ≤ |(k : ℚ) * pow2 e - x| := by
  have hmul : ∀ n : ℤ, |rne p qmin x - x| ≤ |(n : ℚ) * pow2 (lastDigit p qmin x) - x| := by
    intro n
    have hp := pow2_pos (lastDigit p qmin x)
    unfold rne
    set q := x / pow2 (lastDigit p qmin x) with hq
    have hx : x = q * pow2 (lastDigit p qmin x) := by rw [hq, div_mul_cancel₀ _ hp.ne']
    have e1 : ∀ m : ℤ, |(m : ℚ) * pow2 (lastDigit p qmin x) - x| = |(m : ℚ) - q| * pow2 (lastDigit p qmin x) := by
      intro m
      rw [← abs_of_pos hp, ← abs_mul, abs_of_pos hp, sub_mul, ← hx]
    rw [e1, e1]
    exact mul_le_mul_of_nonneg_right (roundEven_nearest q n) hp.le
  rcases le_or_gt (lastDigit p qmin x) e with hle | hlt
  · obtain ⟨m, -, hm⟩ := pow2_sub_nat hle
    have := hmul (k * (2 ^ m : ℕ))
    have e2 : ((k * (2 ^ m : ℕ) : ℤ) : ℚ) * pow2 (lastDigit p qmin x) = k * pow2 e := by rw [hm]; push_cast; ring
    rw [e2] at this
    exact this
  · rcases eq_or_ne x 0 with rfl | hx
    · rw [rne_zero, sub_zero, abs_zero]; exact abs_nonneg _
    have hd : lastDigit p qmin x = ilog2 x - ((p : ℤ) - 1) := by unfold lastDigit at hlt ⊢; omega
    have hy : |(k : ℚ) * pow2 e| ≤ pow2 (ilog2 x) := by
      rw [abs_mul, abs_of_pos (pow2_pos e)]
      calc |(k : ℚ)| * pow2 e ≤ (2 ^ p : ℕ) * pow2 e := mul_le_mul_of_nonneg_right (by exact_mod_cast hk) (pow2_pos e).le
        _ = pow2 (p + e) := by rw [pow2_add, pow2_nat]
        _ ≤ _ := pow2_le (by omega)
    have hlow := (ilog2_spec hx).1
    obtain ⟨m, -, hm⟩ := pow2_sub_nat (show lastDigit p qmin x ≤ ilog2 x by omega)
    have hclose : |rne p qmin x - x| ≤ |x| - pow2 (ilog2 x) := by
      rcases abs_choice x with hs | hs
      · have := hmul (2 ^ m : ℕ)
        have e2 : (((2 ^ m : ℕ) : ℤ) : ℚ) * pow2 (lastDigit p qmin x) = pow2 (ilog2 x) := by rw [hm]; push_cast; ring
        rw [e2] at this
        rw [hs] at hlow ⊢
        rwa [abs_sub_comm (pow2 _), abs_of_nonneg (by linarith : 0 ≤ x - pow2 (ilog2 x))] at this
      · have := hmul (-(2 ^ m : ℕ))
        have e2 : ((-((2 ^ m : ℕ) : ℤ) : ℤ) : ℚ) * pow2 (lastDigit p qmin x) = -pow2 (ilog2 x) := by rw [hm]; push_cast; ring
        rw [e2] at this
        rw [hs] at hlow ⊢
        rw [abs_of_nonneg (by linarith : 0 ≤ -pow2 (ilog2 x) - x)] at this
        linarith
    have h3 := abs_sub_abs_le_abs_sub x ((k : ℚ) * pow2 e)
    rw [abs_sub_comm x] at h3
    linarith

/-- Between two neighbouring multiples of half of the smallest unit rounding is constant. -/
theorem rne_const (hp0 : 0 < p) {g : ℤ} (hg : g + 1 ≤ qmin) {a b : ℚ} (ha : 0 < a) (hab : a ≤ b)
    (hn : ∀ z : ℤ, ¬(a ≤ z * pow2 g ∧ z * pow2 g ≤ b)) : rne p qmin a = rne p qmin b := by
  have hb : 0 < b := lt_of_lt_of_le ha hab
  have hno : ∀ (z e : ℤ), g ≤ e → ¬(a ≤ z * pow2 e ∧ z * pow2 e ≤ b) := by
    intro z e he hc
    obtain ⟨n, -, hpw⟩ := pow2_sub_nat he
    refine hn (z * (2 ^ n : ℕ)) ?_
    have : ((z * (2 ^ n : ℕ) : ℤ) : ℚ) * pow2 g = z * pow2 e := by rw [hpw]; push_cast; ring
    rw [this]; exact hc
  have hl : ilog2 a ≤ ilog2 b := ilog2_mono ha.ne' (by rw [abs_of_pos ha, abs_of_pos hb]; exact hab)
  have hd : lastDigit p qmin a = lastDigit p qmin b := by
    by_contra hne
    have h1 : ilog2 a < ilog2 b := by unfold lastDigit at hne; omega
    have h2 : qmin < ilog2 b := by unfold lastDigit at hne; omega
    refine hno 1 (ilog2 b) (by omega) ?_
    have s1 := (ilog2_spec ha.ne').2
    have s2 := (ilog2_spec hb.ne').1
    rw [abs_of_pos ha] at s1
    rw [abs_of_pos hb] at s2
    have := pow2_le (show ilog2 a + 1 ≤ ilog2 b by omega)
    push_cast
    constructor <;> linarith
  unfold rne
  rw [hd]
  have hge : qmin ≤ lastDigit p qmin b := by unfold lastDigit; omega
  set e := lastDigit p qmin b
  have hpe := pow2_pos e
  have hm := roundEven_mono (div_le_div_of_nonneg_right hab hpe.le)
  rcases eq_or_lt_of_le hm with heq | hlt
  · rw [heq]
  · exfalso
    have c1 := abs_le.1 (roundEven_close (a / pow2 e))
    have c2 := abs_le.1 (roundEven_close (b / pow2 e))
    set n := roundEven (a / pow2 e)
    have hlt' : (n : ℚ) + 1 ≤ roundEven (b / pow2 e) := by exact_mod_cast hlt
    refine hno (2 * n + 1) (e - 1) (by omega) ?_
    have h2 : pow2 e = 2 * pow2 (e - 1) := by
      have h1 : pow2 (e - 1 + 1) = pow2 (e - 1) * pow2 1 := pow2_add _ _
      have h3 := pow2_nat 1
      push_cast at h3
      rw [h3, sub_add_cancel] at h1
      linarith
    have e1 : ((2 * n + 1 : ℤ) : ℚ) * pow2 (e - 1) = ((n : ℚ) + 1 / 2) * pow2 e := by rw [h2]; push_cast; ring
    rw [e1]
    constructor
    · rw [← div_le_iff₀ hpe]; linarith
    · rw [← le_div_iff₀ hpe]; linarith

/-- The rounded square root is the rounding of the root: it is at least the rounding of anything at most the root, and at most the
rounding of anything at least the root. -/
theorem sqrtRound_correct (hp0 : 0 < p) {q : ℚ} (h0 : 0 ≤ q) :
    (∀ a, 0 ≤ a → a * a ≤ q → rne p qmin a ≤ sqrtRound p qmin q) ∧ (∀ a, 0 ≤ a → q ≤ a * a → sqrtRound p qmin q ≤ rne p qmin a) := by
  unfold sqrtRound
  dsimp only
  have hT : 0 < pow2 (1 - qmin) := pow2_pos _
  have hg : pow2 (qmin - 1) * pow2 (1 - qmin) = 1 := by
    rw [← pow2_add, show qmin - 1 + (1 - qmin) = 0 by ring]
    simp [pow2]
  have hgp := pow2_pos (qmin - 1)
  generalize pow2 (1 - qmin) = T at hT hg
  have hn0 : 0 ≤ ⌊q * (T * T)⌋ := Int.floor_nonneg.2 (by positivity)
  set n := ⌊q * (T * T)⌋.toNat with hn
  have hnf : ((n : ℕ) : ℚ) = ((⌊q * (T * T)⌋ : ℤ) : ℚ) := by
    rw [hn]
    have : ((⌊q * (T * T)⌋.toNat : ℕ) : ℤ) = ⌊q * (T * T)⌋ := Int.toNat_of_nonneg hn0
    exact_mod_cast this
  have f1 : (n : ℚ) ≤ q * (T * T) := by rw [hnf]; exact Int.floor_le _
  have f2 : q * (T * T) < n + 1 := by rw [hnf]; exact Int.lt_floor_add_one _
  have s1 : ((Nat.sqrt n * Nat.sqrt n : ℕ) : ℚ) ≤ n := by exact_mod_cast Nat.sqrt_le n
  have s2 : (n : ℚ) + 1 ≤ ((Nat.sqrt n + 1) * (Nat.sqrt n + 1) : ℕ) := by exact_mod_cast Nat.lt_succ_sqrt n
  set s := Nat.sqrt n
  push_cast at s1 s2
  have hs0 : (0 : ℚ) ≤ s := by positivity
  split_ifs with hx
  · push_cast at hx
    have hroot : (s : ℚ) / T * (s / T) = q := by field_simp; linarith
    have hsT : 0 ≤ (s : ℚ) / T := by positivity
    refine ⟨fun a ha h => rne_mono hp0 ?_, fun a ha h => rne_mono hp0 ?_⟩
    · rw [← hroot] at h; exact (mul_self_le_mul_self_iff ha hsT).2 h
    · rw [← hroot] at h; exact (mul_self_le_mul_self_iff hsT ha).2 h
  · push_cast at hx
    have hlo : (s : ℚ) * s < q * (T * T) := lt_of_le_of_ne (s1.trans f1) hx
    have hhi : q * (T * T) < ((s : ℚ) + 1) * (s + 1) := lt_of_lt_of_le f2 s2
    push_cast
    set m := (2 * (s : ℚ) + 1) / (2 * T) with hm
    have hmT : m * T = s + 1 / 2 := by rw [hm]; field_simp
    have hm0 : 0 < m := by positivity
    -- nothing of the grid lies between numbers of the bracket
    have hgrid : ∀ a b : ℚ, (s : ℚ) < a * T → b * T < s + 1 → ∀ z : ℤ, ¬(a ≤ z * pow2 (qmin - 1) ∧ z * pow2 (qmin - 1) ≤ b) := by
      rintro a b h1 h2 z ⟨z1, z2⟩
      have e : (z : ℚ) * pow2 (qmin - 1) * T = z := by rw [mul_assoc, hg, mul_one]
      have a1 := mul_le_mul_of_nonneg_right z1 hT.le
      have a2 := mul_le_mul_of_nonneg_right z2 hT.le
      rw [e] at a1 a2
      have b1 : ((s : ℤ) : ℚ) < z := by push_cast; linarith
      have b2 : (z : ℚ) < ((s + 1 : ℤ) : ℚ) := by push_cast; linarith
      have c1 : (s : ℤ) < z := by exact_mod_cast b1
      have c2 : z < (s : ℤ) + 1 := by exact_mod_cast b2
      omega
    refine ⟨fun a ha h => ?_, fun a ha h => ?_⟩
    · rcases le_or_gt a m with hle | hgt
      · exact rne_mono hp0 hle
      · have hb : a * T < s + 1 := by
          by_contra hc
          have hc := not_lt.1 hc
          have := mul_le_mul hc hc (by positivity) (by positivity)
          have h' := mul_le_mul_of_nonneg_right h (show 0 ≤ T * T by positivity)
          linarith
        exact (rne_const hp0 (by omega) hm0 hgt.le (hgrid m a (by linarith) hb)).ge
    · rcases le_or_gt m a with hle | hgt
      · exact rne_mono hp0 hle
      · have hb : (s : ℚ) < a * T := by
          by_contra hc
          have hc := not_lt.1 hc
          have := mul_le_mul hc hc (by positivity) hs0
          have h' := mul_le_mul_of_nonneg_right h (show 0 ≤ T * T by positivity)
          linarith
        have ha' : 0 < a := by
          rcases eq_or_lt_of_le ha with rfl | h
          · simp at hb; linarith
          · exact h
        exact (rne_const hp0 (by omega) ha' hgt.le (hgrid a m hb (by linarith))).ge

end

/-! ### Overflow -/

theorem overflow_mono {L : ℚ} (_hL : 0 < L) {a b : ℚ} (h : a ≤ b) : Fl.le (overflow L a) (overflow L b) = true := by
  unfold overflow
  split_ifs <;> simp [Fl.le] <;> linarith

theorem overflow_fin {L a b : ℚ} (h : overflow L a = .fin b) : b = a ∧ a < L ∧ -L < a := by
  unfold overflow at h
  split_ifs at h with h1 h2
  exact ⟨(Fl.fin.inj h).symm, not_le.1 h1, not_le.1 h2⟩

theorem overflow_of_lt {L a : ℚ} (h : |a| < L) : overflow L a = .fin a := by
  obtain ⟨h1, h2⟩ := abs_lt.1 h
  unfold overflow
  rw [if_neg (not_le.2 h2), if_neg (not_le.2 h1)]

theorem overflow_neg {L : ℚ} (hL : 0 < L) (a : ℚ) : overflow L (-a) = Fl.neg (overflow L a) := by
  unfold overflow
  split_ifs <;> first | rfl | (exfalso; linarith)

theorem faithful_of {p : ℕ} {qmin : ℤ} (hp0 : 0 < p) {L : ℚ} (hL : 0 < L) (s : ℚ → Fl) :
    Arith.Faithful ⟨fun x => overflow L (rne p qmin x), s⟩ where
  mono a b h := overflow_mono hL (rne_mono hp0 h)
  idem a b h := by
    obtain ⟨rfl, h1, h2⟩ := overflow_fin h
    show overflow L (rne p qmin (rne p qmin a)) = _
    rw [rne_idem hp0]
    exact h
  zero := by
    show overflow L (rne p qmin 0) = _
    rw [rne_zero]
    exact overflow_of_lt (by simpa using hL)

/-- `float` arithmetic is as assumed elsewhere. -/
theorem float32_faithful : float32.Faithful := faithful_of (by norm_num) (by norm_num) _

theorem float64_faithful : float64.Faithful := faithful_of (by norm_num) (by norm_num) _

theorem float32_odd (q : ℚ) : float32.rnd (-q) = Fl.neg (float32.rnd q) := by
  show overflow (2 ^ 128) (rne 24 (-149) (-q)) = _
  rw [rne_neg, overflow_neg (by norm_num)]
  rfl

end Vox.Ieee
