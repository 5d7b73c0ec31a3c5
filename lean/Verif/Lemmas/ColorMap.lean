/-
Colour maps.
-/
import Verif.Model.ColorMap
import Verif.Spec.ColorMap
import Verif.Lemmas.Tsdf
import Mathlib.Tactic.Linarith
import Mathlib.Tactic.Ring
import Mathlib.Tactic.FieldSimp
import Mathlib.Tactic.IntervalCases
import Mathlib.Algebra.Order.Group.MinMax

namespace Vox.ColorMap

open Spec

theorem byte_toNat {k : ℤ} (h0 : 0 ≤ k) (h1 : k ≤ 255) : ((BitVec.ofInt 8 k).toNat : ℤ) = k := by
  rw [BitVec.toNat_ofInt]
  omega

theorem toByte_ok {q : ℚ} (h0 : 0 ≤ q) (h1 : q ≤ 255) : ∃ b, toByte q = .ok b ∧ (b.toNat : ℤ) = ⌊q⌋ := by
  refine ⟨BitVec.ofInt 8 ⌊q⌋, ?_, byte_toNat (Int.floor_nonneg.2 h0) ?_⟩
  · unfold toByte
    rw [if_pos ⟨by linarith, by linarith⟩, if_pos h0]
  · have := (Int.floor_le q).trans h1
    exact_mod_cast this

theorem floor_two {h : ℚ} {i : ℤ} (h0 : 0 ≤ h) (h6 : h ≤ 6) (hi : ⌊h⌋ = i) : 0 ≤ i ∧ i ≤ 6 := by
  subst hi
  refine ⟨Int.floor_nonneg.2 h0, ?_⟩
  have := (Int.floor_le h).trans h6
  exact_mod_cast this

/-- Values of the triple in the seven cases. -/
theorem switch_cases (rnd : ℚ → ℚ) {i : ℤ} (h0 : 0 ≤ i) (h6 : i ≤ 6) (v m n : ℚ) :
    ∃ σ : Fin 6, switch rnd i v m n = match σ with
      | 0 => ⟨rnd (255 * v), rnd (255 * n), rnd (255 * m)⟩
      | 1 => ⟨rnd (255 * n), rnd (255 * v), rnd (255 * m)⟩
      | 2 => ⟨rnd (255 * m), rnd (255 * v), rnd (255 * n)⟩
      | 3 => ⟨rnd (255 * m), rnd (255 * n), rnd (255 * v)⟩
      | 4 => ⟨rnd (255 * n), rnd (255 * m), rnd (255 * v)⟩
      | 5 => ⟨rnd (255 * v), rnd (255 * m), rnd (255 * n)⟩ := by
  interval_cases i
  · exact ⟨0, rfl⟩
  · exact ⟨1, rfl⟩
  · exact ⟨2, rfl⟩
  · exact ⟨3, rfl⟩
  · exact ⟨4, rfl⟩
  · exact ⟨5, rfl⟩
  · exact ⟨0, rfl⟩

section rounded
variable {rnd : ℚ → ℚ} (mono : Monotone rnd) (hint : ∀ k : ℕ, k ≤ 255 → rnd k = k)
include mono hint

theorem rnd_unit {q : ℚ} (h0 : 0 ≤ q) (h1 : q ≤ 1) : 0 ≤ rnd q ∧ rnd q ≤ 1 := by
  have a := mono h0
  have b := mono h1
  have z := hint 0 (by omega)
  have o := hint 1 (by omega)
  push_cast at z o
  rw [z] at a
  rw [o] at b
  exact ⟨a, b⟩

theorem rnd_le {q : ℚ} {k : ℕ} (hk : k ≤ 255) (h0 : 0 ≤ q) (h1 : q ≤ k) : 0 ≤ rnd q ∧ rnd q ≤ k := by
  have a := mono h0
  have b := mono h1
  have z := hint 0 (by omega)
  push_cast at z
  rw [z] at a
  rw [hint k hk] at b
  exact ⟨a, b⟩

theorem rainbow_rounded (h : ℚ) : ∃ c, rainbow rnd h = .ok c ∧ c.a = 255 ∧ (c.r = 255 ∨ c.g = 255 ∨ c.b = 255) ∧ (c.r = 0 ∨ c.g = 0 ∨ c.b = 0) := by
  have z : rnd 0 = 0 := by simpa using hint 0 (by omega)
  have o : rnd 1 = 1 := by simpa using hint 1 (by omega)
  have t : rnd 255 = 255 := by simpa using hint 255 (by omega)
  have f0 := Int.floor_le h
  have f1 := Int.lt_floor_add_one h
  obtain ⟨a0, a1⟩ := rnd_unit mono hint (q := h - ⌊h⌋) (by linarith) (by linarith)
  obtain ⟨b0, b1⟩ := rnd_le mono hint (q := rnd (h - ⌊h⌋) * 6) (k := 6) (by omega) (by linarith) (by push_cast; linarith)
  push_cast at b1
  set h' := rnd (rnd (h - ⌊h⌋) * 6) with hh
  have g0 := Int.floor_le h'
  have g1 := Int.lt_floor_add_one h'
  obtain ⟨c0, c1⟩ := rnd_unit mono hint (q := h' - ⌊h'⌋) (by linarith) (by linarith)
  have hf : 0 ≤ ramp rnd h' ∧ ramp rnd h' ≤ 1 := by
    unfold ramp
    split_ifs
    · exact rnd_unit mono hint (by linarith) (by linarith)
    · exact ⟨c0, c1⟩
  obtain ⟨i0, i6⟩ := floor_two b0 b1 rfl
  obtain ⟨d0, d1⟩ := rnd_unit mono hint (q := 1 * ramp rnd h') (by linarith) (by linarith)
  obtain ⟨e0, e1⟩ := rnd_unit mono hint (q := 1 - rnd (1 * ramp rnd h')) (by linarith) (by linarith)
  obtain ⟨n0, n1⟩ := rnd_unit mono hint (q := 1 * rnd (1 - rnd (1 * ramp rnd h'))) (by linarith) (by linarith)
  set n := rnd (1 * rnd (1 - rnd (1 * ramp rnd h'))) with hn
  obtain ⟨k0, k1⟩ := rnd_le mono hint (q := 255 * n) (k := 255) (by omega) (by linarith) (by push_cast; linarith)
  obtain ⟨σ, hσ⟩ := switch_cases rnd i0 i6 1 0 n
  simp only [mul_one, mul_zero, z, t] at hσ
  obtain ⟨B, hB, _⟩ := toByte_ok k0 (by simpa using k1)
  have h255 : toByte 255 = .ok 255 := by decide +kernel
  have h000 : toByte 0 = .ok 0 := by decide +kernel
  have hm : rnd (1 * rnd (1 - 1)) = 0 := by rw [sub_self, z, mul_zero, z]
  have hr : rainbow rnd h = (do
      let r ← toByte (switch rnd ⌊h'⌋ 1 0 n).x
      let g ← toByte (switch rnd ⌊h'⌋ 1 0 n).y
      let b ← toByte (switch rnd ⌊h'⌋ 1 0 n).z
      pure ⟨r, g, b, 255⟩) := by
    unfold rainbow
    simp only [← hh, ← hn, hm]
  rw [hr, hσ]
  match σ with
  | 0 => exact ⟨⟨255, B, 0, 255⟩, by simp only [h255, h000, hB]; rfl, rfl, Or.inl rfl, Or.inr (Or.inr rfl)⟩
  | 1 => exact ⟨⟨B, 255, 0, 255⟩, by simp only [h255, h000, hB]; rfl, rfl, Or.inr (Or.inl rfl), Or.inr (Or.inr rfl)⟩
  | 2 => exact ⟨⟨0, 255, B, 255⟩, by simp only [h255, h000, hB]; rfl, rfl, Or.inr (Or.inl rfl), Or.inl rfl⟩
  | 3 => exact ⟨⟨0, B, 255, 255⟩, by simp only [h255, h000, hB]; rfl, rfl, Or.inr (Or.inr rfl), Or.inl rfl⟩
  | 4 => exact ⟨⟨B, 0, 255, 255⟩, by simp only [h255, h000, hB]; rfl, rfl, Or.inr (Or.inr rfl), Or.inr (Or.inl rfl)⟩
  | 5 => exact ⟨⟨255, 0, B, 255⟩, by simp only [h255, h000, hB]; rfl, rfl, Or.inl rfl, Or.inr (Or.inl rfl)⟩

theorem normalized_some {lo hi : ℚ} (hne : rnd (hi - lo) ≠ 0) (value : ℚ) : ∃ x, normalized rnd lo hi value = some x ∧ 0 ≤ x ∧ x ≤ 1 := by
  have z : rnd 0 = 0 := by simpa using hint 0 (by omega)
  refine ⟨_, by unfold normalized; rw [if_neg hne], ?_⟩
  rcases lt_trichotomy lo hi with h | h | h
  · have p0 : 0 ≤ rnd (hi - lo) := by
      have := mono (show (0 : ℚ) ≤ hi - lo by linarith)
      rwa [z] at this
    have p : 0 < rnd (hi - lo) := lt_of_le_of_ne p0 (Ne.symm hne)
    have x0 : lo ≤ min hi (max lo value) := le_min h.le (le_max_left _ _)
    have x1 : min hi (max lo value) ≤ hi := min_le_left _ _
    have y0 : 0 ≤ rnd (min hi (max lo value) - lo) := by
      have := mono (show (0 : ℚ) ≤ min hi (max lo value) - lo by linarith)
      rwa [z] at this
    have y1 : rnd (min hi (max lo value) - lo) ≤ rnd (hi - lo) := mono (by linarith)
    exact rnd_unit mono hint (div_nonneg y0 p0) ((div_le_one p).2 y1)
  · rw [h, sub_self, z] at hne
    exact absurd rfl hne
  · have : min hi (max lo value) = hi := min_eq_left (h.le.trans (le_max_left _ _))
    rw [this, div_self hne]
    have o : rnd 1 = 1 := by simpa using hint 1 (by omega)
    rw [o]
    exact ⟨zero_le_one, le_refl _⟩

end rounded

/-! ### The exact rainbow -/

theorem clamp01_one {x : ℚ} (h : 1 ≤ x) : clamp01 x = 1 := by
  unfold clamp01
  rw [min_eq_left h]
  exact max_eq_right zero_le_one

theorem clamp01_zero {x : ℚ} (h : x ≤ 0) : clamp01 x = 0 := by
  unfold clamp01
  rw [min_eq_right (h.trans zero_le_one)]
  exact max_eq_left h

theorem clamp01_mid {x : ℚ} (h0 : 0 ≤ x) (h1 : x ≤ 1) : clamp01 x = x := by
  unfold clamp01
  rw [min_eq_right h1, max_eq_right h0]

theorem clamp01_range (x : ℚ) : 0 ≤ clamp01 x ∧ clamp01 x ≤ 1 :=
  ⟨le_max_left _ _, max_le zero_le_one (min_le_left _ _)⟩

theorem clamp01_lip (x y : ℚ) : |clamp01 x - clamp01 y| ≤ |x - y| := by
  unfold clamp01
  have h1 := abs_max_sub_max_le_max 0 (min 1 x) 0 (min 1 y)
  have h2 := abs_min_sub_min_le_max 1 x 1 y
  rw [sub_self, abs_zero] at h1 h2
  exact h1.trans (max_le (abs_nonneg _) (h2.trans (max_le (abs_nonneg _) (le_refl _))))

theorem hue_lip (x y : ℚ) : |hueRed x - hueRed y| ≤ 6 * |x - y| ∧ |hueGreen x - hueGreen y| ≤ 6 * |x - y| ∧ |hueBlue x - hueBlue y| ≤ 6 * |x - y| := by
  have key : ∀ k : ℚ, |(|6 * x - k|) - (|6 * y - k|)| ≤ 6 * |x - y| := by
    intro k
    refine (abs_abs_sub_abs_le_abs_sub _ _).trans ?_
    rw [show 6 * x - k - (6 * y - k) = 6 * (x - y) by ring, abs_mul]
    norm_num
  refine ⟨?_, ?_, ?_⟩
  · refine (clamp01_lip _ _).trans ?_
    have := key 3
    rwa [show |6 * x - 3| - 1 - (|6 * y - 3| - 1) = |6 * x - 3| - |6 * y - 3| by ring]
  · refine (clamp01_lip _ _).trans ?_
    have := key 2
    rwa [show 2 - |6 * x - 2| - (2 - |6 * y - 2|) = -(|6 * x - 2| - |6 * y - 2|) by ring, abs_neg]
  · refine (clamp01_lip _ _).trans ?_
    have := key 4
    rwa [show 2 - |6 * x - 4| - (2 - |6 * y - 4|) = -(|6 * x - 4| - |6 * y - 4|) by ring, abs_neg]

/-- On the circle. -/
theorem circle_lip {T : ℚ → ℚ} (hT : ∀ x y, |T x - T y| ≤ 6 * |x - y|) (hw : T 0 = T 1) (h h' : ℚ) :
    |T (h - ⌊h⌋) - T (h' - ⌊h'⌋)| ≤ 6 * |h - h'| := by
  wlog hle : h ≤ h' generalizing h h'
  · rw [abs_sub_comm, abs_sub_comm h]
    exact this h' h (le_of_not_ge hle)
  have f0 := Int.floor_le h
  have f1 := Int.lt_floor_add_one h
  have g0 := Int.floor_le h'
  have g1 := Int.lt_floor_add_one h'
  rcases (Int.floor_le_floor hle).eq_or_lt with e | e
  · have := hT (h - ⌊h⌋) (h' - ⌊h'⌋)
    rw [e] at this ⊢
    rwa [show h - (⌊h'⌋ : ℚ) - (h' - ⌊h'⌋) = h - h' by ring] at this
  · have e' : (⌊h⌋ : ℚ) + 1 ≤ ⌊h'⌋ := by exact_mod_cast e
    have a := hT (h - ⌊h⌋) 1
    have b := hT 0 (h' - ⌊h'⌋)
    have tri := abs_sub_le (T (h - ⌊h⌋)) (T 1) (T (h' - ⌊h'⌋))
    rw [← hw] at tri a
    rw [abs_of_nonpos (show h - (⌊h⌋ : ℚ) - 1 ≤ 0 by linarith)] at a
    rw [abs_of_nonpos (show 0 - (h' - (⌊h'⌋ : ℚ)) ≤ 0 by linarith)] at b
    rw [abs_of_nonpos (show h - h' ≤ 0 by linarith)]
    linarith

theorem hue_wrap : hueRed 0 = hueRed 1 ∧ hueGreen 0 = hueGreen 1 ∧ hueBlue 0 = hueBlue 1 := by
  refine ⟨by decide +kernel, by decide +kernel, by decide +kernel⟩

/-- Fractional parts in the closed unit interval have the hue of the number. -/
theorem hue_frac {x : ℚ} (h0 : 0 ≤ x) (h1 : x ≤ 1) : hueRed (x - ⌊x⌋) = hueRed x ∧ hueGreen (x - ⌊x⌋) = hueGreen x ∧ hueBlue (x - ⌊x⌋) = hueBlue x := by
  rcases lt_or_eq_of_le h1 with h | rfl
  · rw [Int.floor_eq_zero_iff.2 ⟨h0, h⟩]; simp
  · rw [Int.floor_one, Int.cast_one, sub_self]; exact hue_wrap

theorem switch_hue {x : ℚ} (h0 : 0 ≤ x) (h1 : x < 1) :
    switch id ⌊x * 6⌋ 1 0 (1 - ramp id (x * 6)) = ⟨255 * hueRed x, 255 * hueGreen x, 255 * hueBlue x⟩ := by
  obtain ⟨i, hi⟩ : ∃ i, ⌊x * 6⌋ = i := ⟨_, rfl⟩
  obtain ⟨i0, _⟩ := floor_two (by linarith) (by linarith) hi
  have hlo := Int.floor_le (x * 6)
  have hhi := Int.lt_floor_add_one (x * 6)
  have i5 : i ≤ 5 := by
    rw [← hi, ← Int.lt_add_one_iff, Int.floor_lt]
    push_cast
    linarith
  unfold ramp hueRed hueGreen hueBlue
  rw [hi] at hlo hhi ⊢
  interval_cases i <;> norm_num at hlo hhi <;> norm_num [switch]
  · rw [abs_of_nonpos (by linarith), abs_of_nonpos (by linarith), abs_of_nonpos (by linarith), clamp01_one (by linarith), clamp01_mid (by linarith) (by linarith),
      clamp01_zero (by linarith)]
    exact ⟨by ring, by ring, by ring⟩
  · rw [abs_of_nonpos (by linarith), abs_of_nonpos (by linarith), abs_of_nonpos (by linarith), clamp01_mid (by linarith) (by linarith), clamp01_one (by linarith),
      clamp01_zero (by linarith)]
    exact ⟨by ring, by ring, by ring⟩
  · rw [abs_of_nonpos (by linarith), abs_of_nonneg (by linarith), abs_of_nonpos (by linarith), clamp01_zero (by linarith), clamp01_one (by linarith),
      clamp01_mid (by linarith) (by linarith)]
    exact ⟨by ring, by ring, by ring⟩
  · rw [abs_of_nonneg (by linarith), abs_of_nonneg (by linarith), abs_of_nonpos (by linarith), clamp01_zero (by linarith),
      clamp01_mid (by linarith) (by linarith), clamp01_one (by linarith)]
    exact ⟨by ring, by ring, by ring⟩
  · rw [abs_of_nonneg (by linarith), abs_of_nonneg (by linarith), abs_of_nonneg (by linarith), clamp01_mid (by linarith) (by linarith), clamp01_zero (by linarith),
      clamp01_one (by linarith)]
    exact ⟨by ring, by ring, by ring⟩
  · rw [abs_of_nonneg (by linarith), abs_of_nonneg (by linarith), abs_of_nonneg (by linarith), clamp01_one (by linarith), clamp01_zero (by linarith),
      clamp01_mid (by linarith) (by linarith)]
    exact ⟨by ring, by ring, by ring⟩

theorem rainbow_exact (h : ℚ) : ∃ c, rainbow id h = .ok c ∧ c.a = 255 ∧ (c.r.toNat : ℤ) = ⌊255 * hueRed (h - ⌊h⌋)⌋ ∧
    (c.g.toNat : ℤ) = ⌊255 * hueGreen (h - ⌊h⌋)⌋ ∧ (c.b.toNat : ℤ) = ⌊255 * hueBlue (h - ⌊h⌋)⌋ := by
  have f0 := Int.floor_le h
  have f1 := Int.lt_floor_add_one h
  have e := switch_hue (x := h - ⌊h⌋) (by linarith) (by linarith)
  have u : ∀ y : ℚ, 0 ≤ 255 * clamp01 y ∧ 255 * clamp01 y ≤ 255 := fun y => by
    obtain ⟨a, b⟩ := clamp01_range y
    constructor <;> linarith
  obtain ⟨r, hr, hr'⟩ := toByte_ok (u (|6 * (h - ⌊h⌋) - 3| - 1)).1 (u _).2
  obtain ⟨g, hg, hg'⟩ := toByte_ok (u (2 - |6 * (h - ⌊h⌋) - 2|)).1 (u _).2
  obtain ⟨b, hb, hb'⟩ := toByte_ok (u (2 - |6 * (h - ⌊h⌋) - 4|)).1 (u _).2
  refine ⟨⟨r, g, b, 255⟩, ?_, rfl, hr', hg', hb'⟩
  unfold rainbow
  simp only [id, one_mul, sub_self]
  change (switch id _ 1 0 _) = _ at e
  simp only [ramp, id] at e ⊢
  rw [e]
  simp only [hueRed, hueGreen, hueBlue, hr, hg, hb]
  rfl

theorem floor_lip (a b : ℚ) : |((⌊a⌋ - ⌊b⌋ : ℤ) : ℚ)| ≤ |a - b| + 1 := by
  have a0 := Int.floor_le a
  have a1 := Int.lt_floor_add_one a
  have b0 := Int.floor_le b
  have b1 := Int.lt_floor_add_one b
  have k1 := le_abs_self (a - b)
  have k2 := neg_abs_le (a - b)
  push_cast
  rw [abs_le]
  constructor <;> linarith

theorem round_near (q : ℚ) : |(roundHalfAway q : ℚ) - q| ≤ 1 / 2 := by
  unfold roundHalfAway
  rw [abs_le]
  split_ifs with h
  · have a0 := Int.floor_le (q + 1 / 2)
    have a1 := Int.lt_floor_add_one (q + 1 / 2)
    constructor <;> linarith
  · have a0 := Int.le_ceil (q - 1 / 2)
    have a1 := Int.ceil_lt_add_one (q - 1 / 2)
    constructor <;> linarith

theorem round_range {q : ℚ} (h0 : 0 ≤ q) (h1 : q ≤ 255) : 0 ≤ roundHalfAway q ∧ roundHalfAway q ≤ 255 := by
  unfold roundHalfAway
  rw [if_pos h0]
  refine ⟨Int.floor_nonneg.2 (by linarith), ?_⟩
  rw [← Int.lt_add_one_iff, Int.floor_lt]
  push_cast
  linarith

theorem gray_ok {rnd : ℚ → ℚ} {h : ℚ} (h0 : 0 ≤ rnd (h * 255)) (h1 : rnd (h * 255) ≤ 255) :
    ∃ b, gray rnd h = .ok ⟨b, b, b, 255⟩ ∧ (b.toNat : ℤ) = roundHalfAway (rnd (h * 255)) := by
  obtain ⟨r0, r1⟩ := round_range h0 h1
  obtain ⟨b, hb, hb'⟩ := toByte_ok (q := (roundHalfAway (rnd (h * 255)) : ℚ)) (by exact_mod_cast r0) (by exact_mod_cast r1)
  refine ⟨b, by unfold gray; rw [hb]; rfl, by rw [hb', Int.floor_intCast]⟩

/-! ### Identifiers -/

theorem odd_over_pow {a b : ℕ} {e f : ℕ} (h : (2 * a + 1) * 2 ^ (f + 1) = (2 * b + 1) * 2 ^ (e + 1)) : e = f ∧ a = b := by
  have key : ∀ {a b e f : ℕ}, (2 * a + 1) * 2 ^ (f + 1) = (2 * b + 1) * 2 ^ (e + 1) → e ≤ f → e = f ∧ a = b := by
    intro a b e f h hle
    obtain ⟨k, rfl⟩ := Nat.exists_eq_add_of_le hle
    have h' : ((2 * a + 1) * 2 ^ k) * 2 ^ (e + 1) = (2 * b + 1) * 2 ^ (e + 1) := by
      rw [← h, mul_assoc, ← pow_add]
      congr 2
      omega
    have h2 := Nat.eq_of_mul_eq_mul_right (Nat.pow_pos (by omega)) h'
    cases k with
    | zero => exact ⟨rfl, by simpa using h2⟩
    | succ k =>
      have : (2 * a + 1) * 2 ^ (k + 1) = 2 * ((2 * a + 1) * 2 ^ k) := by rw [pow_succ]; ring
      omega
  rcases Nat.le_total e f with hl | hl
  · exact key h hl
  · obtain ⟨h1, h2⟩ := key h.symm hl
    exact ⟨h1.symm, h2.symm⟩

/-- The offset of a revolution in units of the spacing of identifiers: an odd number over a power of two, or zero. -/
def offsetOf (r : ℕ) : ℚ := if r = 0 then 0 else ((2 * (r - 2 ^ Nat.log2 r) + 1 : ℕ) : ℚ) / 2 ^ (Nat.log2 r + 1)

theorem offsetOf_range (r : ℕ) : 0 ≤ offsetOf r ∧ offsetOf r < 1 := by
  unfold offsetOf
  split_ifs with h
  · exact ⟨le_refl _, one_pos⟩
  · have hp : (0 : ℚ) < 2 ^ (Nat.log2 r + 1) := by positivity
    refine ⟨div_nonneg (Nat.cast_nonneg _) hp.le, ?_⟩
    rw [div_lt_one hp]
    have h1 : r < 2 ^ (Nat.log2 r + 1) := Nat.lt_log2_self
    have h2 : 2 ^ Nat.log2 r ≤ r := Nat.log2_self_le h
    have h3 : 2 * (r - 2 ^ Nat.log2 r) + 1 < 2 ^ (Nat.log2 r + 1) := by
      rw [pow_succ] at h1 ⊢
      omega
    exact_mod_cast h3

theorem offsetOf_inj {r r' : ℕ} (h : offsetOf r = offsetOf r') : r = r' := by
  have hp : ∀ k : ℕ, (0 : ℚ) < 2 ^ (k + 1) := fun k => by positivity
  have pos : ∀ r : ℕ, r ≠ 0 → offsetOf r ≠ 0 := by
    intro r hr
    unfold offsetOf
    rw [if_neg hr]
    exact (div_pos (by exact_mod_cast Nat.succ_pos _) (hp _)).ne'
  by_cases h0 : r = 0
  · by_contra hne
    have : offsetOf r = 0 := by unfold offsetOf; rw [if_pos h0]
    exact pos r' (fun e => hne (h0.trans e.symm)) (h ▸ this)
  by_cases h1 : r' = 0
  · have : offsetOf r' = 0 := by unfold offsetOf; rw [if_pos h1]
    exact absurd (h.trans this) (pos r h0)
  unfold offsetOf at h
  rw [if_neg h0, if_neg h1, div_eq_div_iff (hp _).ne' (hp _).ne'] at h
  have h' : (2 * (r - 2 ^ Nat.log2 r) + 1) * 2 ^ (Nat.log2 r' + 1) = (2 * (r' - 2 ^ Nat.log2 r') + 1) * 2 ^ (Nat.log2 r + 1) := by exact_mod_cast h
  obtain ⟨e, f⟩ := odd_over_pow h'
  have a := Nat.log2_self_le h0
  have b := Nat.log2_self_le h1
  rw [e] at f a
  omega

theorem exponentialHue_eq {items : ℕ} (hi : 0 < items) (value : ℕ) :
    exponentialHue items value = .ok (((value % items : ℕ) + offsetOf (value / items)) / items) := by
  have hq : (0 : ℚ) < items := by exact_mod_cast hi
  have hfl : ⌊(value : ℚ) / items⌋ = ((value / items : ℕ) : ℤ) := by
    have := Rat.floor_intCast_div_natCast (value : ℤ) items
    push_cast at this ⊢
    exact this
  have hprog : fmod1 ((value : ℚ) / items) = ((value % items : ℕ) : ℚ) / items := by
    unfold fmod1
    rw [hfl]
    have h := Nat.div_add_mod value items
    have h' : (value : ℚ) = items * (value / items : ℕ) + (value % items : ℕ) := by exact_mod_cast h.symm
    rw [Int.cast_natCast, eq_div_iff hq.ne', sub_mul, div_mul_cancel₀ _ hq.ne']
    linarith
  unfold exponentialHue
  rw [if_neg hi.ne', hprog, hfl]
  simp only [Int.toNat_natCast]
  by_cases hc : items < value + 1
  · have hr : value / items ≠ 0 := (Nat.div_pos (by omega) hi).ne'
    rw [if_pos hc]
    congr 1
    unfold offsetOf
    rw [if_neg hr]
    have hp : (0 : ℚ) < 2 ^ (value / items).log2 := by positivity
    rw [pow_succ]
    push_cast
    field_simp
  · have hr : value / items = 0 := Nat.div_eq_of_lt (by omega)
    rw [if_neg hc, hr]
    congr 1
    unfold offsetOf
    rw [if_pos rfl]
    simp

end Vox.ColorMap
