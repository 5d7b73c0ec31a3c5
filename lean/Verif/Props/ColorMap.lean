/-
Property C69: colour maps.
-/
import Verif.Lemmas.ColorMap
import Verif.Lemmas.RoundError

namespace Vox.ColorMap

open Spec Tsdf

/-- **C69**, rainbow, any rounding: every finite input gives a defined, opaque, fully saturated colour (one channel full, one empty),
for every monotone rounding that keeps the integers up to 255; in particular the default case of the `switch` is unreachable. -/
theorem C69_rainbow_defined {rnd : ℚ → ℚ} (mono : Monotone rnd) (hint : ∀ k : ℕ, k ≤ 255 → rnd k = k) (h : ℚ) :
    ∃ c, rainbow rnd h = .ok c ∧ c.a = 255 ∧ (c.r = 255 ∨ c.g = 255 ∨ c.b = 255) ∧ (c.r = 0 ∨ c.g = 0 ∨ c.b = 0) :=
  rainbow_rounded mono hint h

/-- A rounding to multiples of 1/1024, under which `h - floor(h)` may become 1 (the `case 6`). -/
def grid (q : ℚ) : ℚ := ⌊q * 1024 + 1 / 2⌋ / 1024

theorem grid_mono : Monotone grid := by
  intro a b h
  unfold grid
  have : (⌊a * 1024 + 1 / 2⌋ : ℚ) ≤ ⌊b * 1024 + 1 / 2⌋ := by exact_mod_cast Int.floor_le_floor (by linarith)
  linarith

theorem grid_int (k : ℕ) : grid k = k := by
  unfold grid
  have : ⌊(k : ℚ) * 1024 + 1 / 2⌋ = (k : ℤ) * 1024 := by
    rw [Int.floor_eq_iff]
    push_cast
    constructor <;> linarith
  rw [this]
  push_cast
  linarith

example : Monotone grid ∧ (∀ k : ℕ, k ≤ 255 → grid k = k) ∧ grid (grid (-1 / 10000 - ⌊(-1 / 10000 : ℚ)⌋) * 6) = 6 ∧
    rainbow grid (-1 / 10000) = .ok ⟨255, 0, 0, 255⟩ :=
  ⟨grid_mono, fun k _ => grid_int k, by decide +kernel, by decide +kernel⟩

/-- **C69**, rainbow, exact: the colour of every input is the hue of its fractional part; inputs outside [0, 1] wrap. -/
theorem C69_rainbow_hue (h : ℚ) : ∃ c, rainbow id h = .ok c ∧ c.a = 255 ∧ (c.r.toNat : ℤ) = ⌊255 * hueRed (h - ⌊h⌋)⌋ ∧
    (c.g.toNat : ℤ) = ⌊255 * hueGreen (h - ⌊h⌋)⌋ ∧ (c.b.toNat : ℤ) = ⌊255 * hueBlue (h - ⌊h⌋)⌋ :=
  rainbow_exact h

example : rainbow id (1 / 2) = .ok ⟨0, 255, 255, 255⟩ ∧ rainbow id (5 / 12) = .ok ⟨0, 255, 127, 255⟩ ∧ rainbow id (29 / 12) = .ok ⟨0, 255, 127, 255⟩ := by
  refine ⟨by decide +kernel, by decide +kernel, by decide +kernel⟩

/-- **C69**, continuity: for any two inputs the channels differ by at most one count more than six times 255 times the distance of the
inputs; so they differ by at most one count across segment borders and across the wrap. -/
theorem C69_rainbow_continuous (h h' : ℚ) : ∃ c c', rainbow id h = .ok c ∧ rainbow id h' = .ok c' ∧
    |((c.r.toNat : ℤ) - c'.r.toNat : ℚ)| ≤ 1530 * |h - h'| + 1 ∧ |((c.g.toNat : ℤ) - c'.g.toNat : ℚ)| ≤ 1530 * |h - h'| + 1 ∧
    |((c.b.toNat : ℤ) - c'.b.toNat : ℚ)| ≤ 1530 * |h - h'| + 1 ∧ c.a = c'.a := by
  obtain ⟨c, e, ea, er, eg, eb⟩ := rainbow_exact h
  obtain ⟨c', e', ea', er', eg', eb'⟩ := rainbow_exact h'
  have key : ∀ {T : ℚ → ℚ}, (∀ x y, |T x - T y| ≤ 6 * |x - y|) → T 0 = T 1 → ∀ {m n : ℕ}, (m : ℤ) = ⌊255 * T (h - ⌊h⌋)⌋ → (n : ℤ) = ⌊255 * T (h' - ⌊h'⌋)⌋ →
      |((m : ℤ) - n : ℚ)| ≤ 1530 * |h - h'| + 1 := by
    intro T hT hw m n hm hn
    have h1 := circle_lip hT hw h h'
    have h2 := floor_lip (255 * T (h - ⌊h⌋)) (255 * T (h' - ⌊h'⌋))
    rw [← hm, ← hn, ← mul_sub, abs_mul, abs_of_pos (show (0 : ℚ) < 255 by norm_num)] at h2
    push_cast at h2 ⊢
    linarith
  exact ⟨c, c', e, e', key (fun x y => (hue_lip x y).1) hue_wrap.1 er er', key (fun x y => (hue_lip x y).2.1) hue_wrap.2.1 eg eg',
    key (fun x y => (hue_lip x y).2.2) hue_wrap.2.2 eb eb', by rw [ea, ea']⟩

/-! ## Grey -/

/-- **C69**, grey: inputs in [0, 1] give the nearest grey value. Full claim: inputs outside wrap or clamp. -/
theorem C69_gray_partial {rnd : ℚ → ℚ} (mono : Monotone rnd) (hint : ∀ k : ℕ, k ≤ 255 → rnd k = k) {h : ℚ} (h0 : 0 ≤ h) (h1 : h ≤ 1) :
    ∃ b, gray rnd h = .ok ⟨b, b, b, 255⟩ ∧ |(b.toNat : ℚ) - rnd (h * 255)| ≤ 1 / 2 := by
  obtain ⟨k0, k1⟩ := rnd_le mono hint (q := h * 255) (k := 255) (by omega) (by linarith) (by push_cast; linarith)
  obtain ⟨b, hb, hb'⟩ := gray_ok k0 (by simpa using k1)
  refine ⟨b, hb, ?_⟩
  have := round_near (rnd (h * 255))
  rw [← hb'] at this
  exact_mod_cast this

example : gray id (1 / 3) = .ok ⟨85, 85, 85, 255⟩ := by decide +kernel

/-- **C69** is violated: outside (-1/510, 511/510) the conversion to a byte is undefined; the evaluation node passes such values
(voxblox_ros/src/voxblox_eval.cc:203, distance divided by the truncation distance). -/
theorem C69_gray_undefined {h : ℚ} (hh : h * 255 ≤ -1 / 2 ∨ 255 + 1 / 2 ≤ h * 255) : gray id h = .ub := by
  unfold gray toByte
  simp only [id]
  rw [if_neg]
  · rfl
  rintro ⟨a, b⟩
  rcases hh with hh | hh
  · unfold roundHalfAway at a
    rw [if_neg (by linarith)] at a
    have a' : -1 < ⌈h * 255 - 1 / 2⌉ := by exact_mod_cast a
    rw [Int.lt_ceil] at a'
    push_cast at a'
    linarith
  · unfold roundHalfAway at b
    rw [if_pos (by linarith)] at b
    have b' : ⌊h * 255 + 1 / 2⌋ < 256 := by exact_mod_cast b
    rw [Int.floor_lt] at b'
    push_cast at b'
    linarith

example : (255 : ℚ) + 1 / 2 ≤ (3 / 2) * 255 := by norm_num

/-! ## Maps of a range of values -/

/-- The four clamped maps give a defined colour for every value and every pair of different limits, for every pair of roundings. -/
theorem C69_clamped_defined {rnd rnd32 : ℚ → ℚ} (mono : Monotone rnd) (hint : ∀ k : ℕ, k ≤ 255 → rnd k = k) (mono32 : Monotone rnd32)
    (hint32 : ∀ k : ℕ, k ≤ 255 → rnd32 k = k) {lo hi : ℚ} (hne : rnd32 (hi - lo) ≠ 0) (value : ℚ) :
    (∃ b, grayscale rnd rnd32 lo hi value = .ok ⟨b, b, b, 255⟩) ∧ (∃ b, inverseGrayscale rnd rnd32 lo hi value = .ok ⟨b, b, b, 255⟩) ∧
    (∃ c, rainbowMap rnd rnd32 lo hi value = .ok c ∧ c.a = 255) ∧ ∃ c, inverseRainbowMap rnd rnd32 lo hi value = .ok c ∧ c.a = 255 := by
  obtain ⟨x, hx, x0, x1⟩ := normalized_some mono32 hint32 hne value
  obtain ⟨y0, y1⟩ := rnd_unit mono hint (q := 1 - x) (by linarith) (by linarith)
  refine ⟨?_, ?_, ?_, ?_⟩
  · obtain ⟨b, hb, _⟩ := C69_gray_partial mono hint x0 x1
    exact ⟨b, by unfold grayscale; rw [hx]; exact hb⟩
  · obtain ⟨b, hb, _⟩ := C69_gray_partial mono hint y0 y1
    exact ⟨b, by unfold inverseGrayscale; rw [hx]; exact hb⟩
  · obtain ⟨c, hc, ha, _⟩ := rainbow_rounded mono hint x
    exact ⟨c, by unfold rainbowMap; rw [hx]; exact hc, ha⟩
  · obtain ⟨c, hc, ha, _⟩ := rainbow_rounded mono hint (rnd (1 - x))
    exact ⟨c, by unfold inverseRainbowMap; rw [hx]; exact hc, ha⟩

example : grid (3 - 1) ≠ 0 ∧ grayscale grid grid 1 3 7 = .ok ⟨255, 255, 255, 255⟩ ∧ inverseGrayscale grid grid 1 3 2 = .ok ⟨128, 128, 128, 255⟩ := by
  refine ⟨by decide +kernel, by decide +kernel, by decide +kernel⟩

/-- The grey map is monotone in the value (exact arithmetic, limits in order) and reaches black and white at the limits and beyond. -/
theorem C69_grayscale_monotone {lo hi : ℚ} (hlt : lo < hi) {v w : ℚ} (hvw : v ≤ w) :
    ∃ a b, grayscale id id lo hi v = .ok ⟨a, a, a, 255⟩ ∧ grayscale id id lo hi w = .ok ⟨b, b, b, 255⟩ ∧ a.toNat ≤ b.toNat ∧
      (v ≤ lo → a = 0) ∧ (hi ≤ w → b = 255) := by
  have hne : hi - lo ≠ 0 := by linarith
  have hpos : 0 < hi - lo := by linarith
  have main : ∀ v, ∃ a, grayscale id id lo hi v = .ok ⟨a, a, a, 255⟩ ∧ (a.toNat : ℤ) = roundHalfAway ((min hi (max lo v) - lo) / (hi - lo) * 255) := by
    intro v
    have x0 : lo ≤ min hi (max lo v) := le_min hlt.le (le_max_left _ _)
    have x1 : min hi (max lo v) ≤ hi := min_le_left _ _
    have y0 : 0 ≤ (min hi (max lo v) - lo) / (hi - lo) := div_nonneg (by linarith) hpos.le
    have y1 : (min hi (max lo v) - lo) / (hi - lo) ≤ 1 := (div_le_one hpos).2 (by linarith)
    obtain ⟨b, hb, hb'⟩ := gray_ok (rnd := id) (h := (min hi (max lo v) - lo) / (hi - lo)) (by simp only [id]; linarith) (by simp only [id]; linarith)
    refine ⟨b, ?_, hb'⟩
    unfold grayscale normalized
    simp only [id]
    rw [if_neg hne]
    exact hb
  obtain ⟨a, ha, ha'⟩ := main v
  obtain ⟨b, hb, hb'⟩ := main w
  have x0 : lo ≤ min hi (max lo v) := le_min hlt.le (le_max_left _ _)
  have x0' : lo ≤ min hi (max lo w) := le_min hlt.le (le_max_left _ _)
  have hmono : min hi (max lo v) ≤ min hi (max lo w) := min_le_min_left _ (max_le_max_left _ hvw)
  have hle : (min hi (max lo v) - lo) / (hi - lo) ≤ (min hi (max lo w) - lo) / (hi - lo) := div_le_div_of_nonneg_right (by linarith) hpos.le
  have n0 : 0 ≤ (min hi (max lo v) - lo) / (hi - lo) := div_nonneg (by linarith) hpos.le
  refine ⟨a, b, ha, hb, ?_, ?_, ?_⟩
  · have : (a.toNat : ℤ) ≤ b.toNat := by
      rw [ha', hb']
      unfold roundHalfAway
      rw [if_pos (by linarith), if_pos (by linarith)]
      exact Int.floor_le_floor (by linarith)
    exact_mod_cast this
  · intro h
    have e : min hi (max lo v) = lo := by rw [max_eq_left h, min_eq_right hlt.le]
    rw [e, sub_self, zero_div, zero_mul] at ha'
    have : a.toNat = 0 := by exact_mod_cast ha'.trans (by decide +kernel : roundHalfAway 0 = 0)
    exact BitVec.eq_of_toNat_eq this
  · intro h
    have e : min hi (max lo w) = hi := min_eq_left (h.trans (le_max_right _ _))
    rw [e, div_self hne, one_mul] at hb'
    have : b.toNat = 255 := by exact_mod_cast hb'.trans (by decide +kernel : roundHalfAway 255 = 255)
    exact BitVec.eq_of_toNat_eq this

example : (0 : ℚ) < 5 ∧ grayscale id id 0 5 1 = .ok ⟨51, 51, 51, 255⟩ := ⟨by norm_num, by decide +kernel⟩

/-- The rainbow map shows a value at the hue of its place between the limits, the inverse map at the hue of its place from the upper limit, and
the inverse grey map is the grey of that place (exact arithmetic). -/
theorem C69_clamped_hues {lo hi : ℚ} (hlt : lo < hi) (v : ℚ) : ∃ c c' b, rainbowMap id id lo hi v = .ok c ∧ inverseRainbowMap id id lo hi v = .ok c' ∧
    inverseGrayscale id id lo hi v = .ok ⟨b, b, b, 255⟩ ∧ ((c.r.toNat : ℤ) = ⌊255 * hueRed (clamp01 ((v - lo) / (hi - lo)))⌋ ∧
    (c.g.toNat : ℤ) = ⌊255 * hueGreen (clamp01 ((v - lo) / (hi - lo)))⌋ ∧ (c.b.toNat : ℤ) = ⌊255 * hueBlue (clamp01 ((v - lo) / (hi - lo)))⌋) ∧
    ((c'.r.toNat : ℤ) = ⌊255 * hueRed (clamp01 ((hi - v) / (hi - lo)))⌋ ∧ (c'.g.toNat : ℤ) = ⌊255 * hueGreen (clamp01 ((hi - v) / (hi - lo)))⌋ ∧
    (c'.b.toNat : ℤ) = ⌊255 * hueBlue (clamp01 ((hi - v) / (hi - lo)))⌋) ∧ |(b.toNat : ℚ) - 255 * clamp01 ((hi - v) / (hi - lo))| ≤ 1 / 2 := by
  have hne : hi - lo ≠ 0 := by linarith
  have hpos : 0 < hi - lo := by linarith
  have place : (min hi (max lo v) - lo) / (hi - lo) = clamp01 ((v - lo) / (hi - lo)) := by
    rcases le_total v lo with a | a
    · rw [max_eq_left a, min_eq_right hlt.le, sub_self, zero_div, clamp01_zero (div_nonpos_of_nonpos_of_nonneg (by linarith) hpos.le)]
    rcases le_total hi v with b | b
    · rw [max_eq_right a, min_eq_left b, div_self hne, clamp01_one ((one_le_div hpos).2 (by linarith))]
    · rw [max_eq_right a, min_eq_right b, clamp01_mid (div_nonneg (by linarith) hpos.le) ((div_le_one hpos).2 (by linarith))]
  have flip : 1 - clamp01 ((v - lo) / (hi - lo)) = clamp01 ((hi - v) / (hi - lo)) := by
    have e : (hi - v) / (hi - lo) = 1 - (v - lo) / (hi - lo) := by rw [eq_sub_iff_add_eq, ← add_div, div_eq_one_iff_eq hne]; ring
    rw [e]
    generalize (v - lo) / (hi - lo) = t
    rcases le_total t 0 with a | a
    · rw [clamp01_zero a, clamp01_one (by linarith), sub_zero]
    rcases le_total 1 t with b | b
    · rw [clamp01_one b, clamp01_zero (by linarith), sub_self]
    · rw [clamp01_mid a b, clamp01_mid (by linarith) (by linarith)]
  have hn : normalized id lo hi v = some (clamp01 ((v - lo) / (hi - lo))) := by
    unfold normalized
    simp only [id]
    rw [if_neg hne, place]
  have u : ∀ t : ℚ, 0 ≤ clamp01 t ∧ clamp01 t ≤ 1 := fun t => ⟨le_max_left _ _, max_le (by norm_num) (min_le_left _ _)⟩
  obtain ⟨c, hc, -, hr, hg, hb⟩ := rainbow_exact (clamp01 ((v - lo) / (hi - lo)))
  obtain ⟨c', hc', -, hr', hg', hb'⟩ := rainbow_exact (clamp01 ((hi - v) / (hi - lo)))
  obtain ⟨b, hgray, hbr⟩ := C69_gray_partial (rnd := id) monotone_id (fun _ _ => rfl) (u ((hi - v) / (hi - lo))).1 (u ((hi - v) / (hi - lo))).2
  obtain ⟨f1, f2, f3⟩ := hue_frac (u ((v - lo) / (hi - lo))).1 (u _).2
  obtain ⟨g1, g2, g3⟩ := hue_frac (u ((hi - v) / (hi - lo))).1 (u _).2
  rw [f1] at hr; rw [f2] at hg; rw [f3] at hb
  rw [g1] at hr'; rw [g2] at hg'; rw [g3] at hb'
  refine ⟨c, c', b, ?_, ?_, ?_, ⟨hr, hg, hb⟩, ⟨hr', hg', hb'⟩, by rw [mul_comm]; exact hbr⟩
  · unfold rainbowMap; rw [hn]; exact hc
  · unfold inverseRainbowMap; rw [hn]; simp only [id]; rw [flip]; exact hc'
  · unfold inverseGrayscale; rw [hn]; simp only [id]; rw [flip]; exact hgray

example : (1 : ℚ) < 5 ∧ rainbowMap id id 1 5 2 = .ok ⟨127, 255, 0, 255⟩ ∧ inverseRainbowMap id id 1 5 2 = .ok ⟨127, 0, 255, 255⟩ ∧
    inverseGrayscale id id 1 5 2 = .ok ⟨191, 191, 191, 255⟩ := ⟨by norm_num, by decide +kernel, by decide +kernel, by decide +kernel⟩

/-- **C69**, violated at the limits: the rainbow maps do not tell the lowest value from the highest, nor values beyond; all are red. -/
theorem C69_ends_violated {lo hi v w : ℚ} (hlt : lo < hi) (hv : v ≤ lo) (hw : hi ≤ w) : rainbowMap id id lo hi v = .ok ⟨255, 0, 0, 255⟩ ∧
    rainbowMap id id lo hi w = .ok ⟨255, 0, 0, 255⟩ ∧ inverseRainbowMap id id lo hi v = .ok ⟨255, 0, 0, 255⟩ ∧
    inverseRainbowMap id id lo hi w = .ok ⟨255, 0, 0, 255⟩ := by
  have hne : hi - lo ≠ 0 := by linarith
  have r0 : rainbow id 0 = .ok ⟨255, 0, 0, 255⟩ := by decide +kernel
  have r1 : rainbow id 1 = .ok ⟨255, 0, 0, 255⟩ := by decide +kernel
  have n0 : normalized id lo hi v = some 0 := by
    unfold normalized
    simp only [id]
    rw [if_neg hne, max_eq_left hv, min_eq_right hlt.le, sub_self, zero_div]
  have n1 : normalized id lo hi w = some 1 := by
    unfold normalized
    simp only [id]
    rw [if_neg hne, max_eq_right (hlt.le.trans hw), min_eq_left hw, div_self hne]
  unfold rainbowMap inverseRainbowMap
  rw [n0, n1]
  simp only [id, sub_zero, sub_self]
  exact ⟨r0, r1, r1, r0⟩

example : (0 : ℚ) < 3 ∧ (-1 : ℚ) ≤ 0 ∧ (3 : ℚ) ≤ 7 ∧ rainbowMap id id 0 3 1 ≠ .ok ⟨255, 0, 0, 255⟩ := ⟨by norm_num, by norm_num, by norm_num, by decide +kernel⟩

/-- Equal limits divide zero by zero, and the conversion of NaN is undefined, in all five maps. -/
theorem C69_equal_limits (rnd : ℚ → ℚ) (A : Arith) (l value : ℚ) : grayscale rnd id l l value = .ub ∧ inverseGrayscale rnd id l l value = .ub ∧
    rainbowMap rnd id l l value = .ub ∧ inverseRainbowMap rnd id l l value = .ub ∧ ironbow A id l l value = .ub := by
  have : normalized id l l value = none := by
    unfold normalized
    simp
  unfold grayscale inverseGrayscale rainbowMap inverseRainbowMap ironbow
  rw [this]
  exact ⟨rfl, rfl, rfl, rfl, rfl⟩

/-- The arithmetic of the blend: `float`, or any with a small relative error. -/
def BlendArith (A : Arith) : Prop := A = Ieee.float32 ∨ ∃ d, RelErr A d ∧ 0 ≤ d ∧ d ≤ 1 / 4096

theorem BlendArith.exact (sq : ℚ → Fl) : BlendArith (Arith.exact sq) := .inr ⟨0, relErr_exact _, le_rfl, by norm_num⟩

theorem BlendArith.blend {A : Arith} (h : BlendArith A) {w1 w2 : ℚ} (h1 : 0 ≤ w1) (h2 : 0 ≤ w2) (hlo : 1 / 8 ≤ w1 + w2) (hhi : w1 + w2 ≤ 2) (c1 c2 : Color) :
    ∃ c, Tsdf.blend A c1 (.fin w1) c2 (.fin w2) = .ok c ∧ ColorBetween c c1 c2 := by
  rcases h with rfl | ⟨d, hA, hd0, hd⟩
  · exact RoundErr.blend32 h1 h2 (le_trans (by norm_num) hlo) (le_trans hhi (by norm_num)) c1 c2
  · exact blend_between hA hd0 hd h1 h2 (by linarith) c1 c2

theorem ironbow_at {A : Arith} (hA : BlendArith A) {rnd32 : ℚ → ℚ} (mono32 : Monotone rnd32)
    (hint32 : ∀ k : ℕ, k ≤ 255 → rnd32 k = k) (h8 : rnd32 (1 / 8) = 1 / 8) {lo hi : ℚ} (hne : rnd32 (hi - lo) ≠ 0) (value : ℚ) :
    ∃ k : ℕ, k < 5 ∧ ∃ c1 c2 c x, normalized rnd32 lo hi value = some x ∧ (k : ℤ) = ⌊4 * x⌋ ∧ palette[k]? = some c1 ∧ palette[k + 1]? = some c2 ∧
      ironbow A rnd32 lo hi value = .ok c ∧ ColorBetween c c1 c2 := by
  obtain ⟨x, hx, x0, x1⟩ := normalized_some mono32 hint32 hne value
  have hinc : increment = 1 / 4 := by decide +kernel
  have f0 := Int.floor_le (x / increment)
  have f1 := Int.lt_floor_add_one (x / increment)
  have e : x / increment = 4 * x := by rw [hinc]; ring
  have i0 : 0 ≤ ⌊x / increment⌋ := Int.floor_nonneg.2 (by rw [e]; linarith)
  have i4 : ⌊x / increment⌋ ≤ 4 := by
    rw [← Int.lt_add_one_iff, Int.floor_lt, e]
    push_cast
    linarith
  obtain ⟨k, hk⟩ : ∃ k : ℕ, ⌊x / increment⌋ = k := ⟨_, (Int.toNat_of_nonneg i0).symm⟩
  have hk5 : k < 5 := by omega
  have hp : ∀ j : ℕ, j < 6 → ∃ c, palette[j]? = some c ∧ paletteAt j = .ok c := by
    intro j hj
    have : j < palette.length := hj
    refine ⟨palette[j], List.getElem?_eq_getElem this, ?_⟩
    unfold paletteAt
    rw [if_neg (by omega), Int.toNat_natCast, List.getElem?_eq_getElem this]
  obtain ⟨c1, p1, q1⟩ := hp k (by omega)
  obtain ⟨c2, p2, q2⟩ := hp (k + 1) (by omega)
  rw [hk] at f0 f1
  rw [e] at f0 f1
  push_cast at f0 f1
  have a0 : 0 ≤ increment * ((k : ℤ) + 1) - x := by rw [hinc]; push_cast; linarith
  have a1 : increment * ((k : ℤ) + 1) - x ≤ 1 := by rw [hinc]; push_cast; linarith
  have b0 : 0 ≤ x - increment * (k : ℤ) := by rw [hinc]; push_cast; linarith
  have b1 : x - increment * (k : ℤ) ≤ 1 := by rw [hinc]; push_cast; linarith
  have hsum : 1 / 8 ≤ increment * ((k : ℤ) + 1) - x ∨ 1 / 8 ≤ x - increment * (k : ℤ) := by
    rw [hinc]
    by_contra hcon
    push Not at hcon
    obtain ⟨q1, q2⟩ := hcon
    push_cast at q1 q2
    linarith
  generalize hw1 : increment * ((k : ℤ) + 1) - x = w1 at a0 a1 hsum
  generalize hw2 : x - increment * (k : ℤ) = w2 at b0 b1 hsum
  have r0 : rnd32 0 = 0 := by simpa using hint32 0 (by norm_num)
  have r1 : rnd32 1 = 1 := by simpa using hint32 1 (by norm_num)
  have a0' := mono32 a0
  have a1' := mono32 a1
  have b0' := mono32 b0
  have b1' := mono32 b1
  rw [r0] at a0' b0'
  rw [r1] at a1' b1'
  have hsum' : 1 / 8 ≤ rnd32 w1 + rnd32 w2 := by
    rcases hsum with h | h
    · have := mono32 h
      rw [h8] at this
      linarith
    · have := mono32 h
      rw [h8] at this
      linarith
  obtain ⟨c, hc, hb⟩ := hA.blend a0' b0' hsum' (by linarith) c1 c2
  refine ⟨k, hk5, c1, c2, c, x, hx, by rw [← hk, e], p1, p2, ?_, hb⟩
  unfold ironbow
  rw [hx]
  simp only [hk, q1, Outcome.bind_ok]
  have q2' : paletteAt ((k : ℤ) + 1) = .ok c2 := by exact_mod_cast q2
  rw [q2', Outcome.bind_ok, hw1, hw2]
  exact hc

/-- **C69**, ironbow: for every value and pair of different limits the palette is not overrun and the colour lies between two neighbouring
palette entries, channel by channel. -/
theorem C69_ironbow {A : Arith} (hA : BlendArith A) {rnd32 : ℚ → ℚ} (mono32 : Monotone rnd32)
    (hint32 : ∀ k : ℕ, k ≤ 255 → rnd32 k = k) (h8 : rnd32 (1 / 8) = 1 / 8) {lo hi : ℚ} (hne : rnd32 (hi - lo) ≠ 0) (value : ℚ) :
    ∃ k < 5, ∃ c1 c2 c, palette[k]? = some c1 ∧ palette[k + 1]? = some c2 ∧ ironbow A rnd32 lo hi value = .ok c ∧ ColorBetween c c1 c2 := by
  obtain ⟨k, hk, c1, c2, c, x, _, _, h1, h2, h3, h4⟩ := ironbow_at hA mono32 hint32 h8 hne value
  exact ⟨k, hk, c1, c2, c, h1, h2, h3, h4⟩

example : BlendArith (Arith.exact fun _ => .nan) ∧ ironbow Ieee.float32 Ieee.rnd32 0 8 (1 / 10) = .ok ⟨7, 1, 7, 255⟩ ∧ ironbow (Arith.exact fun _ => .nan) id 0 8 1 = .ok ⟨73, 10, 73, 255⟩ ∧
    ironbow (Arith.exact fun _ => .nan) id 0 8 99 = .ok ⟨255, 255, 255, 255⟩ := ⟨.exact _, by decide +kernel, by decide +kernel, by decide +kernel⟩

/-- **C69**, ironbow gets brighter: of two values in different quarters of the range the larger one has at least as much red and green (weights exact up to the
arithmetic of the blend). -/
theorem C69_ironbow_brighter {A : Arith} (hA : BlendArith A) {lo hi : ℚ} (hlt : lo < hi) {v w : ℚ} {m : ℕ} (hm1 : 1 ≤ m) (hm4 : m ≤ 4)
    (hv : v < lo + m / 4 * (hi - lo)) (hw : lo + m / 4 * (hi - lo) ≤ w) :
    ∃ a b, ironbow A id lo hi v = .ok a ∧ ironbow A id lo hi w = .ok b ∧ a.r.toNat ≤ b.r.toNat ∧ a.g.toNat ≤ b.g.toNat := by
  have hne : id (hi - lo) ≠ 0 := by simp only [id]; linarith
  have hp : (0 : ℚ) < hi - lo := by linarith
  obtain ⟨k, hk, a1, a2, a, x, ex, ek, h1, h2, h3, h4⟩ := ironbow_at hA monotone_id (fun _ _ => rfl) rfl hne v
  obtain ⟨l, hl, b1, b2, b, y, ey, el, g1, g2, g3, g4⟩ := ironbow_at hA monotone_id (fun _ _ => rfl) rfl hne w
  refine ⟨a, b, h3, g3, ?_⟩
  have nx : x = (min hi (max lo v) - lo) / (hi - lo) := by
    unfold normalized at ex; rw [if_neg hne] at ex; exact (Option.some.inj ex).symm
  have ny : y = (min hi (max lo w) - lo) / (hi - lo) := by
    unfold normalized at ey; rw [if_neg hne] at ey; exact (Option.some.inj ey).symm
  have xm : x < m / 4 := by
    rw [nx, div_lt_iff₀ hp, sub_lt_iff_lt_add]
    refine lt_of_le_of_lt (min_le_right _ _) ?_
    rw [max_lt_iff]
    have : (0 : ℚ) < m / 4 * (hi - lo) := mul_pos (by have : (1 : ℚ) ≤ m := by exact_mod_cast hm1
                                                      linarith) hp
    constructor <;> linarith
  have ym : (m : ℚ) / 4 ≤ y := by
    rw [ny, le_div_iff₀ hp, le_sub_iff_add_le]
    refine le_min ?_ (le_trans (by linarith) (le_max_right _ _))
    have h4 : (m : ℚ) ≤ 4 := by exact_mod_cast hm4
    nlinarith
  have km : k < m := by
    have : (k : ℤ) < m := by
      rw [ek, Int.floor_lt]; push_cast; linarith
    exact_mod_cast this
  have ml : m ≤ l := by
    have : (m : ℤ) ≤ l := by
      rw [el, Int.le_floor]; push_cast; linarith
    exact_mod_cast this
  have tab : ∀ i : Fin 6, ∀ j : Fin 6, i ≤ j → ∀ c ∈ palette[i.1]?, ∀ c' ∈ palette[j.1]?, c.r.toNat ≤ c'.r.toNat ∧ c.g.toNat ≤ c'.g.toNat := by
    decide +kernel
  have t1 := tab ⟨k, by omega⟩ ⟨k + 1, by omega⟩ (by simp) a1 h1 a2 h2
  have t2 := tab ⟨k + 1, by omega⟩ ⟨l, by omega⟩ (by simp; omega) a2 h2 b1 g1
  have t3 := tab ⟨l, by omega⟩ ⟨l + 1, by omega⟩ (by simp) b1 g1 b2 g2
  obtain ⟨hr, hg, _, _⟩ := h4
  obtain ⟨gr, gg, _, _⟩ := g4
  unfold ChannelBetween at hr hg gr gg
  omega

example : (0 : ℚ) < 8 ∧ (1 : ℚ) < 0 + ((1 : ℕ) : ℚ) / 4 * (8 - 0) ∧ (0 : ℚ) + ((1 : ℕ) : ℚ) / 4 * (8 - 0) ≤ 5 ∧
    ironbow (Arith.exact fun _ => .nan) id 0 8 5 = .ok ⟨255, 184, 20, 255⟩ := ⟨by norm_num, by norm_num, by norm_num, by decide +kernel⟩

/-! ## Identifiers -/

/-- The identifier maps give a defined colour for every identifier, unless the base is zero. -/
theorem C69_ids_defined (base : ℚ) (hb : base ≠ 0) (items : ℕ) (hi : 0 < items) (value : ℕ) :
    (∃ h c, irrationalHue base value = .ok h ∧ rainbow id h = .ok c) ∧ ∃ h c, exponentialHue items value = .ok h ∧ rainbow id h = .ok c := by
  constructor
  · obtain ⟨h, hh⟩ : ∃ h, irrationalHue base value = .ok h := ⟨_, by unfold irrationalHue; rw [if_neg hb]⟩
    obtain ⟨c, hc, _⟩ := rainbow_exact h
    exact ⟨h, c, hh, hc⟩
  · obtain ⟨c, hc, _⟩ := rainbow_exact (((value % items : ℕ) + offsetOf (value / items)) / items)
    exact ⟨_, c, exponentialHue_eq hi value, hc⟩

example : exponentialHue 10 25 = .ok (21 / 40) := by decide +kernel

/-- The colour of an identifier in the irrational map is the hue of the identifier divided by the base, modulo whole revolutions, for bases of
either sign. -/
theorem C69_irrational_hue {base : ℚ} (hb : base ≠ 0) (value : ℕ) : ∃ h c, irrationalHue base value = .ok h ∧ |h| < 1 ∧ rainbow id h = .ok c ∧
    c.a = 255 ∧ (c.r.toNat : ℤ) = ⌊255 * hueRed (Int.fract (value / base))⌋ ∧ (c.g.toNat : ℤ) = ⌊255 * hueGreen (Int.fract (value / base))⌋ ∧
    (c.b.toNat : ℤ) = ⌊255 * hueBlue (Int.fract (value / base))⌋ := by
  obtain ⟨h, hh, h1, hf⟩ : ∃ h, irrationalHue base value = .ok h ∧ |h| < 1 ∧ h - ⌊h⌋ = Int.fract ((value : ℚ) / base) := by
    refine ⟨_, by unfold irrationalHue; rw [if_neg hb], ?_, ?_⟩
    · split_ifs
      · unfold fmod1
        exact abs_lt.2 ⟨by have := Int.floor_le ((value : ℚ) / base); linarith, by have := Int.lt_floor_add_one ((value : ℚ) / base); linarith⟩
      · unfold fmod1
        exact abs_lt.2 ⟨by have := Int.lt_floor_add_one (-((value : ℚ) / base)); linarith, by have := Int.floor_le (-((value : ℚ) / base)); linarith⟩
    · rw [← Int.fract]
      split_ifs
      · unfold fmod1
        rw [← Int.fract, Int.fract_fract]
      · unfold fmod1
        rw [show -(-((value : ℚ) / base) - (⌊-((value : ℚ) / base)⌋ : ℚ)) = (value : ℚ) / base + (⌊-((value : ℚ) / base)⌋ : ℤ) by ring]
        exact Int.fract_add_intCast _ _
  obtain ⟨c, hc, ha, hr, hg, hbl⟩ := rainbow_exact h
  rw [hf] at hr hg hbl
  exact ⟨h, c, hh, h1, hc, ha, hr, hg, hbl⟩

example : irrationalHue (7 / 2) 5 = .ok (3 / 7) ∧ irrationalHue (-7 / 2) 5 = .ok (-3 / 7) ∧ rainbow id (3 / 7) ≠ rainbow id (-3 / 7) := by decide +kernel

/-- Documented ("map unique IDs to unique colors"): different identifiers have different hues in [0, 1), for every number of items per
revolution (exact arithmetic). -/
theorem C69_ids_unique {items : ℕ} (hi : 0 < items) : ∃ hue : ℕ → ℚ, (∀ v, exponentialHue items v = .ok (hue v)) ∧ (∀ v, 0 ≤ hue v ∧ hue v < 1) ∧
    ∀ v w, hue v = hue w → v = w := by
  have hq : (0 : ℚ) < items := by exact_mod_cast hi
  refine ⟨_, exponentialHue_eq hi, fun v => ?_, fun v w h => ?_⟩
  · obtain ⟨o0, o1⟩ := offsetOf_range (v / items)
    have hm : v % items + 1 ≤ items := Nat.mod_lt v hi
    have hm' : ((v % items : ℕ) : ℚ) + 1 ≤ items := by exact_mod_cast hm
    refine ⟨div_nonneg (add_nonneg (Nat.cast_nonneg _) o0) hq.le, ?_⟩
    rw [div_lt_one hq]
    linarith
  · have h' : ((v % items : ℕ) : ℚ) + offsetOf (v / items) = ((w % items : ℕ) : ℚ) + offsetOf (w / items) :=
      (div_left_inj' hq.ne').1 h
    obtain ⟨a0, a1⟩ := offsetOf_range (v / items)
    obtain ⟨b0, b1⟩ := offsetOf_range (w / items)
    have hm : v % items = w % items := by
      have l1 : ((v % items : ℕ) : ℚ) < (w % items : ℕ) + 1 := by linarith
      have l2 : ((w % items : ℕ) : ℚ) < (v % items : ℕ) + 1 := by linarith
      have l1' : v % items < w % items + 1 := by exact_mod_cast l1
      have l2' : w % items < v % items + 1 := by exact_mod_cast l2
      omega
    rw [hm] at h'
    have hr := offsetOf_inj (add_left_cancel h')
    rw [← Nat.div_add_mod v items, ← Nat.div_add_mod w items, hr, hm]

/-- Zero items per revolution divide by zero. -/
theorem C69_zero_items (value : ℕ) : exponentialHue 0 value = .ub := rfl

end Vox.ColorMap
