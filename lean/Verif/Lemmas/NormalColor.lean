/-
Mesh messages without colours: the display colours vertices by the normals it computes.
-/
import Verif.Lemmas.MeshColorMsg
import Verif.Lemmas.RoundError

namespace Vox.MeshMsg

open MC MeshInt Spec Ieee
open IndexF (u eta Size rnd32_err)

/-! ### Numbers that are zero or not small -/

theorem multiple_of_large {x : ℚ} (hx : rnd32 x = x) {e : ℤ} (h : pow2 e ≤ |x|) : ∃ n : ℤ, x = n * pow2 (e - 24) := by
  obtain ⟨k, e', hk, -, hf⟩ := rne_form (p := 24) (qmin := -149) x
  have hf : x = k * pow2 e' := hx.symm.trans hf
  have hle : pow2 e ≤ pow2 (24 + e') := by
    refine h.trans ?_
    rw [hf, abs_mul, abs_of_pos (pow2_pos e'), pow2_add]
    refine mul_le_mul_of_nonneg_right ?_ (pow2_pos e').le
    have h24 : pow2 24 = 2 ^ 24 := IndexF.pow2_pos_nat 24
    rw [h24]
    exact_mod_cast hk
  have hee : e - 24 ≤ e' := by
    by_contra hc
    exact absurd hle (not_le.2 (pow2_lt_iff.2 (by omega)))
  obtain ⟨n, -, hn⟩ := pow2_sub_nat hee
  exact ⟨k * (2 ^ n : ℕ), by rw [hf, hn]; push_cast; ring⟩

theorem rnd32_pow2 {e : ℤ} (he : -149 ≤ e) : rnd32 (pow2 e) = pow2 e := by
  have := rne_exact (p := 24) (qmin := -149) (by norm_num) (k := 1) (by norm_num) he
  rw [Int.cast_one, one_mul] at this
  exact this

/-- Rounding does not make a number smaller than a power of two it exceeds. -/
theorem rnd32_large {x : ℚ} {e : ℤ} (he : -149 ≤ e) (h : pow2 e ≤ |x|) : pow2 e ≤ |rnd32 x| := by
  have hn : rnd32 (-x) = -rnd32 x := rne_neg x
  rcases le_total 0 x with h0 | h0
  · rw [abs_of_nonneg h0] at h
    have := rnd32_mono h
    rw [rnd32_pow2 he] at this
    exact this.trans (le_abs_self _)
  · rw [abs_of_nonpos h0] at h
    have := rnd32_mono h
    rw [rnd32_pow2 he, hn] at this
    exact this.trans (neg_le_abs _)

/-- A `float` of bounded size that is zero or not small. -/
def Apart (e : ℤ) (B : ℚ) (x : Fl) : Prop := ∃ q, x = .fin q ∧ rnd32 q = q ∧ |q| ≤ B ∧ (q = 0 ∨ pow2 e ≤ |q|)

theorem apart_mul {e d : ℤ} {A B : ℚ} {x y : Fl} (hA : 0 ≤ A) (he : -149 ≤ e + d) (hx : Apart e A x) (hy : Apart d B y) (hs : A * B ≤ 2 ^ 100) :
    Apart (e + d) (2 * (A * B) + 1) (float32.mul x y) := by
  obtain ⟨a, rfl, -, ha, ha'⟩ := hx
  obtain ⟨b, rfl, -, hb, hb'⟩ := hy
  have h : |a * b| ≤ A * B := by rw [abs_mul]; exact mul_le_mul ha hb (abs_nonneg _) hA
  have r := rnd32_abs h
  refine ⟨rnd32 (a * b), rnd_of_lt (lt_of_le_of_lt r ?_), rne_idem (by norm_num) _, r, ?_⟩
  · have : (2 * 2 ^ 100 + 1 : ℚ) < 2 ^ 128 := by norm_num
    linarith
  · rcases ha' with rfl | ha'
    · left; rw [zero_mul]; exact rne_zero
    rcases hb' with rfl | hb'
    · left; rw [mul_zero]; exact rne_zero
    right
    refine rnd32_large he ?_
    rw [pow2_add, abs_mul]
    exact mul_le_mul ha' hb' (pow2_pos d).le (abs_nonneg _)

theorem sub_fin_eq (a b : ℚ) : float32.sub (.fin a) (.fin b) = float32.rnd (a - b) := by
  show float32.rnd (a + -b) = _
  rw [sub_eq_add_neg]

theorem apart_sub {e : ℤ} {A : ℚ} {x y : Fl} (he : -149 ≤ e - 24) (hx : Apart e A x) (hy : Apart e A y) (hs : A ≤ 2 ^ 110) :
    Apart (e - 24) (2 * (2 * A) + 1) (float32.sub x y) := by
  obtain ⟨a, rfl, ra, ha, ha'⟩ := hx
  obtain ⟨b, rfl, rb, hb, hb'⟩ := hy
  have h : |a - b| ≤ 2 * A := (abs_sub _ _).trans (by linarith)
  have r := rnd32_abs h
  rw [sub_fin_eq]
  refine ⟨rnd32 (a - b), rnd_of_lt (lt_of_le_of_lt r ?_), rne_idem (by norm_num) _, r, ?_⟩
  · have : (2 * (2 * 2 ^ 110) + 1 : ℚ) < 2 ^ 128 := by norm_num
    linarith
  · have mult : ∀ q : ℚ, rnd32 q = q → (q = 0 ∨ pow2 e ≤ |q|) → ∃ n : ℤ, q = n * pow2 (e - 24) := by
      intro q hq hq'
      rcases hq' with rfl | h
      · exact ⟨0, by simp⟩
      · exact multiple_of_large hq h
    obtain ⟨n, hn⟩ := mult a ra ha'
    obtain ⟨m, hm⟩ := mult b rb hb'
    by_cases hnm : n = m
    · left
      rw [hn, hm, hnm, sub_self]
      exact rne_zero
    · right
      refine rnd32_large he ?_
      rw [hn, hm, ← sub_mul, abs_mul, abs_of_pos (pow2_pos _)]
      have : (1 : ℚ) ≤ |(n : ℚ) - m| := by
        have : (1 : ℤ) ≤ |n - m| := Int.one_le_abs (sub_ne_zero.2 hnm)
        exact_mod_cast this
      nlinarith [pow2_pos (e - 24)]

/-! ### Normalizing -/

/-- The square root of a number that is nearly a square. -/
theorem sqrt_low {M d : ℚ} (hM : 1 / 2 ^ 62 ≤ M) (hd : M * M * (1 - 2 * u) ≤ d) : M * (1 - 4 * u) ≤ sqrtRound 24 (-149) d := by
  have hu : u = 1 / 2 ^ 24 := rfl
  have he : eta = 1 / 2 ^ 150 := rfl
  have hM0 : 0 < M := lt_of_lt_of_le (by positivity) hM
  have hMM : 0 < M * M := mul_pos hM0 hM0
  have h1 : (0 : ℚ) ≤ 1 - 2 * u := by rw [hu]; norm_num
  have hd0 : 0 ≤ d := le_trans (mul_nonneg hMM.le h1) hd
  have h := (sqrtRound_correct (p := 24) (qmin := -149) (by norm_num) hd0).1 (M * (1 - 2 * u)) (mul_nonneg hM0.le h1) (by
    refine le_trans ?_ hd
    have : (1 - 2 * u) * (1 - 2 * u) ≤ 1 - 2 * u := by rw [hu]; norm_num
    nlinarith)
  refine le_trans ?_ h
  have e := (abs_le.1 (rnd32_err (M * (1 - 2 * u)))).1
  rw [abs_of_nonneg (mul_nonneg hM0.le h1)] at e
  have e' : -(u * (M * (1 - 2 * u)) + eta) ≤ rne 24 (-149) (M * (1 - 2 * u)) - M * (1 - 2 * u) := e
  rw [hu, he] at *
  have : (1 / 2 ^ 150 : ℚ) ≤ 1 / 2 ^ 24 * M * (1 / 2) := by
    have : (1 / 2 ^ 150 : ℚ) ≤ 1 / 2 ^ 24 * (1 / 2 ^ 62) * (1 / 2) := by norm_num
    nlinarith
  nlinarith

theorem sqrt_high {d : ℚ} (h0 : 0 ≤ d) (h : d ≤ 2 ^ 126) : sqrtRound 24 (-149) d ≤ 2 ^ 63 := by
  have h := (sqrtRound_correct (p := 24) (qmin := -149) (by norm_num) h0).2 (2 ^ 63) (by positivity) (by norm_num; linarith)
  have e : rne 24 (-149) ((2 : ℚ) ^ 63) = 2 ^ 63 := by
    have := rnd32_pow2 (e := 63) (by norm_num)
    have p : pow2 63 = 2 ^ 63 := IndexF.pow2_pos_nat 63
    rwa [p] at this
  rwa [e] at h

/-- One component of a normalized vector. -/
theorem unit_component {M x s : ℚ} (hM : 1 / 2 ^ 62 ≤ M) (hx : |x| ≤ M) (hs : M * (1 - 4 * u) ≤ s) :
    ∃ n, float32.div (.fin x) (.fin s) = .fin n ∧ |n| ≤ 1 + 8 * u := by
  have hu : u = 1 / 2 ^ 24 := rfl
  have he : eta = 1 / 2 ^ 150 := rfl
  have hM0 : 0 < M := lt_of_lt_of_le (by positivity) hM
  have hs0 : 0 < s := lt_of_lt_of_le (mul_pos hM0 (by rw [hu]; norm_num)) hs
  have hq : |x / s| ≤ 1 + 5 * u := by
    rw [abs_div, abs_of_pos hs0, div_le_iff₀ hs0]
    rw [hu] at hs ⊢
    nlinarith
  have r : |rnd32 (x / s)| ≤ 1 + 8 * u := by
    have := RoundErr.rnd32_le (x := x / s)
    rw [hu, he] at this
    rw [hu] at hq ⊢
    nlinarith
  refine ⟨rnd32 (x / s), ?_, r⟩
  unfold Arith.div
  dsimp only
  rw [if_neg hs0.ne']
  refine rnd_of_lt (lt_of_le_of_lt r ?_)
  rw [hu]
  norm_num

theorem add_fin_eq (a b : ℚ) : float32.add (.fin a) (.fin b) = float32.rnd (a + b) := rfl

theorem mul_fin_eq (a b : ℚ) : float32.mul (.fin a) (.fin b) = float32.rnd (a * b) := rfl

/-- The squared length as computed. -/
theorem dot_self {x y z M : ℚ} (hM : 1 / 2 ^ 62 ≤ M) (hb : M ≤ 2 ^ 60) (hx : |x| ≤ M) (hy : |y| ≤ M) (hz : |z| ≤ M) (hm : |x| = M ∨ |y| = M ∨ |z| = M) :
    ∃ d, float32.dot ⟨.fin x, .fin y, .fin z⟩ ⟨.fin x, .fin y, .fin z⟩ = .fin d ∧ M * M * (1 - 2 * u) ≤ d ∧ d ≤ 2 ^ 126 := by
  have hu : u = 1 / 2 ^ 24 := rfl
  have he : eta = 1 / 2 ^ 150 := rfl
  have hM0 : 0 < M := lt_of_lt_of_le (by positivity) hM
  have hMM : M * M ≤ 2 ^ 120 := by
    have : M * M ≤ 2 ^ 60 * 2 ^ 60 := mul_le_mul hb hb hM0.le (by positivity)
    norm_num at this ⊢
    linarith
  have sq : ∀ a : ℚ, |a| ≤ M → 0 ≤ a * a ∧ a * a ≤ M * M := by
    intro a ha
    refine ⟨mul_self_nonneg a, ?_⟩
    rw [← abs_mul_abs_self]
    exact mul_le_mul ha ha (abs_nonneg a) hM0.le
  have P : ∀ a : ℚ, |a| ≤ M → 0 ≤ rnd32 (a * a) ∧ rnd32 (a * a) ≤ 2 ^ 121 ∧ (|a| = M → M * M * (1 - 2 * u) ≤ rnd32 (a * a)) := by
    intro a ha
    obtain ⟨s0, s1⟩ := sq a ha
    have e := abs_le.1 (rnd32_err (a * a))
    rw [abs_of_nonneg s0] at e
    refine ⟨RoundErr.rnd32_nonneg s0, ?_, ?_⟩
    · have h2 := e.2
      rw [hu, he] at *
      norm_num at *
      nlinarith
    · intro hae
      have ee : a * a = M * M := by rw [← abs_mul_abs_self, hae]
      have h1 := e.1
      rw [ee] at h1 ⊢
      have : eta ≤ u * (M * M) := by
        have : (1 / 2 ^ 62 : ℚ) * (1 / 2 ^ 62) ≤ M * M := mul_le_mul hM hM (by positivity) hM0.le
        rw [hu, he]
        have h3 : (1 / 2 ^ 150 : ℚ) ≤ 1 / 2 ^ 24 * (1 / 2 ^ 62 * (1 / 2 ^ 62)) := by norm_num
        nlinarith
      nlinarith
  obtain ⟨x0, x1, x2⟩ := P x hx
  obtain ⟨y0, y1, y2⟩ := P y hy
  obtain ⟨z0, z1, z2⟩ := P z hz
  have fin : ∀ q : ℚ, 0 ≤ q → q ≤ 2 ^ 125 → float32.rnd q = .fin (rnd32 q) := fun q h0 h1 => RoundErr.rnd_fin_nonneg h0 (h1.trans (by norm_num))
  have up : ∀ q : ℚ, 0 ≤ q → rnd32 q ≤ 2 * q + 1 := fun q h0 => by
    have := rnd32_abs (le_of_eq (abs_of_nonneg h0))
    exact (le_abs_self _).trans this
  have big : (2 : ℚ) ^ 121 = 2658455991569831745807614120560689152 := by norm_num
  have s0 : 0 ≤ rnd32 (rnd32 (x * x) + rnd32 (y * y)) := RoundErr.rnd32_nonneg (add_nonneg x0 y0)
  have s1 := up (rnd32 (x * x) + rnd32 (y * y)) (add_nonneg x0 y0)
  refine ⟨rnd32 (rnd32 (rnd32 (x * x) + rnd32 (y * y)) + rnd32 (z * z)), ?_, ?_, ?_⟩
  · unfold Arith.dot
    dsimp only
    rw [mul_fin_eq, mul_fin_eq, mul_fin_eq, fin _ (sq x hx).1 ((sq x hx).2.trans (hMM.trans (by norm_num))), fin _ (sq y hy).1 ((sq y hy).2.trans (hMM.trans (by norm_num))),
      fin _ (sq z hz).1 ((sq z hz).2.trans (hMM.trans (by norm_num))), add_fin_eq, fin _ (add_nonneg x0 y0) (by norm_num at *; linarith), add_fin_eq,
      fin _ (add_nonneg s0 z0) (by norm_num at *; linarith)]
  · have repr : ∀ q : ℚ, rnd32 (rnd32 q) = rnd32 q := fun q => rne_idem (by norm_num) q
    have m1 : rnd32 (x * x) ≤ rnd32 (rnd32 (x * x) + rnd32 (y * y)) := by
      have := rnd32_mono (show rnd32 (x * x) ≤ rnd32 (x * x) + rnd32 (y * y) by linarith)
      rwa [repr] at this
    have m2 : rnd32 (y * y) ≤ rnd32 (rnd32 (x * x) + rnd32 (y * y)) := by
      have := rnd32_mono (show rnd32 (y * y) ≤ rnd32 (x * x) + rnd32 (y * y) by linarith)
      rwa [repr] at this
    have m3 := rnd32_mono (show rnd32 (rnd32 (x * x) + rnd32 (y * y)) ≤ rnd32 (rnd32 (x * x) + rnd32 (y * y)) + rnd32 (z * z) by linarith)
    rw [repr] at m3
    have m4 := rnd32_mono (show rnd32 (z * z) ≤ rnd32 (rnd32 (x * x) + rnd32 (y * y)) + rnd32 (z * z) by linarith)
    rw [repr] at m4
    rcases hm with h | h | h
    · exact (x2 h).trans (m1.trans m3)
    · exact (y2 h).trans (m2.trans m3)
    · exact (z2 h).trans m4
  · have := up (rnd32 (rnd32 (x * x) + rnd32 (y * y)) + rnd32 (z * z)) (add_nonneg s0 z0)
    norm_num at *
    linarith

/-- A vector whose components are zero or not small has a normal with components of at most one, up to rounding. -/
theorem normalized_unit {v : Vec3 Fl} (hx : Apart (-62) (2 ^ 60) v.x) (hy : Apart (-62) (2 ^ 60) v.y) (hz : Apart (-62) (2 ^ 60) v.z) :
    ∃ n : Vec3 ℚ, Occ.normalized float32 v = n.map .fin ∧ |n.x| ≤ 1 + 8 * u ∧ |n.y| ≤ 1 + 8 * u ∧ |n.z| ≤ 1 + 8 * u := by
  have hu : u = 1 / 2 ^ 24 := rfl
  obtain ⟨vx, vy, vz⟩ := v
  obtain ⟨x, rfl, -, bx, ax⟩ := hx
  obtain ⟨y, rfl, -, by', ay⟩ := hy
  obtain ⟨z, rfl, -, bz, az⟩ := hz
  have p62 : pow2 (-62) = 1 / 2 ^ 62 := IndexF.pow2_neg 62
  rw [p62] at ax ay az
  by_cases h0 : x = 0 ∧ y = 0 ∧ z = 0
  · obtain ⟨rfl, rfl, rfl⟩ := h0
    refine ⟨⟨0, 0, 0⟩, by decide +kernel, ?_⟩
    rw [hu]
    norm_num
  · obtain ⟨M, hM, hb, mx, my, mz, hm⟩ : ∃ M : ℚ, 1 / 2 ^ 62 ≤ M ∧ M ≤ 2 ^ 60 ∧ |x| ≤ M ∧ |y| ≤ M ∧ |z| ≤ M ∧ (|x| = M ∨ |y| = M ∨ |z| = M) := by
      have low : 1 / 2 ^ 62 ≤ max |x| (max |y| |z|) := by
        rcases ax with rfl | ax
        · rcases ay with rfl | ay
          · rcases az with rfl | az
            · exact absurd ⟨rfl, rfl, rfl⟩ h0
            · exact az.trans (le_max_of_le_right (le_max_right _ _))
          · exact ay.trans (le_max_of_le_right (le_max_left _ _))
        · exact ax.trans (le_max_left _ _)
      refine ⟨max |x| (max |y| |z|), low, max_le bx (max_le by' bz), le_max_left _ _, le_max_of_le_right (le_max_left _ _),
        le_max_of_le_right (le_max_right _ _), ?_⟩
      rcases max_choice |x| (max |y| |z|) with h | h
      · exact Or.inl h.symm
      · rw [h]
        rcases max_choice |y| |z| with h | h
        · exact Or.inr (Or.inl h.symm)
        · exact Or.inr (Or.inr h.symm)
    obtain ⟨d, hd, d1, d2⟩ := dot_self hM hb mx my mz hm
    have hM0 : 0 < M := lt_of_lt_of_le (by positivity) hM
    have hd0 : 0 < d := lt_of_lt_of_le (mul_pos (mul_pos hM0 hM0) (by rw [hu]; norm_num)) d1
    have l := sqrt_low hM d1
    have hs0 : 0 < sqrtRound 24 (-149) d := lt_of_lt_of_le (mul_pos hM0 (by rw [hu]; norm_num)) l
    have hsq : float32.sqrtFl (.fin d) = .fin (sqrtRound 24 (-149) d) := by
      unfold Arith.sqrtFl
      dsimp only
      rw [if_pos hd0.le]
      show overflow (2 ^ 128) _ = _
      refine overflow_of_lt ?_
      rw [abs_of_pos hs0]
      exact lt_of_le_of_lt (sqrt_high hd0.le d2) (by norm_num)
    obtain ⟨nx, ex, bnx⟩ := unit_component hM mx l
    obtain ⟨ny, ey, bny⟩ := unit_component hM my l
    obtain ⟨nz, ez, bnz⟩ := unit_component hM mz l
    refine ⟨⟨nx, ny, nz⟩, ?_, bnx, bny, bnz⟩
    unfold Occ.normalized
    rw [hd, if_pos (by simpa [Fl.lt] using hd0), hsq]
    unfold Arith.vdiv Vec3.map
    dsimp only
    rw [ex, ey, ez]

/-! ### Colours of normals -/

/-- One channel. -/
theorem displayed_channel {n : ℚ} (h : |n| ≤ 1 + 8 * u) :
    ∃ c : BitVec 8, toByte (float32.mul (.fin 255) (float32.add (float32.mul (.fin n) (.fin (1 / 2))) (.fin (1 / 2)))) = .ok c ∧
      |(c.toNat : ℚ) - 255 * ((n + 1) / 2)| ≤ 1 + 1 / 2 ^ 10 := by
  have hu : u = 1 / 2 ^ 24 := rfl
  have he : eta = 1 / 2 ^ 150 := rfl
  obtain ⟨n1, n2⟩ := abs_le.1 h
  set a := rnd32 (n * (1 / 2)) with ha
  have ea := rnd32_err (n * (1 / 2))
  rw [← ha] at ea
  have hn2 : |n * (1 / 2)| ≤ (1 + 8 * u) / 2 := by rw [abs_mul, abs_of_pos (by norm_num : (0 : ℚ) < 1 / 2)]; linarith
  set b := rnd32 (a + 1 / 2) with hb
  have eb := rnd32_err (a + 1 / 2)
  rw [← hb] at eb
  set q := rnd32 (255 * b) with hq
  have eq_ := rnd32_err (255 * b)
  rw [← hq] at eq_
  have ea' : |a - n / 2| ≤ u := by
    have : u * |n * (1 / 2)| ≤ u * ((1 + 8 * u) / 2) := mul_le_mul_of_nonneg_left hn2 (by rw [hu]; norm_num)
    have e : n * (1 / 2) = n / 2 := by ring
    rw [e] at ea this
    rw [hu, he] at *
    norm_num at *
    linarith
  obtain ⟨a1, a2⟩ := abs_le.1 ea'
  have hb1 : |a + 1 / 2| ≤ 2 := by
    rw [abs_le, hu] at *
    constructor <;> linarith
  have eb' : |b - (a + 1 / 2)| ≤ 3 * u := by
    have : u * |a + 1 / 2| ≤ u * 2 := mul_le_mul_of_nonneg_left hb1 (by rw [hu]; norm_num)
    rw [hu, he] at *
    norm_num at *
    linarith
  obtain ⟨b1, b2⟩ := abs_le.1 eb'
  have hb2 : |255 * b| ≤ 512 := by
    rw [abs_le, hu] at *
    constructor <;> linarith
  have eq' : |q - 255 * b| ≤ 513 * u := by
    have : u * |255 * b| ≤ u * 512 := mul_le_mul_of_nonneg_left hb2 (by rw [hu]; norm_num)
    rw [hu, he] at *
    norm_num at *
    linarith
  obtain ⟨q1, q2⟩ := abs_le.1 eq'
  have near : |q - 255 * ((n + 1) / 2)| ≤ 1 / 2 ^ 10 := by
    rw [abs_le, hu] at *
    constructor <;> norm_num at * <;> linarith
  have hlo : -1 < q := by
    have := (abs_le.1 near).1
    rw [hu] at *
    norm_num at *
    linarith
  have hhi : q < 256 := by
    have := (abs_le.1 near).2
    rw [hu] at *
    norm_num at *
    linarith
  have fa : float32.rnd (n * (1 / 2)) = .fin a := RoundErr.rnd_fin (hn2.trans (by rw [hu]; norm_num))
  have fb : float32.rnd (a + 1 / 2) = .fin b := RoundErr.rnd_fin (hb1.trans (by norm_num))
  have fq : float32.rnd (255 * b) = .fin q := RoundErr.rnd_fin (hb2.trans (by norm_num))
  rw [mul_fin_eq, fa, add_fin_eq, fb, mul_fin_eq, fq]
  refine ⟨BitVec.ofInt 8 (if 0 ≤ q then ⌊q⌋ else 0), ?_, ?_⟩
  · unfold toByte ColorMap.toByte
    dsimp only
    rw [if_pos ⟨hlo, hhi⟩]
  · have tn : ∀ k : ℤ, 0 ≤ k → k ≤ 255 → (((BitVec.ofInt 8 k).toNat : ℕ) : ℚ) = (k : ℚ) := by
      intro k k0 k1
      have : ((BitVec.ofInt 8 k).toNat : ℤ) = k := by
        rw [BitVec.toNat_ofInt]
        omega
      exact_mod_cast this
    obtain ⟨r1, r2⟩ := abs_le.1 near
    split_ifs with h0
    · have k0 : (0 : ℤ) ≤ ⌊q⌋ := Int.floor_nonneg.2 h0
      have k1 : ⌊q⌋ ≤ 255 := by
        have : ⌊q⌋ < 256 := Int.floor_lt.2 (by exact_mod_cast hhi)
        omega
      rw [tn _ k0 k1]
      have f1 := Int.floor_le q
      have f2 := Int.lt_floor_add_one q
      rw [abs_le]
      constructor <;> linarith
    · rw [tn 0 le_rfl (by norm_num)]
      push_cast
      rw [abs_le]
      constructor <;> linarith

/-! ### Decoded vertices -/

/-- One axis of the decoded vertices of a block near the origin. -/
theorem decode_apart {s : ℚ} (h1 : 1 / 8 ≤ s) (h2 : s ≤ 2 ^ 20) {i : ℤ} (hi : |i| ≤ 50) {k l : ℕ} (hk : k ≤ 65535) (hl : l ≤ 65535) :
    Apart (-19) (2 ^ 28) (float32.sub (decode1 (.fin s) i k) (decode1 (.fin s) i l)) := by
  have hu : u = 1 / 2 ^ 24 := rfl
  have he : eta = 1 / 2 ^ 150 := rfl
  have ri : rnd32 (i : ℚ) = i := IndexF.rnd32_int (hi.trans (by norm_num))
  have hi' : |(i : ℚ)| ≤ 50 := by exact_mod_cast hi
  have hc : pointFactor = .fin (rnd32 (2 / 65535)) := by decide +kernel
  have ec := rnd32_err (2 / 65535)
  set c := rnd32 (2 / 65535) with hcd
  have ec' : |c - 2 / 65535| ≤ u * (2 / 65535) + eta := by
    rwa [abs_of_pos (by norm_num : (0 : ℚ) < 2 / 65535)] at ec
  obtain ⟨c1, c2⟩ := abs_le.1 ec'
  have one : ∀ k : ℕ, k ≤ 65535 → ∃ D, decode1 (.fin s) i k = .fin D ∧ |D - (k * (2 / 65535) + i) * s| ≤ 115 * u * s ∧ rnd32 D = D := by
    intro k hk
    have hkq : (k : ℚ) ≤ 65535 := by exact_mod_cast hk
    have hk0 : (0 : ℚ) ≤ k := Nat.cast_nonneg k
    have rk : rnd32 (k : ℚ) = k := by
      have := IndexF.rnd32_int (n := (k : ℤ)) (by rw [abs_of_nonneg (by positivity)]; omega)
      simpa using this
    set a := rnd32 (k * c) with had
    have ea := rnd32_err (k * c)
    rw [← had] at ea
    have hkc : |k * c - k * (2 / 65535)| ≤ 2 * u + 65535 * eta := by
      rw [← mul_sub, abs_mul, abs_of_nonneg hk0]
      have := mul_le_mul hkq ec' (abs_nonneg _) (by norm_num)
      refine this.trans (le_of_eq ?_)
      ring
    have hk2 : |(k : ℚ) * (2 / 65535)| ≤ 2 := by
      rw [abs_of_nonneg (by positivity)]
      linarith
    have hkc2 : |k * c| ≤ 2 + 1 / 1000 := by
      have := abs_sub_abs_le_abs_sub (k * c) (k * (2 / 65535) : ℚ)
      rw [hu, he] at hkc
      norm_num at hkc
      linarith
    have ea' : |a - k * (2 / 65535)| ≤ 41 / 10 * u := by
      have t := abs_sub_le a (k * c) (k * (2 / 65535))
      have : u * |k * c| ≤ u * (2 + 1 / 1000) := mul_le_mul_of_nonneg_left hkc2 (by rw [hu]; norm_num)
      rw [hu, he] at *
      norm_num at *
      linarith
    set t := rnd32 (a + i) with htd
    have et := rnd32_err (a + i)
    rw [← htd] at et
    have ha2 : |a| ≤ 2 + 1 / 1000 := by
      have := abs_sub_abs_le_abs_sub a (k * (2 / 65535) : ℚ)
      rw [hu] at ea'
      linarith
    have hai : |a + i| ≤ 52 + 1 / 1000 := (abs_add_le _ _).trans (by linarith)
    have et' : |t - (k * (2 / 65535) + i)| ≤ 57 * u := by
      have e : t - (k * (2 / 65535) + i) = (t - (a + i)) + (a - k * (2 / 65535)) := by ring
      rw [e]
      refine (abs_add_le _ _).trans ?_
      have : u * |a + i| ≤ u * (52 + 1 / 1000) := mul_le_mul_of_nonneg_left hai (by rw [hu]; norm_num)
      rw [hu, he] at *
      norm_num at *
      linarith
    have ht2 : |t| ≤ 53 := by
      have h1 := abs_sub_abs_le_abs_sub t (k * (2 / 65535) + i : ℚ)
      have h2 := abs_add_le (k * (2 / 65535) : ℚ) i
      rw [hu] at et'
      norm_num at et'
      linarith
    have hs0 : 0 < s := lt_of_lt_of_le (by norm_num) h1
    have hts : |t * s| ≤ 53 * s := by rw [abs_mul, abs_of_pos hs0]; exact mul_le_mul_of_nonneg_right ht2 hs0.le
    have eD := rnd32_err (t * s)
    refine ⟨rnd32 (t * s), ?_, ?_, rne_idem (by norm_num) _⟩
    · unfold decode1
      have f1 : float32.rnd (k : ℚ) = .fin (k : ℚ) := by
        rw [RoundErr.rnd_fin (by rw [abs_of_nonneg hk0]; exact hkq.trans (by norm_num)), rk]
      have f2 : float32.rnd (i : ℚ) = .fin (i : ℚ) := by
        rw [RoundErr.rnd_fin (hi'.trans (by norm_num)), ri]
      have f3 : float32.rnd (k * c) = .fin a := RoundErr.rnd_fin (hkc2.trans (by norm_num))
      have f4 : float32.rnd (a + i) = .fin t := RoundErr.rnd_fin (hai.trans (by norm_num))
      have f5 : float32.rnd (t * s) = .fin (rnd32 (t * s)) := RoundErr.rnd_fin (hts.trans (by norm_num; linarith))
      rw [f1, f2, hc, mul_fin_eq, f3, add_fin_eq, f4, mul_fin_eq, f5]
    · have e : rnd32 (t * s) - (k * (2 / 65535) + i) * s = (rnd32 (t * s) - t * s) + (t - (k * (2 / 65535) + i)) * s := by ring
      rw [e]
      refine (abs_add_le _ _).trans ?_
      rw [abs_mul _ s, abs_of_pos hs0]
      have g1 : u * |t * s| ≤ u * (53 * s) := mul_le_mul_of_nonneg_left hts (by rw [hu]; norm_num)
      have g2 := mul_le_mul_of_nonneg_right et' hs0.le
      have g3 : eta ≤ u * s := by
        rw [hu, he]
        have : (1 / 2 ^ 150 : ℚ) ≤ 1 / 2 ^ 24 * (1 / 8) := by norm_num
        nlinarith
      nlinarith
  obtain ⟨D, hD, nD, rD⟩ := one k hk
  obtain ⟨E, hE, nE, rE⟩ := one l hl
  have hs0 : 0 < s := lt_of_lt_of_le (by norm_num) h1
  obtain ⟨D1, D2⟩ := abs_le.1 nD
  obtain ⟨E1, E2⟩ := abs_le.1 nE
  have big : ∀ m : ℕ, m ≤ 65535 → ∀ D : ℚ, |D - (m * (2 / 65535) + i) * s| ≤ 115 * u * s → |D| ≤ 2 ^ 26 := by
    intro m hm D hD
    have hmq : (m : ℚ) ≤ 65535 := by exact_mod_cast hm
    have hm0 : (0 : ℚ) ≤ m := Nat.cast_nonneg m
    have g := abs_sub_abs_le_abs_sub D ((m * (2 / 65535) + i) * s)
    have : |((m : ℚ) * (2 / 65535) + i)| ≤ 52 := by
      refine (abs_add_le _ _).trans ?_
      rw [abs_of_nonneg (by positivity : (0 : ℚ) ≤ (m : ℚ) * (2 / 65535))]
      linarith
    rw [abs_mul _ s, abs_of_pos hs0] at g
    have g2 := mul_le_mul_of_nonneg_right this hs0.le
    rw [hu] at hD
    norm_num at *
    nlinarith
  have bD := big k hk D nD
  have bE := big l hl E nE
  have hDE : |D - E| ≤ 2 ^ 27 := (abs_sub _ _).trans (by norm_num at *; linarith)
  rw [hD, hE, sub_fin_eq]
  have r := RoundErr.rnd32_le (x := D - E)
  have r' : |rnd32 (D - E)| ≤ 2 ^ 28 := by
    rw [hu, he] at r
    norm_num at *
    linarith
  refine ⟨rnd32 (D - E), RoundErr.rnd_fin (hDE.trans (by norm_num)), rne_idem (by norm_num) _, r', ?_⟩
  by_cases hkl : k = l
  · left
    subst hkl
    rw [hD] at hE
    obtain rfl := Fl.fin.inj hE
    rw [sub_self]
    exact rne_zero
  · right
    refine rnd32_large (by norm_num) ?_
    have p19 : pow2 (-19) = 1 / 2 ^ 19 := IndexF.pow2_neg 19
    rw [p19]
    have far : (1 : ℚ) ≤ |(k : ℚ) - l| := by
      have : (1 : ℤ) ≤ |(k : ℤ) - l| := Int.one_le_abs (sub_ne_zero.2 (by exact_mod_cast hkl))
      exact_mod_cast this
    have e : (D - E) = ((k : ℚ) - l) * (2 / 65535 * s) + ((D - (k * (2 / 65535) + i) * s) - (E - (l * (2 / 65535) + i) * s)) := by ring
    have g := abs_sub_abs_le_abs_sub (((k : ℚ) - l) * (2 / 65535 * s)) (-((D - (k * (2 / 65535) + i) * s) - (E - (l * (2 / 65535) + i) * s)))
    rw [sub_neg_eq_add, ← e, abs_neg, abs_mul, abs_of_pos (by positivity : (0 : ℚ) < 2 / 65535 * s)] at g
    have g2 := abs_sub (D - (k * (2 / 65535) + i) * s) (E - (l * (2 / 65535) + i) * s)
    have g3 : 1 * (2 / 65535 * s) ≤ |(k : ℚ) - l| * (2 / 65535 * s) := mul_le_mul_of_nonneg_right far (by positivity)
    rw [hu] at *
    norm_num at *
    nlinarith

/-- The cross product of two differences. -/
theorem cross_apart {a b : Vec3 Fl} (ax : Apart (-19) (2 ^ 28) a.x) (ay : Apart (-19) (2 ^ 28) a.y) (az : Apart (-19) (2 ^ 28) a.z)
    (bx : Apart (-19) (2 ^ 28) b.x) (by' : Apart (-19) (2 ^ 28) b.y) (bz : Apart (-19) (2 ^ 28) b.z) :
    Apart (-62) (2 ^ 60) (cross float32 a b).x ∧ Apart (-62) (2 ^ 60) (cross float32 a b).y ∧ Apart (-62) (2 ^ 60) (cross float32 a b).z := by
  have one : ∀ {p q r s : Fl}, Apart (-19) (2 ^ 28) p → Apart (-19) (2 ^ 28) q → Apart (-19) (2 ^ 28) r → Apart (-19) (2 ^ 28) s →
      Apart (-62) (2 ^ 60) (float32.sub (float32.mul p q) (float32.mul r s)) := by
    intro p q r s hp hq hr hs
    have m1 := apart_mul (by positivity) (by norm_num) hp hq (by norm_num)
    have m2 := apart_mul (by positivity) (by norm_num) hr hs (by norm_num)
    obtain ⟨v, e, r1, r2, r3⟩ := apart_sub (by norm_num) m1 m2 (by norm_num)
    exact ⟨v, e, r1, r2.trans (by norm_num), r3⟩
  exact ⟨one ay bz az by', one az bx ax bz, one ax by' ay bx⟩

/-- What the display makes of a block without colours. -/
theorem decode_plain {s : ℚ} (h1 : 1 / 8 ≤ s) (h2 : s ≤ 2 ^ 20) {b : MeshBlock} (hi : |b.index.x| ≤ 50 ∧ |b.index.y| ≤ 50 ∧ |b.index.z| ≤ 50)
    (ly : b.y.length = b.x.length) (lz : b.z.length = b.x.length) (h3 : 3 ∣ b.x.length) (hx : ∀ k ∈ b.x, k ≤ 65535) (hy : ∀ k ∈ b.y, k ≤ 65535)
    (hz : ∀ k ∈ b.z, k ≤ 65535) (hr : b.x.length ≠ b.r.length) :
    ∃ md, decodeBlock (.fin s) b = .ok md ∧ md.vertices.length = b.x.length ∧ md.colors.length = b.x.length ∧
      (∀ k < b.x.length, ∃ x y z, b.x[k]? = some x ∧ b.y[k]? = some y ∧ b.z[k]? = some z ∧
        md.vertices[k]? = some ⟨decode1 (.fin s) b.index.x x, decode1 (.fin s) b.index.y y, decode1 (.fin s) b.index.z z⟩) ∧
      ∀ k < b.x.length, ∃ (n : Vec3 ℚ) (c : Color), md.normals[k]? = some (n.map .fin) ∧ md.colors[k]? = some c ∧ NormalColor n c := by
  obtain ⟨vs, e1, l1, g1⟩ := Merge.mapM_range (f := decodeVertex (.fin s) b)
    (P := fun k p => ∃ x y z, b.x[k]? = some x ∧ b.y[k]? = some y ∧ b.z[k]? = some z ∧ x ≤ 65535 ∧ y ≤ 65535 ∧ z ≤ 65535 ∧
      p = ⟨decode1 (.fin s) b.index.x x, decode1 (.fin s) b.index.y y, decode1 (.fin s) b.index.z z⟩) b.x.length (by
      intro k hk
      have ky : k < b.y.length := by omega
      have kz : k < b.z.length := by omega
      refine ⟨_, ?_, b.x[k], b.y[k], b.z[k], List.getElem?_eq_getElem hk, List.getElem?_eq_getElem ky, List.getElem?_eq_getElem kz,
        hx _ (List.getElem_mem hk), hy _ (List.getElem_mem ky), hz _ (List.getElem_mem kz), rfl⟩
      unfold decodeVertex
      rw [MeshOps.at_ok hk, Outcome.bind_ok, MeshOps.at_ok ky, Outcome.bind_ok, MeshOps.at_ok kz, Outcome.bind_ok]
      rfl)
  obtain ⟨t, ht⟩ := h3
  have hvl : vs.length = 3 * t := by omega
  obtain ⟨ns, e2, l2, g2⟩ := Merge.mapM_range (f := triangleNormals vs)
    (P := fun _ l => ∃ n : Vec3 ℚ, l = [n.map .fin, n.map .fin, n.map .fin] ∧ |n.x| ≤ 1 + 8 * u ∧ |n.y| ≤ 1 + 8 * u ∧ |n.z| ≤ 1 + 8 * u) ((vs.length + 2) / 3) (by
      intro k hk
      have k0 : 3 * k < vs.length := by omega
      have k1 : 3 * k + 1 < vs.length := by omega
      have k2 : 3 * k + 2 < vs.length := by omega
      obtain ⟨p0, a0, x0, y0, z0, -, -, -, bx0, by0, bz0, c0⟩ := g1 (3 * k) (by omega)
      obtain ⟨p1, a1, x1, y1, z1, -, -, -, bx1, by1, bz1, c1⟩ := g1 (3 * k + 1) (by omega)
      obtain ⟨p2, a2, x2, y2, z2, -, -, -, bx2, by2, bz2, c2⟩ := g1 (3 * k + 2) (by omega)
      obtain ⟨cx, cy, cz⟩ := cross_apart (a := float32.vsub p0 p1) (b := float32.vsub p0 p2)
        (by rw [c0, c1]; exact decode_apart h1 h2 hi.1 bx0 bx1) (by rw [c0, c1]; exact decode_apart h1 h2 hi.2.1 by0 by1)
        (by rw [c0, c1]; exact decode_apart h1 h2 hi.2.2 bz0 bz1)
        (by rw [c0, c2]; exact decode_apart h1 h2 hi.1 bx0 bx2) (by rw [c0, c2]; exact decode_apart h1 h2 hi.2.1 by0 by2)
        (by rw [c0, c2]; exact decode_apart h1 h2 hi.2.2 bz0 bz2)
      obtain ⟨n, hn, nx, ny, nz⟩ := normalized_unit cx cy cz
      refine ⟨_, ?_, n, rfl, nx, ny, nz⟩
      unfold triangleNormals
      rw [some_at a0, Outcome.bind_ok, some_at a1, Outcome.bind_ok, some_at a2, Outcome.bind_ok]
      dsimp only
      rw [hn]
      rfl)
  have hmem : ∀ l ∈ ns, ∃ n : Vec3 ℚ, l = [n.map .fin, n.map .fin, n.map .fin] ∧ |n.x| ≤ 1 + 8 * u ∧ |n.y| ≤ 1 + 8 * u ∧ |n.z| ≤ 1 + 8 * u := by
    intro l hl
    obtain ⟨k, hkl, hkn⟩ := List.getElem_of_mem hl
    obtain ⟨y, hy, hP⟩ := g2 k (by omega)
    rw [List.getElem?_eq_getElem hkl, hkn] at hy
    rw [Option.some.inj hy]
    exact hP
  have hnl : ns.flatten.length = b.x.length := by
    have : ∀ l : List (List (Vec3 Fl)), (∀ n ∈ l, n.length = 3) → l.flatten.length = 3 * l.length := by
      intro l
      induction l with
      | nil => simp
      | cons a l ih =>
        intro h
        rw [List.flatten_cons, List.length_append, h a (by simp), ih fun n hn => h n (by simp [hn]), List.length_cons]
        omega
    rw [this ns (fun l hl => by obtain ⟨n, rfl, -⟩ := hmem l hl; rfl), l2]
    omega
  have hnk : ∀ k < b.x.length, ∃ n : Vec3 ℚ, ns.flatten[k]? = some (n.map .fin) ∧ |n.x| ≤ 1 + 8 * u ∧ |n.y| ≤ 1 + 8 * u ∧ |n.z| ≤ 1 + 8 * u := by
    intro k hk
    have hk' : k < ns.flatten.length := by omega
    obtain ⟨l, hl, hv⟩ := List.mem_flatten.1 (List.getElem_mem hk')
    obtain ⟨n, rfl, hn⟩ := hmem l hl
    refine ⟨n, ?_, hn⟩
    rw [List.getElem?_eq_getElem hk']
    simp only [List.mem_cons, List.not_mem_nil, or_false, or_self] at hv
    rw [hv]
  obtain ⟨cs, e3, l3, g3⟩ := Merge.mapM_range (f := displayColor b ns.flatten)
    (P := fun k c => ∃ n : Vec3 ℚ, ns.flatten[k]? = some (n.map .fin) ∧ NormalColor n c) b.x.length (by
      intro k hk
      obtain ⟨n, hn, nx, ny, nz⟩ := hnk k hk
      obtain ⟨r, r1, r2⟩ := displayed_channel nx
      obtain ⟨g, g1', g2'⟩ := displayed_channel ny
      obtain ⟨bl, b1, b2⟩ := displayed_channel nz
      refine ⟨⟨r, g, bl, 255⟩, ?_, n, hn, r2, g2', b2, rfl⟩
      unfold displayColor
      rw [if_neg hr, some_at hn, Outcome.bind_ok]
      dsimp only [Vec3.map]
      rw [r1, Outcome.bind_ok, g1', Outcome.bind_ok, b1, Outcome.bind_ok]
      rfl)
  refine ⟨⟨vs, List.range b.x.length, ns.flatten, cs, false⟩, ?_, l1, l3, ?_, ?_⟩
  · unfold decodeBlock
    rw [e1, Outcome.bind_ok, e2, Outcome.bind_ok, e3, Outcome.bind_ok]
    rfl
  · intro k hk
    obtain ⟨p, hp, x, y, z, a1, a2, a3, -, -, -, rfl⟩ := g1 k hk
    exact ⟨x, y, z, a1, a2, a3, hp⟩
  · intro k hk
    obtain ⟨c, hc, n, hn, hs⟩ := g3 k hk
    exact ⟨n, c, hn, hc, hs⟩

end Vox.MeshMsg
