/-
The colours of heights: the rainbow in `double` arithmetic.
-/
import Verif.Lemmas.MarkerColor

namespace Vox.ColorMap

open Spec Ieee

/-- Channels of a colour and of a hue differ by at most `e`. -/
theorem switch_near {rnd : ℚ → ℚ} {e : ℚ} (he : 0 ≤ e) (z : rnd 0 = 0) (t : rnd 255 = 255) {i : ℤ} (i0 : 0 ≤ i) (i6 : i ≤ 6) {n n' : ℚ} (hn : |rnd (255 * n) - 255 * n'| ≤ e) :
    |(switch rnd i 1 0 n).x - (switch id i 1 0 n').x| ≤ e ∧ |(switch rnd i 1 0 n).y - (switch id i 1 0 n').y| ≤ e ∧
      |(switch rnd i 1 0 n).z - (switch id i 1 0 n').z| ≤ e := by
  interval_cases i <;> simp [switch, z, t, he, hn]

theorem switch_hue_closed {x : ℚ} (h0 : 0 ≤ x) (h1 : x ≤ 1) :
    switch id ⌊x * 6⌋ 1 0 (1 - ramp id (x * 6)) = ⟨255 * hueRed x, 255 * hueGreen x, 255 * hueBlue x⟩ := by
  rcases lt_or_eq_of_le h1 with h | rfl
  · exact switch_hue h0 h
  · decide +kernel

/-- The rainbow under a rounding with small errors. -/
theorem rainbow_near {rnd : ℚ → ℚ} (mono : Monotone rnd) (hint : ∀ k : ℕ, k ≤ 255 → rnd k = k) (err : ∀ x, |x| ≤ 300 → |rnd x - x| ≤ 1 / 2 ^ 40) (h : ℚ) :
    ∃ c, rainbow rnd h = .ok c ∧ c.a = 255 ∧ |(c.r.toNat : ℚ) - 255 * hueRed (h - ⌊h⌋)| ≤ 1 + 1 / 2 ^ 20 ∧
      |(c.g.toNat : ℚ) - 255 * hueGreen (h - ⌊h⌋)| ≤ 1 + 1 / 2 ^ 20 ∧ |(c.b.toNat : ℚ) - 255 * hueBlue (h - ⌊h⌋)| ≤ 1 + 1 / 2 ^ 20 := by
  have z : rnd 0 = 0 := by simpa using hint 0 (by omega)
  have t : rnd 255 = 255 := by simpa using hint 255 (by omega)
  have f0 := Int.floor_le h
  have f1 := Int.lt_floor_add_one h
  set x := h - ⌊h⌋ with hx
  have x0 : 0 ≤ x := by linarith
  have x1 : x ≤ 1 := by linarith
  have unit : ∀ q : ℚ, 0 ≤ q → q ≤ 1 → |q| ≤ 300 := fun q a b => abs_le.2 ⟨by linarith, by linarith⟩
  obtain ⟨a0, a1⟩ := rnd_unit mono hint x0 x1
  have ea := abs_le.1 (err x (unit _ x0 x1))
  obtain ⟨b0, b1⟩ := rnd_le mono hint (q := rnd x * 6) (k := 6) (by omega) (by linarith) (by push_cast; linarith)
  have eb := abs_le.1 (err (rnd x * 6) (abs_le.2 ⟨by linarith, by linarith⟩))
  push_cast at b1
  set H := rnd (rnd x * 6) with hH
  have g0 := Int.floor_le H
  have g1 := Int.lt_floor_add_one H
  obtain ⟨c0, c1⟩ := rnd_unit mono hint (q := H - ⌊H⌋) (by linarith) (by linarith)
  have ec := abs_le.1 (err (H - ⌊H⌋) (unit _ (by linarith) (by linarith)))
  have hf : (0 ≤ ramp rnd H ∧ ramp rnd H ≤ 1) ∧ |ramp rnd H - ramp id H| ≤ 2 / 2 ^ 40 := by
    unfold ramp
    split_ifs
    · have := abs_le.1 (err (1 - rnd (H - ⌊H⌋)) (unit _ (by linarith) (by linarith)))
      refine ⟨rnd_unit mono hint (by linarith) (by linarith), abs_le.2 ⟨?_, ?_⟩⟩ <;> simp only [id] <;> linarith
    · refine ⟨⟨c0, c1⟩, abs_le.2 ⟨?_, ?_⟩⟩ <;> simp only [id] <;> linarith
  obtain ⟨⟨r0, r1⟩, er⟩ := hf
  have er := abs_le.1 er
  obtain ⟨i0, i6⟩ := floor_two b0 b1 rfl
  obtain ⟨d0, d1⟩ := rnd_unit mono hint (q := 1 * ramp rnd H) (by linarith) (by linarith)
  have ed := abs_le.1 (err (1 * ramp rnd H) (unit _ (by linarith) (by linarith)))
  obtain ⟨e0, e1⟩ := rnd_unit mono hint (q := 1 - rnd (1 * ramp rnd H)) (by linarith) (by linarith)
  have ee := abs_le.1 (err (1 - rnd (1 * ramp rnd H)) (unit _ (by linarith) (by linarith)))
  obtain ⟨n0, n1⟩ := rnd_unit mono hint (q := 1 * rnd (1 - rnd (1 * ramp rnd H))) (by linarith) (by linarith)
  have en := abs_le.1 (err (1 * rnd (1 - rnd (1 * ramp rnd H))) (unit _ (by linarith) (by linarith)))
  set n := rnd (1 * rnd (1 - rnd (1 * ramp rnd H))) with hn
  have ek := abs_le.1 (err (255 * n) (abs_le.2 ⟨by linarith, by linarith⟩))
  obtain ⟨k0, k1⟩ := rnd_le mono hint (q := 255 * n) (k := 255) (by omega) (by linarith) (by push_cast; linarith)
  push_cast at k1
  have near : |rnd (255 * n) - 255 * (1 - ramp id H)| ≤ 2000 / 2 ^ 40 := abs_le.2 ⟨by linarith, by linarith⟩
  obtain ⟨sx, sy, sz⟩ := switch_near (by norm_num) z t i0 i6 near
  have hs := switch_hue_closed (x := H / 6) (by linarith) (by linarith)
  rw [div_mul_cancel₀ H (by norm_num : (6 : ℚ) ≠ 0)] at hs
  rw [hs] at sx sy sz
  have hd : |H / 6 - x| ≤ 2 / 2 ^ 40 := abs_le.2 ⟨by linarith, by linarith⟩
  obtain ⟨lx, ly, lz⟩ := hue_lip (H / 6) x
  have hm : rnd (1 * rnd (1 - 1)) = 0 := by rw [sub_self, z, mul_zero, z]
  have hr : rainbow rnd h = (do
      let r ← toByte (switch rnd ⌊H⌋ 1 0 n).x
      let g ← toByte (switch rnd ⌊H⌋ 1 0 n).y
      let b ← toByte (switch rnd ⌊H⌋ 1 0 n).z
      pure ⟨r, g, b, 255⟩) := by
    unfold rainbow
    simp only [← hx, ← hH, ← hn, hm]
  have range : (0 ≤ (switch rnd ⌊H⌋ 1 0 n).x ∧ (switch rnd ⌊H⌋ 1 0 n).x ≤ 255) ∧ (0 ≤ (switch rnd ⌊H⌋ 1 0 n).y ∧ (switch rnd ⌊H⌋ 1 0 n).y ≤ 255) ∧
      (0 ≤ (switch rnd ⌊H⌋ 1 0 n).z ∧ (switch rnd ⌊H⌋ 1 0 n).z ≤ 255) := by
    generalize ⌊H⌋ = i at i0 i6 ⊢
    interval_cases i <;> simp [switch, z, t, k0, k1]
  obtain ⟨⟨rx0, rx1⟩, ⟨ry0, ry1⟩, rz0, rz1⟩ := range
  obtain ⟨R, hR, fR⟩ := toByte_ok rx0 rx1
  obtain ⟨G, hG, fG⟩ := toByte_ok ry0 ry1
  obtain ⟨B, hB, fB⟩ := toByte_ok rz0 rz1
  have fin : ∀ {q T T' : ℚ} {b : BitVec 8}, (b.toNat : ℤ) = ⌊q⌋ → |q - 255 * T| ≤ 2000 / 2 ^ 40 → |T - T'| ≤ 6 * |H / 6 - x| →
      |(b.toNat : ℚ) - 255 * T'| ≤ 1 + 1 / 2 ^ 20 := by
    intro q T T' b hb h1 h2
    have e : (b.toNat : ℚ) = ((⌊q⌋ : ℤ) : ℚ) := by exact_mod_cast hb
    have p0 := Int.floor_le q
    have p1 := Int.lt_floor_add_one q
    have h1 := abs_le.1 h1
    have h2 := abs_le.1 h2
    rw [e]
    have k1 : (2000 / 2 ^ 40 : ℚ) ≤ 1 / 2 ^ 21 := by norm_num
    have k2 : 255 * (6 * |H / 6 - x|) ≤ 1 / 2 ^ 21 := by
      have : (255 * (6 * (2 / 2 ^ 40)) : ℚ) ≤ 1 / 2 ^ 21 := by norm_num
      linarith
    have k3 : (1 / 2 ^ 20 : ℚ) = 1 / 2 ^ 21 + 1 / 2 ^ 21 := by norm_num
    rw [abs_le, k3]
    constructor <;> linarith
  refine ⟨⟨R, G, B, 255⟩, ?_, rfl, fin fR sx lx, fin fG sy ly, fin fB sz lz⟩
  rw [hr, hR, Outcome.bind_ok, hG, Outcome.bind_ok, hB, Outcome.bind_ok]
  rfl

/-- The three channels at a hue by sextant. -/
theorem hue_sextant {x : ℚ} (h0 : 0 ≤ x) (h1 : x ≤ 1) :
    (x ≤ 1 / 6 ∧ hueRed x = 1 ∧ hueGreen x = 6 * x ∧ hueBlue x = 0) ∨ (1 / 6 ≤ x ∧ x ≤ 2 / 6 ∧ hueRed x = 2 - 6 * x ∧ hueGreen x = 1 ∧ hueBlue x = 0) ∨
    (2 / 6 ≤ x ∧ x ≤ 3 / 6 ∧ hueRed x = 0 ∧ hueGreen x = 1 ∧ hueBlue x = 6 * x - 2) ∨ (3 / 6 ≤ x ∧ x ≤ 4 / 6 ∧ hueRed x = 0 ∧ hueGreen x = 4 - 6 * x ∧ hueBlue x = 1) ∨
    (4 / 6 ≤ x ∧ x ≤ 5 / 6 ∧ hueRed x = 6 * x - 4 ∧ hueGreen x = 0 ∧ hueBlue x = 1) ∨ (5 / 6 ≤ x ∧ hueRed x = 1 ∧ hueGreen x = 0 ∧ hueBlue x = 6 - 6 * x) := by
  unfold hueRed hueGreen hueBlue
  rcases le_total x (1 / 6) with a | a
  · left
    rw [abs_of_nonpos (by linarith), abs_of_nonpos (by linarith), abs_of_nonpos (by linarith), clamp01_one (by linarith), clamp01_mid (by linarith) (by linarith),
      clamp01_zero (by linarith)]
    exact ⟨a, rfl, by ring, rfl⟩
  right
  rcases le_total x (2 / 6) with b | b
  · left
    rw [abs_of_nonpos (by linarith), abs_of_nonpos (by linarith), abs_of_nonpos (by linarith), clamp01_mid (by linarith) (by linarith), clamp01_one (by linarith),
      clamp01_zero (by linarith)]
    exact ⟨a, b, by ring, rfl, rfl⟩
  right
  rcases le_total x (3 / 6) with c | c
  · left
    rw [abs_of_nonpos (by linarith), abs_of_nonneg (by linarith), abs_of_nonpos (by linarith), clamp01_zero (by linarith), clamp01_one (by linarith),
      clamp01_mid (by linarith) (by linarith)]
    exact ⟨b, c, rfl, rfl, by ring⟩
  right
  rcases le_total x (4 / 6) with d | d
  · left
    rw [abs_of_nonneg (by linarith), abs_of_nonneg (by linarith), abs_of_nonpos (by linarith), clamp01_zero (by linarith),
      clamp01_mid (by linarith) (by linarith), clamp01_one (by linarith)]
    exact ⟨c, d, rfl, by ring, rfl⟩
  right
  rcases le_total x (5 / 6) with e | e
  · left
    rw [abs_of_nonneg (by linarith), abs_of_nonneg (by linarith), abs_of_nonneg (by linarith), clamp01_mid (by linarith) (by linarith), clamp01_zero (by linarith),
      clamp01_one (by linarith)]
    exact ⟨d, e, by ring, rfl, rfl⟩
  · right
    rw [abs_of_nonneg (by linarith), abs_of_nonneg (by linarith), abs_of_nonneg (by linarith), clamp01_one (by linarith), clamp01_zero (by linarith),
      clamp01_mid (by linarith) (by linarith)]
    exact ⟨e, rfl, rfl, by ring⟩

/-- Hues with nearly equal channels are close on the circle. -/
theorem hue_inj {x y d : ℚ} (hd : d ≤ 1 / 3) (x0 : 0 ≤ x) (y1 : y ≤ 1) (hxy : x ≤ y) (hr : |hueRed x - hueRed y| < 3 * d) (hg : |hueGreen x - hueGreen y| < 3 * d)
    (hb : |hueBlue x - hueBlue y| < 3 * d) : y - x < d ∨ 1 - d < y - x := by
  have hr := abs_lt.1 hr
  have hg := abs_lt.1 hg
  have hb := abs_lt.1 hb
  rcases hue_sextant x0 (hxy.trans y1) with ⟨a1, r, g, b⟩ | ⟨a1, a2, r, g, b⟩ | ⟨a1, a2, r, g, b⟩ | ⟨a1, a2, r, g, b⟩ | ⟨a1, a2, r, g, b⟩ | ⟨a1, r, g, b⟩ <;>
    rcases hue_sextant (x0.trans hxy) y1 with ⟨a1', r', g', b'⟩ | ⟨a1', a2', r', g', b'⟩ | ⟨a1', a2', r', g', b'⟩ | ⟨a1', a2', r', g', b'⟩ | ⟨a1', a2', r', g', b'⟩ | ⟨a1', r', g', b'⟩ <;>
    rw [r, r'] at hr <;> rw [g, g'] at hg <;> rw [b, b'] at hb <;>
    first
      | (left; linarith)
      | (right; linarith)

end Vox.ColorMap

namespace Vox.MeshMsg

open MC MeshInt Spec Ieee ColorMap

theorem rainbow_double (h : ℚ) : ∃ c, rainbow rnd64 h = .ok c ∧ c.a = 255 ∧ |(c.r.toNat : ℚ) - 255 * hueRed (h - ⌊h⌋)| ≤ 1 + 1 / 2 ^ 20 ∧
    |(c.g.toNat : ℚ) - 255 * hueGreen (h - ⌊h⌋)| ≤ 1 + 1 / 2 ^ 20 ∧ |(c.b.toNat : ℚ) - 255 * hueBlue (h - ⌊h⌋)| ≤ 1 + 1 / 2 ^ 20 :=
  rainbow_near (fun _ _ h => rne_mono (by norm_num) h) (fun _ hk => rnd64_nat hk) (fun _ hx => rnd64_small hx) h

theorem heightColor_eq (z : Fl) : heightColor z = (match (fun h : Fl => if Fl.lt (.fin 1) h then Fl.fin 1 else h)
      ((fun h : Fl => if Fl.lt h (.fin 0) then Fl.fin 0 else h) (toFloat (float64.div (float64.sub z (.fin (-1))) (.fin 11)))) with
    | .fin q => do
      let c ← ColorMap.rainbow rnd64 q
      pure (colorToMsg c)
    | _ => .ub) := rfl

theorem height_between {z : ℚ} (h0 : -1 ≤ z) (h1 : z ≤ 10) : ∃ q, toFloat (float64.div (float64.sub (.fin z) (.fin (-1))) (.fin 11)) = .fin q ∧
    0 ≤ q ∧ q ≤ 1 ∧ |q - (z + 1) / 11| ≤ 1 / 2 ^ 23 := by
  have m64 : Monotone rnd64 := fun _ _ h => rne_mono (by norm_num) h
  have b1 : |z - -1| ≤ 300 := abs_le.2 ⟨by linarith, by linarith⟩
  have m1 : float64.sub (.fin z) (.fin (-1)) = .fin (rnd64 (z - -1)) := by rw [sub_eq_add_neg] at b1 ⊢; exact rnd64_ok b1
  have e1 := abs_le.1 (rnd64_small b1)
  obtain ⟨s0, s1⟩ := rnd_le m64 (fun _ hk => rnd64_nat hk) (q := z - -1) (k := 11) (by omega) (by linarith) (by push_cast; linarith)
  push_cast at s1
  rw [m1]
  generalize rnd64 (z - -1) = s at *
  have b2 : |s / 11| ≤ 300 := abs_le.2 ⟨by linarith, by linarith⟩
  have m2 : float64.div (.fin s) (.fin 11) = .fin (rnd64 (s / 11)) := by
    unfold Arith.div
    dsimp only
    rw [if_neg (by norm_num)]
    exact rnd64_ok b2
  have e2 := abs_le.1 (rnd64_small b2)
  obtain ⟨t0, t1⟩ := rnd_unit m64 (fun _ hk => rnd64_nat hk) (q := s / 11) (by linarith) (by linarith)
  rw [m2]
  generalize rnd64 (s / 11) = t at *
  have r0 : 0 ≤ rnd32 t := by have := rnd32_mono t0; rwa [show rnd32 0 = 0 by decide +kernel] at this
  have r1 : rnd32 t ≤ 1 := by have := rnd32_mono t1; rwa [show rnd32 1 = 1 by decide +kernel] at this
  have er := IndexF.rnd32_err t
  have hu : IndexF.u * |t| ≤ 1 / 2 ^ 24 := by
    rw [abs_of_nonneg t0]
    have : (0 : ℚ) ≤ IndexF.u := by unfold IndexF.u; positivity
    calc IndexF.u * t ≤ IndexF.u * 1 := mul_le_mul_of_nonneg_left t1 this
      _ = 1 / 2 ^ 24 := by unfold IndexF.u; norm_num
  have heta := eta_small
  have er' := abs_le.1 (er.trans (show _ ≤ (1 : ℚ) / 2 ^ 24 + 1 / 16777216 / 10000000 / 2 ^ 60 by linarith))
  refine ⟨rnd32 t, rnd_of_lt (lt_of_le_of_lt (abs_le.2 ⟨by linarith, r1⟩) (by norm_num)), r0, r1, abs_le.2 ⟨?_, ?_⟩⟩ <;>
    · norm_num at er' e1 e2 ⊢; linarith

/-- The colour of a height in the range is the hue of its place in the range. -/
theorem heightColor_between {z : ℚ} (h0 : -1 ≤ z) (h1 : z ≤ 10) : ∃ c, heightColor (.fin z) = .ok (colorToMsg c) ∧
    |(c.r.toNat : ℚ) - 255 * hueRed ((z + 1) / 11)| ≤ 1 + 1 / 2 ^ 12 ∧ |(c.g.toNat : ℚ) - 255 * hueGreen ((z + 1) / 11)| ≤ 1 + 1 / 2 ^ 12 ∧
    |(c.b.toNat : ℚ) - 255 * hueBlue ((z + 1) / 11)| ≤ 1 + 1 / 2 ^ 12 := by
  obtain ⟨q, hq, q0, q1, e⟩ := height_between h0 h1
  obtain ⟨c, hc, -, hr, hg, hb⟩ := rainbow_double q
  obtain ⟨fr, fg, fb⟩ := hue_frac q0 q1
  rw [fr] at hr
  rw [fg] at hg
  rw [fb] at hb
  obtain ⟨lr, lg, lb⟩ := hue_lip q ((z + 1) / 11)
  have fin : ∀ {n T T' : ℚ}, |n - 255 * T| ≤ 1 + 1 / 2 ^ 20 → |T - T'| ≤ 6 * |q - (z + 1) / 11| → |n - 255 * T'| ≤ 1 + 1 / 2 ^ 12 := by
    intro n T T' a b
    have a := abs_le.1 a
    have b := abs_le.1 b
    refine abs_le.2 ⟨?_, ?_⟩ <;> · norm_num at a b e ⊢; linarith
  refine ⟨c, ?_, fin hr lr, fin hg lg, fin hb lb⟩
  rw [heightColor_eq, hq]
  simp only [Fl.lt, not_lt.2 q0, not_lt.2 q1, decide_false, if_false, Bool.false_eq_true]
  rw [hc]
  rfl

theorem red_at_ends : rainbow rnd64 0 = .ok ⟨255, 0, 0, 255⟩ ∧ rainbow rnd64 1 = .ok ⟨255, 0, 0, 255⟩ := by decide +kernel

/-- Heights above the range have the mapped height 1. -/
theorem heightColor_above {z : ℚ} (h : 10 ≤ z) : heightColor (.fin z) = .ok (colorToMsg ⟨255, 0, 0, 255⟩) := by
  have key : ∃ x, toFloat (float64.div (float64.sub (.fin z) (.fin (-1))) (.fin 11)) = x ∧ (x = .pinf ∨ ∃ q, x = .fin q ∧ 1 ≤ q) := by
    have s1 : 11 ≤ rnd64 (z - -1) := by
      have := rne_mono (p := 53) (qmin := -1074) (by norm_num) (show (11 : ℚ) ≤ z - -1 by linarith)
      rwa [show rne 53 (-1074) 11 = 11 by decide +kernel] at this
    have m1 : float64.sub (.fin z) (.fin (-1)) = overflow (2 ^ 1024) (rnd64 (z - -1)) := by rw [sub_eq_add_neg]; rfl
    rw [m1]
    generalize rnd64 (z - -1) = s at *
    unfold overflow
    split_ifs with a b
    · refine ⟨_, rfl, Or.inl ?_⟩
      unfold Arith.div; dsimp only; rw [if_pos (by norm_num)]; rfl
    · have : (0 : ℚ) < 2 ^ 1024 := by positivity
      generalize (2 : ℚ) ^ 1024 = L at *
      linarith
    · have t1 : 1 ≤ rnd64 (s / 11) := by
        have := rne_mono (p := 53) (qmin := -1074) (by norm_num) (show (1 : ℚ) ≤ s / 11 by linarith)
        rwa [show rne 53 (-1074) 1 = 1 by decide +kernel] at this
      have m2 : float64.div (.fin s) (.fin 11) = overflow (2 ^ 1024) (rnd64 (s / 11)) := by
        unfold Arith.div
        dsimp only
        rw [if_neg (by norm_num)]
        rfl
      rw [m2]
      generalize rnd64 (s / 11) = t at *
      unfold overflow
      split_ifs with c d
      · exact ⟨_, rfl, Or.inl rfl⟩
      · have : (0 : ℚ) < 2 ^ 1024 := by positivity
        generalize (2 : ℚ) ^ 1024 = L at *
        linarith
      · have r1 : 1 ≤ rnd32 t := by have := rnd32_mono t1; rwa [show rnd32 1 = 1 by decide +kernel] at this
        have m3 : toFloat (.fin t) = overflow (2 ^ 128) (rnd32 t) := rfl
        rw [m3]
        unfold overflow
        split_ifs with e f
        · exact ⟨_, rfl, Or.inl rfl⟩
        · linarith
        · exact ⟨_, rfl, Or.inr ⟨_, rfl, r1⟩⟩
  obtain ⟨x, hx, h⟩ := key
  have one : (fun h : Fl => if Fl.lt (.fin 1) h then Fl.fin 1 else h) ((fun h : Fl => if Fl.lt h (.fin 0) then Fl.fin 0 else h) x) = .fin 1 := by
    rcases h with rfl | ⟨q, rfl, hq⟩
    · simp [Fl.lt]
    · have n0 : ¬ q < 0 := by linarith
      rcases lt_or_eq_of_le hq with h | h
      · simp [Fl.lt, n0, h]
      · simp [Fl.lt, ← h]
  rw [heightColor_eq, hx, one]
  dsimp only
  rw [red_at_ends.2]
  rfl

/-- Heights below the range have the mapped height 0. -/
theorem heightColor_below {z : ℚ} (h : z ≤ -1) : heightColor (.fin z) = .ok (colorToMsg ⟨255, 0, 0, 255⟩) := by
  have key : ∃ x, toFloat (float64.div (float64.sub (.fin z) (.fin (-1))) (.fin 11)) = x ∧ (x = .ninf ∨ ∃ q, x = .fin q ∧ q ≤ 0) := by
    have s1 : rnd64 (z - -1) ≤ 0 := by
      have := rne_mono (p := 53) (qmin := -1074) (by norm_num) (show z - -1 ≤ (0 : ℚ) by linarith)
      rwa [rne_zero] at this
    have m1 : float64.sub (.fin z) (.fin (-1)) = overflow (2 ^ 1024) (rnd64 (z - -1)) := by rw [sub_eq_add_neg]; rfl
    rw [m1]
    generalize rnd64 (z - -1) = s at *
    have big : (0 : ℚ) < 2 ^ 1024 := by positivity
    unfold overflow
    split_ifs with a b
    · generalize (2 : ℚ) ^ 1024 = L at *
      linarith
    · refine ⟨_, rfl, Or.inl ?_⟩
      unfold Arith.div; dsimp only; rw [if_pos (by norm_num)]; rfl
    · have t1 : rnd64 (s / 11) ≤ 0 := by
        have := rne_mono (p := 53) (qmin := -1074) (by norm_num) (show s / 11 ≤ (0 : ℚ) by linarith)
        rwa [rne_zero] at this
      have m2 : float64.div (.fin s) (.fin 11) = overflow (2 ^ 1024) (rnd64 (s / 11)) := by
        unfold Arith.div
        dsimp only
        rw [if_neg (by norm_num)]
        rfl
      rw [m2]
      generalize rnd64 (s / 11) = t at *
      unfold overflow
      split_ifs with c d
      · generalize (2 : ℚ) ^ 1024 = L at *
        linarith
      · exact ⟨_, rfl, Or.inl rfl⟩
      · have r1 : rnd32 t ≤ 0 := by have := rnd32_mono t1; rwa [show rnd32 0 = 0 by decide +kernel] at this
        have m3 : toFloat (.fin t) = overflow (2 ^ 128) (rnd32 t) := rfl
        rw [m3]
        unfold overflow
        split_ifs with e f
        · linarith
        · exact ⟨_, rfl, Or.inl rfl⟩
        · exact ⟨_, rfl, Or.inr ⟨_, rfl, r1⟩⟩
  obtain ⟨x, hx, h⟩ := key
  have one : (fun h : Fl => if Fl.lt (.fin 1) h then Fl.fin 1 else h) ((fun h : Fl => if Fl.lt h (.fin 0) then Fl.fin 0 else h) x) = .fin 0 := by
    rcases h with rfl | ⟨q, rfl, hq⟩
    · simp [Fl.lt]
    · rcases lt_or_eq_of_le hq with h | h
      · simp [Fl.lt, h]
      · simp [Fl.lt, h]
  rw [heightColor_eq, hx, one]
  dsimp only
  rw [red_at_ends.1]
  rfl

/-- The channels of every height are near the hue of its place in the range. -/
theorem heightColor_tint (z : ℚ) : ∃ c, heightColor (.fin z) = .ok (colorToMsg c) ∧
    FloatNear (channelToMsg c.r) (hueRed (clamp01 ((z + 1) / 11))) (1 / 254) ∧ FloatNear (channelToMsg c.g) (hueGreen (clamp01 ((z + 1) / 11))) (1 / 254) ∧
    FloatNear (channelToMsg c.b) (hueBlue (clamp01 ((z + 1) / 11))) (1 / 254) := by
  have fin : ∀ {b : BitVec 8} {T : ℚ}, |(b.toNat : ℚ) - 255 * T| ≤ 1 + 1 / 2 ^ 12 → FloatNear (channelToMsg b) T (1 / 254) := by
    intro b T h
    obtain ⟨q, hq, e⟩ := channel_near b
    refine ⟨q, hq, ?_⟩
    have h := abs_le.1 h
    have e := abs_le.1 e
    refine abs_le.2 ⟨?_, ?_⟩ <;> · norm_num at h e ⊢; linarith
  have red : ∀ {t : ℚ}, t = 0 ∨ t = 1 → FloatNear (channelToMsg 255) (hueRed t) (1 / 254) ∧ FloatNear (channelToMsg 0) (hueGreen t) (1 / 254) ∧
      FloatNear (channelToMsg 0) (hueBlue t) (1 / 254) := by
    rintro t (rfl | rfl) <;> refine ⟨fin ?_, fin ?_, fin ?_⟩ <;> decide +kernel
  rcases le_total z (-1) with a | a
  · exact ⟨_, heightColor_below a, red (Or.inl (clamp01_zero (by linarith)))⟩
  rcases le_total 10 z with b | b
  · exact ⟨_, heightColor_above b, red (Or.inr (clamp01_one (by linarith)))⟩
  · obtain ⟨c, hc, hr, hg, hb⟩ := heightColor_between a b
    rw [clamp01_mid (by linarith) (by linarith)]
    exact ⟨c, hc, fin hr, fin hg, fin hb⟩

end Vox.MeshMsg
