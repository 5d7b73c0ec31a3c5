/-
The cloud coloured by distance: the colour is always defined, and monotone in the distance; closed form of the loop.
-/
import Verif.Lemmas.PtCloud
import Verif.Lemmas.ColorMap
import Verif.Lemmas.MeshColorMsg

namespace Vox.PtCloud

open Layer Grid Spec Eval Slice Ieee MeshMsg ColorMap

variable {V R : Type}

/-! ### The hue -/

/-- The distance cut to the range. -/
def cut (r : ℚ) : Fl → ℚ
  | .nan => 0
  | .ninf => -r
  | .pinf => r
  | .fin q => min (max q (-r)) r

theorem cut_eq {r : ℚ} (hr : 0 < r) {d : Fl} (hd : d ≠ .nan) : Fl.stdMin (Fl.stdMax d (Fl.neg (.fin r))) (.fin r) = .fin (cut r d) := by
  unfold Fl.stdMin Fl.stdMax Fl.neg cut
  cases d with
  | nan => exact absurd rfl hd
  | ninf =>
    have : ¬ r < -r := by linarith
    simp [Fl.lt, this]
  | pinf => simp [Fl.lt]
  | fin q =>
    simp only [Fl.lt, decide_eq_true_eq]
    by_cases h1 : q < -r
    · rw [if_pos h1]
      simp only [decide_eq_true_eq]
      rw [if_neg (by linarith), max_eq_right h1.le, min_eq_left (by linarith)]
    · rw [if_neg h1]
      simp only [decide_eq_true_eq]
      rw [max_eq_left (not_lt.1 h1)]
      by_cases h2 : r < q
      · rw [if_pos h2, min_eq_right h2.le]
      · rw [if_neg h2, min_eq_left (not_lt.1 h2)]

theorem cut_bounds {r : ℚ} (hr : 0 < r) (d : Fl) : -r ≤ cut r d ∧ cut r d ≤ r := by
  unfold cut
  cases d with
  | nan => constructor <;> simp only <;> linarith
  | ninf => constructor <;> simp only <;> linarith
  | pinf => constructor <;> simp only <;> linarith
  | fin q =>
    refine ⟨le_min (le_max_right _ _) (by linarith), min_le_right _ _⟩

/-- 0.66 as a `float`. -/
def c66 : ℚ := rnd32 (66 / 100)

theorem c66_bounds : 0 ≤ c66 ∧ c66 < 2 / 3 := by
  constructor <;> decide +kernel

/-- The hue of a distance. -/
def factor (r t : ℚ) : ℚ := rnd32 (1 / 2 * rnd32 (1 + rnd32 (t / r)))

/-- The hue of a distance. -/
def hue (r t : ℚ) : ℚ := rnd32 (c66 - rnd32 (c66 * factor r t))

theorem rnd32_zero : rnd32 0 = 0 := by simpa using IndexF.rnd32_int (n := 0) (by norm_num)
theorem rnd32_two : rnd32 2 = 2 := by simpa using IndexF.rnd32_int (n := 2) (by norm_num)
theorem rnd32_neg_one : rnd32 (-1) = -1 := by simpa using IndexF.rnd32_int (n := -1) (by norm_num)

theorem factor_steps {r t : ℚ} (hr : 0 < r) (h0 : -r ≤ t) (h1 : t ≤ r) :
    (-1 ≤ rnd32 (t / r) ∧ rnd32 (t / r) ≤ 1) ∧ (0 ≤ rnd32 (1 + rnd32 (t / r)) ∧ rnd32 (1 + rnd32 (t / r)) ≤ 2) ∧ 0 ≤ factor r t ∧ factor r t ≤ 1 := by
  have a0 : -1 ≤ t / r := by rw [le_div_iff₀ hr]; linarith
  have a1 : t / r ≤ 1 := by rw [div_le_iff₀ hr]; linarith
  have b0 := rnd32_mono a0
  have b1 := rnd32_mono a1
  rw [rnd32_neg_one] at b0
  rw [rnd32_one] at b1
  have c0 := rnd32_mono (show (0 : ℚ) ≤ 1 + rnd32 (t / r) by linarith)
  have c1 := rnd32_mono (show 1 + rnd32 (t / r) ≤ 2 by linarith)
  rw [rnd32_zero] at c0
  rw [rnd32_two] at c1
  have d0 := rnd32_mono (show (0 : ℚ) ≤ 1 / 2 * rnd32 (1 + rnd32 (t / r)) by linarith)
  have d1 := rnd32_mono (show 1 / 2 * rnd32 (1 + rnd32 (t / r)) ≤ 1 by linarith)
  rw [rnd32_zero] at d0
  rw [rnd32_one] at d1
  exact ⟨⟨b0, b1⟩, ⟨c0, c1⟩, d0, d1⟩

theorem c66_round : rnd32 c66 = c66 := rnd32_idem _

theorem hue_steps {r t : ℚ} (hr : 0 < r) (h0 : -r ≤ t) (h1 : t ≤ r) :
    (0 ≤ rnd32 (c66 * factor r t) ∧ rnd32 (c66 * factor r t) ≤ c66) ∧ 0 ≤ hue r t ∧ hue r t ≤ c66 := by
  obtain ⟨-, -, f0, f1⟩ := factor_steps hr h0 h1
  have hc := c66_bounds.1
  have a0 := rnd32_mono (mul_nonneg hc f0)
  have a1 := rnd32_mono (show c66 * factor r t ≤ c66 by nlinarith)
  rw [rnd32_zero] at a0
  rw [c66_round] at a1
  have b0 := rnd32_mono (show 0 ≤ c66 - rnd32 (c66 * factor r t) by linarith)
  have b1 := rnd32_mono (show c66 - rnd32 (c66 * factor r t) ≤ c66 by linarith)
  rw [rnd32_zero] at b0
  rw [c66_round] at b1
  exact ⟨⟨a0, a1⟩, b0, b1⟩

theorem rnd_ok {q B : ℚ} (h0 : -B ≤ rnd32 q) (h1 : rnd32 q ≤ B) (hB : B ≤ 2) : float32.rnd q = .fin (rnd32 q) := by
  refine rnd_of_lt (abs_lt.2 ⟨?_, ?_⟩)
  · have : (2 : ℚ) < 2 ^ 128 := by norm_num
    linarith
  · have : (2 : ℚ) < 2 ^ 128 := by norm_num
    linarith

theorem rnd64_mono : Monotone rnd64 := fun _ _ h => rne_mono (by norm_num) h

/-- The colour of every distance that is shown is defined: it is that of its hue. -/
theorem distanceColor_eq {r : ℚ} (hr : 0 < r) (maxValue : Fl) {d : Fl} (hd : d ≠ .nan) :
    distanceColor (.fin r) maxValue d = if Fl.lt maxValue (Fl.abs d) && Fl.lt (.fin 0) maxValue then .ok none
      else (rainbow rnd64 (hue r (cut r d)) >>= fun c => pure (some c)) := by
  obtain ⟨h0, h1⟩ := cut_bounds hr d
  obtain ⟨⟨a0, a1⟩, ⟨b0, b1⟩, f0, f1⟩ := factor_steps hr h0 h1
  obtain ⟨⟨g0, g1⟩, u0, u1⟩ := hue_steps hr h0 h1
  have hc := c66_bounds
  unfold distanceColor
  dsimp only
  rw [cut_eq hr hd]
  have e1 : float32.div (.fin (cut r d)) (.fin r) = .fin (rnd32 (cut r d / r)) := by
    show (if r = 0 then _ else float32.rnd _) = _
    rw [if_neg hr.ne', rnd_ok (B := 1) (by linarith) a1 (by norm_num)]
  have e2 : float32.add (.fin 1) (.fin (rnd32 (cut r d / r))) = .fin (rnd32 (1 + rnd32 (cut r d / r))) :=
    rnd_ok (B := 2) (by linarith) b1 le_rfl
  have e3 : float32.mul (.fin (1 / 2)) (.fin (rnd32 (1 + rnd32 (cut r d / r)))) = .fin (factor r (cut r d)) :=
    rnd_ok (B := 1) (by unfold factor at f0; linarith) f1 (by norm_num)
  have e4 : float32.rnd (66 / 100) = .fin c66 := rnd_ok (B := 1) (show -1 ≤ c66 by linarith) (show c66 ≤ 1 by linarith) (by norm_num)
  have e5 : float32.mul (.fin c66) (.fin (factor r (cut r d))) = .fin (rnd32 (c66 * factor r (cut r d))) :=
    rnd_ok (B := 1) (by linarith) (by linarith) (by norm_num)
  have e6 : float32.sub (.fin c66) (.fin (rnd32 (c66 * factor r (cut r d)))) = .fin (hue r (cut r d)) := by
    show float32.rnd (c66 + -_) = _
    rw [← sub_eq_add_neg]
    exact rnd_ok (B := 1) (by unfold hue at u0; linarith) (by unfold hue at u1; linarith) (by norm_num)
  rw [e1, e2, e3, e4, e5, e6]
  have hchk : (Fl.le (.fin (factor r (cut r d))) (.fin 1) && Fl.le (.fin 0) (.fin (factor r (cut r d)))) = true := by
    simp [Fl.le, f0, f1]
  rw [hchk, if_pos rfl]

theorem hint64 (k : ℕ) (h : k ≤ 255) : rnd64 k = k := rnd64_nat h

theorem distanceColor_total {r : ℚ} (hr : 0 < r) (maxValue : Fl) {d : Fl} (hd : d ≠ .nan) :
    ∃ o, distanceColor (.fin r) maxValue d = .ok o ∧ (o = none ↔ Fl.lt maxValue (Fl.abs d) = true ∧ Fl.lt (.fin 0) maxValue = true) := by
  rw [distanceColor_eq hr maxValue hd]
  obtain ⟨c, hc, -⟩ := rainbow_rounded rnd64_mono hint64 (hue r (cut r d))
  by_cases h : (Fl.lt maxValue (Fl.abs d) && Fl.lt (.fin 0) maxValue) = true
  · rw [if_pos h]
    exact ⟨none, rfl, by simpa using h⟩
  · rw [if_neg h, hc]
    exact ⟨some c, rfl, by simpa using h⟩

/-! ### Monotone colours -/

theorem hue_anti {r t t' : ℚ} (hr : 0 < r) (h : t ≤ t') : hue r t' ≤ hue r t := by
  have h1 : t / r ≤ t' / r := div_le_div_of_nonneg_right h hr.le
  have h2 := rnd32_mono (show 1 + rnd32 (t / r) ≤ 1 + rnd32 (t' / r) by linarith [rnd32_mono h1])
  have h3 : factor r t ≤ factor r t' := rnd32_mono (by linarith)
  have h4 := rnd32_mono (mul_le_mul_of_nonneg_left h3 c66_bounds.1)
  exact rnd32_mono (by linarith)

theorem cut_mono {r : ℚ} (hr : 0 < r) {d d' : Fl} (h : Fl.le d d' = true) : cut r d ≤ cut r d' := by
  have h1 := cut_bounds hr d
  have h2 := cut_bounds hr d'
  cases d <;> cases d' <;> simp only [Fl.le, decide_eq_true_eq, Bool.false_eq_true] at h <;> first
    | exact le_rfl
    | exact h2.1
    | exact h1.2
    | exact min_le_min_right _ (max_le_max_right _ h)

section

variable {rnd : ℚ → ℚ} (mono : Monotone rnd) (hint : ∀ k : ℕ, k ≤ 255 → rnd k = k)

/-- The three channels before the conversion to bytes, as functions of six times the hue. -/
def channels (rnd : ℚ → ℚ) (k : ℚ) : Vec3 ℚ :=
  switch rnd ⌊k⌋ 1 (rnd (1 * rnd (1 - 1))) (rnd (1 * rnd (1 - rnd (1 * ramp rnd k))))

include mono hint in
theorem channels_mono {k k' : ℚ} (h0 : 0 ≤ k) (hk : k ≤ k') (h4 : k' < 4) :
    (channels rnd k').x ≤ (channels rnd k).x ∧ (channels rnd k).z ≤ (channels rnd k').z := by
  have z : rnd 0 = 0 := by simpa using hint 0 (by omega)
  have o : rnd 1 = 1 := by simpa using hint 1 (by omega)
  have t : rnd 255 = 255 := by simpa using hint 255 (by omega)
  -- the ramp value n lies in [0, 1]
  have ramp01 : ∀ k : ℚ, 0 ≤ ramp rnd k ∧ ramp rnd k ≤ 1 := by
    intro k
    have g0 := Int.floor_le k
    have g1 := Int.lt_floor_add_one k
    obtain ⟨c0, c1⟩ := rnd_unit mono hint (q := k - ⌊k⌋) (by linarith) (by linarith)
    unfold ramp
    split_ifs
    · exact rnd_unit mono hint (by linarith) (by linarith)
    · exact ⟨c0, c1⟩
  have n01 : ∀ x : ℚ, 0 ≤ x → x ≤ 1 → 0 ≤ rnd (1 * rnd (1 - rnd (1 * x))) ∧ rnd (1 * rnd (1 - rnd (1 * x))) ≤ 1 := by
    intro x x0 x1
    obtain ⟨a0, a1⟩ := rnd_unit mono hint (q := 1 * x) (by linarith) (by linarith)
    obtain ⟨b0, b1⟩ := rnd_unit mono hint (q := 1 - rnd (1 * x)) (by linarith) (by linarith)
    exact rnd_unit mono hint (by linarith) (by linarith)
  have s01 : ∀ x : ℚ, 0 ≤ x → x ≤ 1 → 0 ≤ rnd (255 * x) ∧ rnd (255 * x) ≤ 255 := by
    intro x x0 x1
    have := rnd_le mono hint (q := 255 * x) (k := 255) (by omega) (by linarith) (by push_cast; linarith)
    exact_mod_cast this
  have nanti : ∀ x y : ℚ, x ≤ y → rnd (255 * rnd (1 * rnd (1 - rnd (1 * y)))) ≤ rnd (255 * rnd (1 * rnd (1 - rnd (1 * x)))) := by
    intro x y hxy
    have a := mono (show 1 * x ≤ 1 * y by linarith)
    have b := mono (show 1 - rnd (1 * y) ≤ 1 - rnd (1 * x) by linarith)
    have c := mono (show 1 * rnd (1 - rnd (1 * y)) ≤ 1 * rnd (1 - rnd (1 * x)) by linarith)
    exact mono (by linarith)
  have m0 : rnd (1 * rnd (1 - 1)) = 0 := by norm_num [z]
  have f0 : 0 ≤ ⌊k⌋ := Int.floor_nonneg.2 h0
  have ff : ⌊k⌋ ≤ ⌊k'⌋ := Int.floor_le_floor hk
  have f4 : ⌊k'⌋ < 4 := by rw [Int.floor_lt]; exact_mod_cast h4
  have N := n01 _ (ramp01 k).1 (ramp01 k).2
  have N' := n01 _ (ramp01 k').1 (ramp01 k').2
  have S := s01 _ N.1 N.2
  have S' := s01 _ N'.1 N'.2
  have v255 : rnd (255 * 1) = 255 := by norm_num [t]
  have v0 : rnd (255 * 0) = 0 := by norm_num [z]
  have rampodd : ∀ q : ℚ, ⌊q⌋ % 2 ≠ 0 → ramp rnd q = rnd (q - ⌊q⌋) := fun q h => by unfold ramp; rw [if_neg h]
  have rampeven : ∀ q : ℚ, ⌊q⌋ % 2 = 0 → ramp rnd q = rnd (1 - rnd (q - ⌊q⌋)) := fun q h => by unfold ramp; rw [if_pos h]
  have same1 : ⌊k⌋ = ⌊k'⌋ → ⌊k⌋ % 2 ≠ 0 → ramp rnd k ≤ ramp rnd k' := by
    intro e ho
    rw [rampodd k ho, rampodd k' (e ▸ ho), e]
    exact mono (by linarith)
  have same2 : ⌊k⌋ = ⌊k'⌋ → ⌊k⌋ % 2 = 0 → ramp rnd k' ≤ ramp rnd k := by
    intro e ho
    rw [rampeven k ho, rampeven k' (e ▸ ho), e]
    exact mono (by linarith [mono (show k - (⌊k'⌋ : ℚ) ≤ k' - ⌊k'⌋ by linarith)])
  unfold channels
  rw [m0]
  generalize hn : rnd (1 * rnd (1 - rnd (1 * ramp rnd k))) = n at *
  generalize hn' : rnd (1 * rnd (1 - rnd (1 * ramp rnd k'))) = n' at *
  have c1 : ⌊k⌋ = 0 ∨ ⌊k⌋ = 1 ∨ ⌊k⌋ = 2 ∨ ⌊k⌋ = 3 := by omega
  have c2 : ⌊k'⌋ = 0 ∨ ⌊k'⌋ = 1 ∨ ⌊k'⌋ = 2 ∨ ⌊k'⌋ = 3 := by omega
  have key1 : ⌊k⌋ = 1 → ⌊k'⌋ = 1 → rnd (255 * n') ≤ rnd (255 * n) := by
    intro e e'
    have := nanti _ _ (same1 (e.trans e'.symm) (by omega))
    rwa [hn, hn'] at this
  have key2 : ⌊k⌋ = 2 → ⌊k'⌋ = 2 → rnd (255 * n) ≤ rnd (255 * n') := by
    intro e e'
    have := nanti _ _ (same2 (e.trans e'.symm) (by omega))
    rwa [hn, hn'] at this
  rcases c1 with e | e | e | e <;> rcases c2 with e' | e' | e' | e' <;> first
    | (exfalso; omega)
    | (rw [e, e']
       norm_num [switch, v255, v0]
       try first
         | exact key1 e e'
         | exact key2 e e'
         | (constructor <;> linarith)
         | linarith)

theorem rainbow_channels (h : ℚ) : rainbow rnd h = (do
    let c := channels rnd (rnd (rnd (h - ⌊h⌋) * 6))
    let r ← ColorMap.toByte c.x
    let g ← ColorMap.toByte c.y
    let b ← ColorMap.toByte c.z
    pure ⟨r, g, b, 255⟩) := rfl

theorem toByte_le {p q : ℚ} {a b : BitVec 8} (ha : ColorMap.toByte p = .ok a) (hb : ColorMap.toByte q = .ok b) (h : p ≤ q) : a.toNat ≤ b.toNat := by
  have conv : ∀ {x : ℚ} {c : BitVec 8}, ColorMap.toByte x = .ok c → (c.toNat : ℤ) = if 0 ≤ x then ⌊x⌋ else 0 := by
    intro x c hx
    unfold ColorMap.toByte at hx
    split_ifs at hx with h1 h2
    · obtain rfl := Outcome.ok.inj hx
      rw [BitVec.toNat_ofInt, if_pos h2]
      have a0 : 0 ≤ ⌊x⌋ := Int.floor_nonneg.2 h2
      have a1 : ⌊x⌋ < 256 := by rw [Int.floor_lt]; exact_mod_cast h1.2
      omega
    · obtain rfl := Outcome.ok.inj hx
      rw [if_neg h2]
      rfl
  have h1 := conv ha
  have h2 := conv hb
  have h3 : (if 0 ≤ p then ⌊p⌋ else 0) ≤ if 0 ≤ q then ⌊q⌋ else 0 := by
    split_ifs with x y y
    · exact Int.floor_le_floor h
    · exfalso; linarith
    · exact Int.floor_nonneg.2 y
    · exact le_rfl
  omega

include mono hint in
theorem rainbow_mono {h h' : ℚ} (h0 : 0 ≤ h) (hh : h ≤ h') (h1 : h' < 1) (h4 : rnd (rnd h' * 6) < 4) {c c' : Color}
    (hc : rainbow rnd h = .ok c) (hc' : rainbow rnd h' = .ok c') : c'.r.toNat ≤ c.r.toNat ∧ c.b.toNat ≤ c'.b.toNat := by
  have fl : ∀ x : ℚ, 0 ≤ x → x < 1 → ⌊x⌋ = 0 := fun x a b => Int.floor_eq_zero_iff.2 ⟨a, b⟩
  rw [rainbow_channels, fl h h0 (by linarith)] at hc
  rw [rainbow_channels, fl h' (by linarith) h1] at hc'
  simp only [Int.cast_zero, sub_zero] at hc hc'
  have z : rnd 0 = 0 := by simpa using hint 0 (by omega)
  have a0 := mono h0
  rw [z] at a0
  have b0 := mono (show 0 ≤ rnd h * 6 by linarith)
  rw [z] at b0
  have b1 := mono (show rnd h * 6 ≤ rnd h' * 6 by linarith [mono hh])
  obtain ⟨m1, m2⟩ := channels_mono mono hint b0 b1 h4
  obtain ⟨r, hr, hc⟩ := Outcome.bind_eq_ok.1 hc
  obtain ⟨g, hg, hc⟩ := Outcome.bind_eq_ok.1 hc
  obtain ⟨b, hb, hc⟩ := Outcome.bind_eq_ok.1 hc
  obtain ⟨r', hr', hc'⟩ := Outcome.bind_eq_ok.1 hc'
  obtain ⟨g', hg', hc'⟩ := Outcome.bind_eq_ok.1 hc'
  obtain ⟨b', hb', hc'⟩ := Outcome.bind_eq_ok.1 hc'
  obtain rfl := Outcome.ok.inj hc
  obtain rfl := Outcome.ok.inj hc'
  exact ⟨toByte_le hr' hr m1, toByte_le hb hb' m2⟩

end

theorem hue_four : rnd64 (rnd64 c66 * 6) < 4 := by decide +kernel

/-! ### The loop -/

theorem mem_gridOrder {n : ℕ} {v : Idx} : v ∈ gridOrder n ↔ InBlock n v := by
  unfold gridOrder
  simp only [List.mem_flatMap, List.mem_range, List.mem_map]
  constructor
  · rintro ⟨x, hx, y, hy, z, hz, rfl⟩
    exact ⟨⟨by simp, by simpa using hx⟩, ⟨by simp, by simpa using hy⟩, ⟨by simp, by simpa using hz⟩⟩
  · rintro ⟨⟨x0, x1⟩, ⟨y0, y1⟩, ⟨z0, z1⟩⟩
    refine ⟨v.x.toNat, by omega, v.y.toNat, by omega, v.z.toNat, by omega, ?_⟩
    ext <;> simp <;> omega

theorem gridOrder_nodup (n : ℕ) : (gridOrder n).Nodup := by
  unfold gridOrder
  rw [List.nodup_flatMap]
  refine ⟨fun x _ => ?_, ?_⟩
  · rw [List.nodup_flatMap]
    refine ⟨fun y _ => ?_, ?_⟩
    · refine List.nodup_range.map ?_
      intro a b h
      have := congrArg Vec3.z h
      simpa using this
    · refine List.nodup_range.imp ?_
      intro a b hab v h1 h2
      obtain ⟨z, _, rfl⟩ := List.mem_map.1 h1
      obtain ⟨z', _, h⟩ := List.mem_map.1 h2
      have := congrArg Vec3.y h
      simp at this
      exact hab this.symm
  · refine List.nodup_range.imp ?_
    intro a b hab v h1 h2
    obtain ⟨y, _, h1⟩ := List.mem_flatMap.1 h1
    obtain ⟨y', _, h2⟩ := List.mem_flatMap.1 h2
    obtain ⟨z, _, rfl⟩ := List.mem_map.1 h1
    obtain ⟨z', _, h⟩ := List.mem_map.1 h2
    have := congrArg Vec3.x h
    simp at this
    exact hab this.symm

/-- The voxels in the order of the loops. -/
def visited (n : ℕ) (is : List Idx) : List Idx := is.flatMap fun i => (gridOrder n).map (globalIndex n i)

theorem visited_cover {l : VLayer V} (wf : WellFormed l) (nd : (l.blocks.map (·.1)).Nodup) : Covers l (visited l.cfg.vps (l.blocks.map (·.1))) := by
  constructor
  · unfold visited
    rw [List.nodup_flatMap]
    refine ⟨fun i _ => ?_, ?_⟩
    · refine List.Nodup.map_on ?_ (gridOrder_nodup _)
      intro v hv w hw e
      have := congrArg (localOf l.cfg.vps) e
      rwa [localOf_globalIndex (mem_gridOrder.1 hv), localOf_globalIndex (mem_gridOrder.1 hw)] at this
    · refine nd.imp ?_
      intro a b hab g h1 h2
      obtain ⟨v, hv, rfl⟩ := List.mem_map.1 h1
      obtain ⟨w, hw, h⟩ := List.mem_map.1 h2
      have := congrArg (blockOf l.cfg.vps) h
      rw [blockOf_globalIndex (mem_gridOrder.1 hv), blockOf_globalIndex (mem_gridOrder.1 hw)] at this
      exact hab this.symm
  · intro g
    unfold visited
    rw [List.mem_flatMap]
    constructor
    · rintro ⟨i, hi, h⟩
      obtain ⟨v, hv, rfl⟩ := List.mem_map.1 h
      rw [blockOf_globalIndex (mem_gridOrder.1 hv)]
      exact hi
    · intro h
      exact ⟨_, h, List.mem_map.2 ⟨_, mem_gridOrder.2 (localOf_inBlock wf.side_pos g), globalIndex_split g⟩⟩

theorem points_ok {color : V → Outcome (Option Color)} {f : V → Option Color} {l : VLayer V} (wf : WellFormed l)
    (hc : ∀ g v, content l g = some v → color v = .ok (f v)) (ps : List (Pt × Color)) :
    (l.blocks.map (·.1)).foldlM (sdfBlockPoints color l) ps =
      .ok (ps ++ (visited l.cfg.vps (l.blocks.map (·.1))).filterMap (entryAt (fun _ => f) l)) := by
  unfold visited
  rw [List.filterMap_flatMap, foldlM_flatMap (k := fun acc e => .ok (acc ++ [e]))
    (h := fun i => ((gridOrder l.cfg.vps).map (globalIndex l.cfg.vps i)).filterMap (entryAt (fun _ => f) l)), push_all]
  intro i hi s
  obtain ⟨e, he, rfl⟩ := List.mem_map.1 hi
  have : (block? l e.1).isSome = true := allocated_iff_mem.2 (List.mem_map.2 ⟨e, he, rfl⟩)
  obtain ⟨b, hb⟩ := Option.isSome_iff_exists.1 this
  unfold sdfBlockPoints
  rw [hb, List.filterMap_map]
  simp only
  rw [(wf.block _ _ hb).1]
  refine foldlM_filterMap _ _ fun v hv s => ?_
  obtain ⟨x, hx, hcx⟩ := voxelByIndex_content wf hb (mem_gridOrder.1 hv)
  unfold sdfVoxelPoint
  rw [hx, Outcome.bind_ok, hc _ _ hcx, Outcome.bind_ok, Function.comp_apply]
  unfold entryAt
  rw [hcx, Option.bind_some, centerOf_eq wf hb]
  dsimp only
  cases f x <;> rfl

end Vox.PtCloud
