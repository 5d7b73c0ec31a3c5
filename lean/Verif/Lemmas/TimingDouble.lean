/-
Rounding of the statistics of timers in double precision.
-/
import Verif.Lemmas.Timing
import Verif.Lemmas.IndexFloat
import Mathlib.Tactic.Positivity
import Mathlib.Tactic.NormNum

namespace Vox.Timing

open TimingSpec Ieee

/-- Half the distance of 1 to the next double. -/
def eps : ℚ := 1 / 2 ^ 53

theorem eps_pos : 0 < eps := by unfold eps; norm_num

/-- The error of rounding a number up to a bound. -/
theorem rnd64_within {x B : ℚ} (hB : 1 / 2 ^ 200 ≤ B) (h : |x| ≤ B) : |rnd64 x - x| ≤ eps * B := by
  by_cases hx : pow2 (-1022) ≤ |x|
  · refine (IndexF.rnd64_rel hx).trans ?_
    exact mul_le_mul_of_nonneg_left h (by norm_num)
  · have h1 := rne_nearest (p := 53) (qmin := -1074) (by norm_num) x (k := 0) (e := 0) (by norm_num) (by norm_num)
    rw [Int.cast_zero, zero_mul, zero_sub, abs_neg] at h1
    have h2 : pow2 (-1022) = 1 / 2 ^ 1022 := IndexF.pow2_neg 1022
    rw [h2] at hx
    have h3 : (1 / 2 ^ 1022 : ℚ) ≤ eps * (1 / 2 ^ 200) := by
      unfold eps
      decide +kernel
    have h4 : eps * (1 / 2 ^ 200) ≤ eps * B := mul_le_mul_of_nonneg_left hB eps_pos.le
    have h5 : |x| < 1 / 2 ^ 1022 := lt_of_not_ge hx
    exact h1.trans (h5.le.trans (h3.trans h4))

/-- No overflow. -/
theorem rnd64_fin {x : ℚ} (h : |x| ≤ 2 ^ 250) : float64.rnd x = .fin (rnd64 x) := by
  have h1 := rnd64_within (x := x) (B := 2 ^ 250) (by norm_num) h
  refine overflow_of_lt ?_
  have h2 : |rnd64 x| ≤ |rnd64 x - x| + |x| := by
    have := abs_add_le (rnd64 x - x) x
    rwa [sub_add_cancel] at this
  have h3 : eps * 2 ^ 250 + 2 ^ 250 < (2 : ℚ) ^ 1024 := by unfold eps; decide +kernel
  generalize (2 : ℚ) ^ 1024 = L at *
  linarith

theorem add64 {a b B : ℚ} (hB : 1 / 2 ^ 200 ≤ B) (hB' : B ≤ 2 ^ 250) (h : |a + b| ≤ B) :
    ∃ c, float64.add (.fin a) (.fin b) = .fin c ∧ |c - (a + b)| ≤ eps * B :=
  ⟨_, rnd64_fin (h.trans hB'), rnd64_within hB h⟩

theorem sub64 {a b B : ℚ} (hB : 1 / 2 ^ 200 ≤ B) (hB' : B ≤ 2 ^ 250) (h : |a - b| ≤ B) :
    ∃ c, float64.sub (.fin a) (.fin b) = .fin c ∧ |c - (a - b)| ≤ eps * B := by
  rw [sub_eq_add_neg] at h ⊢
  exact ⟨_, rnd64_fin (h.trans hB'), rnd64_within hB h⟩

theorem mul64 {a b B : ℚ} (hB : 1 / 2 ^ 200 ≤ B) (hB' : B ≤ 2 ^ 250) (h : |a * b| ≤ B) :
    ∃ c, float64.mul (.fin a) (.fin b) = .fin c ∧ |c - a * b| ≤ eps * B :=
  ⟨_, rnd64_fin (h.trans hB'), rnd64_within hB h⟩

theorem div64 {a b B : ℚ} (hb : b ≠ 0) (hB : 1 / 2 ^ 200 ≤ B) (hB' : B ≤ 2 ^ 250) (h : |a / b| ≤ B) :
    ∃ c, float64.div (.fin a) (.fin b) = .fin c ∧ |c - a / b| ≤ eps * B := by
  refine ⟨_, ?_, rnd64_within hB h⟩
  show (if b = 0 then _ else float64.rnd (a / b)) = _
  rw [if_neg hb]
  exact rnd64_fin (h.trans hB')

/-! ### The accumulator -/

/-- An accumulator in double precision beside the exact one, after `k` samples up to `M`. -/
structure Near (M : ℚ) (k : ℕ) (a b : Acc) : Prop where
  window : b.windowSamples = a.windowSamples
  total : b.totalSamples = a.totalSamples
  min : b.min = a.min
  max : b.max = a.max
  samples : b.samples = a.samples
  sum : ∃ x y, a.sum = .fin x ∧ b.sum = .fin y ∧ |y - x| ≤ 2 * k * eps * x
  windowSum : ∃ x y, a.windowSum = .fin x ∧ b.windowSum = .fin y ∧ |y - x| ≤ 54 * k * eps * M

theorem near_new (M : ℚ) : Near M 0 Acc.new Acc.new :=
  ⟨rfl, rfl, rfl, rfl, rfl, ⟨0, 0, rfl, rfl, by simp⟩, ⟨0, 0, rfl, rfl, by simp⟩⟩

theorem sum_le_length {M : ℚ} : ∀ {ss : List ℚ}, (∀ s ∈ ss, s ≤ M) → ss.sum ≤ ss.length * M
  | [], _ => by simp
  | s :: ss, h => by
    have h1 := h s List.mem_cons_self
    have h2 := sum_le_length fun t ht => h t (List.mem_cons_of_mem _ ht)
    rw [List.sum_cons, List.length_cons]
    push_cast
    linarith

theorem length_le_sum {m : ℚ} : ∀ {ss : List ℚ}, (∀ s ∈ ss, m ≤ s) → ss.length * m ≤ ss.sum
  | [], _ => by simp
  | s :: ss, h => by
    have h1 := h s List.mem_cons_self
    have h2 := length_le_sum fun t ht => h t (List.mem_cons_of_mem _ ht)
    rw [List.sum_cons, List.length_cons]
    push_cast
    linarith

theorem sum_nonneg' : ∀ {ss : List ℚ}, (∀ s ∈ ss, 0 ≤ s) → 0 ≤ ss.sum
  | [], _ => by simp
  | s :: ss, h => by
    have h1 := h s List.mem_cons_self
    have h2 := sum_nonneg' fun t ht => h t (List.mem_cons_of_mem _ ht)
    rw [List.sum_cons]
    linarith

theorem latest_sub {n : ℕ} {ss : List ℚ} {s : ℚ} (h : s ∈ latest n ss) : s ∈ ss := List.mem_of_mem_drop h

theorem latest_length (n : ℕ) (ss : List ℚ) : (latest n ss).length = Min.min ss.length n := by
  unfold latest
  rw [List.length_drop]
  omega

/-- One more sample. -/
theorem near_add {M : ℚ} (hM0 : 1 / 2 ^ 60 ≤ M) (hM1 : M ≤ 2 ^ 60) {ss : List ℚ} {a b : Acc} (ha : After kWindow ss a) (h : Near M ss.length a b)
    (sq : ℚ → Fl) (hs : ∀ t ∈ ss, Sample M t) {s : ℚ} (hs' : Sample M s) (hl : ss.length + 1 < 2 ^ 31) {a' : Acc}
    (e : a.add (Arith.exact sq) kWindow (.fin s) = .ok a') :
    ∃ b', b.add float64 kWindow (.fin s) = .ok b' ∧ Near M (ss.length + 1) a' b' := by
  have hc : a.windowSamples + 1 < 2 ^ 31 ∧ a.totalSamples + 1 < 2 ^ 31 := ⟨by rw [ha.window]; exact hl, by rw [ha.total]; exact hl⟩
  unfold Acc.add at e
  rw [if_pos hc] at e
  obtain rfl := Outcome.ok.inj e
  refine ⟨_, if_pos (by rw [h.window, h.total]; exact hc), ?_⟩
  have hk : (ss.length : ℚ) * eps ≤ 1 / 2 ^ 22 := by
    have : (ss.length : ℚ) ≤ 2 ^ 31 := by exact_mod_cast (show ss.length ≤ 2 ^ 31 by omega)
    unfold eps
    rw [mul_one_div, div_le_iff₀ (by norm_num)]
    refine this.trans ?_
    norm_num
  have hkp : 0 ≤ (ss.length : ℚ) * eps := mul_nonneg (by positivity) eps_pos.le
  have hMp : 0 < M := lt_of_lt_of_le (by norm_num) hM0
  have nn : ∀ t ∈ ss, 0 ≤ t := fun t ht => (hs t ht).nonneg
  have hs0 := hs'.nonneg
  refine ⟨by rw [h.window], by rw [h.total], by rw [h.min], by rw [h.max], ?_, ?_, ?_⟩
  · show (b.window float64 kWindow (.fin s)).1 = (a.window (Arith.exact sq) kWindow (.fin s)).1
    unfold Acc.window
    rw [h.window, h.samples]
    split <;> rfl
  · obtain ⟨x, y, e1, e2, e3⟩ := h.sum
    rw [ha.sum] at e1
    obtain rfl := Fl.fin.inj e1
    have hx0 : 0 ≤ ss.sum := sum_nonneg' nn
    refine ⟨ss.sum + s, ?_⟩
    by_cases hz : ss.sum + s = 0
    · have hx : ss.sum = 0 := by linarith
      have hs1 : s = 0 := by linarith
      rw [hx, mul_zero] at e3
      have hy : y = 0 := by
        have := abs_nonpos_iff.1 e3
        linarith
      refine ⟨0, by rw [ha.sum]; rfl, ?_, ?_⟩
      · rw [e2, hy, hs1]
        show float64.add (.fin 0) (.fin 0) = .fin 0
        decide +kernel
      · rw [hz]; simp
    · have hlow : 1 / 2 ^ 60 ≤ ss.sum + s := by
        by_contra hcon
        have h1 : s = 0 := by
          rcases hs'.grain with h | h
          · exact h
          · exfalso; linarith
        have h2 : ∀ t ∈ ss, t = 0 := fun t ht => by
          rcases (hs t ht).grain with h | h
          · exact h
          · exfalso
            have := List.single_le_sum nn t ht
            linarith
        exact hz (by rw [List.sum_eq_zero h2, h1, add_zero])
      have hhigh : ss.sum + s ≤ 2 ^ 100 := by
        have h1 := sum_le_length fun t ht => (hs t ht).high
        have h2 := hs'.high
        have h3 : (ss.length : ℚ) ≤ 2 ^ 31 := by exact_mod_cast (show ss.length ≤ 2 ^ 31 by omega)
        have h4 : (ss.length : ℚ) * M ≤ 2 ^ 31 * 2 ^ 60 := mul_le_mul h3 hM1 hMp.le (by norm_num)
        have h5 : (2 : ℚ) ^ 31 * 2 ^ 60 + 2 ^ 60 ≤ 2 ^ 100 := by norm_num
        linarith
      have hb := abs_le.1 e3
      have hdev : 2 * ss.length * eps * ss.sum ≤ ss.sum := by nlinarith
      obtain ⟨c, c1, c2⟩ := add64 (a := y) (b := s) (B := 2 * (ss.sum + s)) (by linarith [show (1 / 2 ^ 200 : ℚ) ≤ 1 / 2 ^ 60 by norm_num])
        (by
          have : (2 : ℚ) * 2 ^ 100 ≤ 2 ^ 250 := by norm_num
          linarith) (abs_le.2 ⟨by linarith, by linarith⟩)
      refine ⟨c, by rw [ha.sum]; rfl, by rw [e2]; exact c1, ?_⟩
      have hc' := abs_le.1 c2
      have he := eps_pos
      have h6 : 2 * (ss.length : ℚ) * eps * ss.sum ≤ 2 * ss.length * eps * (ss.sum + s) :=
        mul_le_mul_of_nonneg_left (by linarith) (by nlinarith)
      push_cast
      exact abs_le.2 ⟨by linarith, by linarith⟩
  · obtain ⟨x, y, e1, e2, e3⟩ := h.windowSum
    rw [ha.windowSum] at e1
    obtain rfl := Fl.fin.inj e1
    have hx0 : 0 ≤ (latest kWindow ss).sum := sum_nonneg' fun t ht => nn t (latest_sub ht)
    have hx1 : (latest kWindow ss).sum ≤ 50 * M := by
      refine (sum_le_length fun t ht => (hs t (latest_sub ht)).high).trans ?_
      have : ((latest kWindow ss).length : ℚ) ≤ 50 := by
        rw [latest_length]
        exact_mod_cast Nat.min_le_right _ _
      exact mul_le_mul_of_nonneg_right this hMp.le
    have hdev : 54 * ss.length * eps * M ≤ M := by nlinarith
    have hb := abs_le.1 e3
    have he := eps_pos
    have hl1 : (1 / 2 ^ 200 : ℚ) ≤ M := by linarith [show (1 / 2 ^ 200 : ℚ) ≤ 1 / 2 ^ 60 by norm_num]
    have hl2 : 60 * M ≤ 2 ^ 250 := by
      have : (60 : ℚ) * 2 ^ 60 ≤ 2 ^ 250 := by norm_num
      linarith
    have hh := hs'.high
    have hem : eps * M ≤ M := by
      have : eps ≤ 1 := by unfold eps; norm_num
      nlinarith
    show ∃ x y, (a.window (Arith.exact sq) kWindow (.fin s)).2 = _ ∧ (b.window float64 kWindow (.fin s)).2 = _ ∧ _
    unfold Acc.window
    rw [h.window, h.samples, ha.window]
    by_cases hw : ss.length < kWindow
    · rw [if_pos hw, if_pos hw]
      obtain ⟨c, c1, c2⟩ := add64 (a := y) (b := s) (B := 53 * M) (by linarith) (by linarith) (abs_le.2 ⟨by linarith, by linarith⟩)
      refine ⟨_, c, by rw [ha.windowSum]; rfl, by rw [e2]; exact c1, ?_⟩
      have hc' := abs_le.1 c2
      push_cast
      have : 0 ≤ eps * M := by positivity
      exact abs_le.2 ⟨by linarith, by linarith⟩
    · rw [if_neg hw, if_neg hw]
      dsimp only
      obtain ⟨o, ho, hg⟩ : ∃ o ∈ ss, a.samples.getD (ss.length % kWindow) .nan = .fin o := by
        have hi : ss.length % kWindow < a.samples.length := by
          rw [ha.length]
          have := Nat.mod_lt ss.length (show 0 < kWindow by decide)
          omega
        rw [List.getD_eq_getElem _ _ hi]
        obtain ⟨q, hq, e⟩ := List.mem_map.1 (ha.perm.mem_iff.1 (List.getElem_mem hi))
        exact ⟨q, latest_sub hq, e.symm⟩
      rw [hg]
      have ho0 := nn o ho
      have ho1 := (hs o ho).high
      obtain ⟨d, d1, d2⟩ := sub64 (a := s) (b := o) (B := M) hl1 (by linarith) (abs_le.2 ⟨by linarith, by linarith⟩)
      have hd := abs_le.1 d2
      obtain ⟨c, c1, c2⟩ := add64 (a := y) (b := d) (B := 53 * M) (by linarith) (by linarith) (abs_le.2 ⟨by linarith, by linarith⟩)
      refine ⟨_, c, by rw [ha.windowSum]; rfl, by rw [e2, d1]; exact c1, ?_⟩
      have hc' := abs_le.1 c2
      push_cast
      exact abs_le.2 ⟨by linarith, by linarith⟩

theorem near_all {M : ℚ} (hM0 : 1 / 2 ^ 60 ≤ M) (hM1 : M ≤ 2 ^ 60) (sq : ℚ → Fl) (ss : List ℚ) (hs : ∀ t ∈ ss, Sample M t)
    (hl : ss.length < 2 ^ 31) :
    ∃ a b, addAll (Arith.exact sq) kWindow Acc.new (ss.map Fl.fin) = .ok a ∧ After kWindow ss a ∧
      addAll float64 kWindow Acc.new (ss.map Fl.fin) = .ok b ∧ Near M ss.length a b := by
  induction ss using List.reverseRecOn with
  | nil => exact ⟨Acc.new, Acc.new, rfl, after_new _, rfl, near_new M⟩
  | append_singleton ss s ih =>
    rw [List.length_append, List.length_singleton] at hl
    have hs1 : ∀ t ∈ ss, Sample M t := fun t ht => hs t (List.mem_append_left _ ht)
    obtain ⟨a, b, e, h, e', h'⟩ := ih hs1 (by omega)
    obtain ⟨a2, f, g⟩ := after_add (show 0 < kWindow by decide) sq h s hl
    obtain ⟨b2, f', g'⟩ := near_add hM0 hM1 h h' sq hs1 (hs s (by simp)) hl f
    refine ⟨a2, b2, ?_, g, ?_, by rw [List.length_append]; exact g'⟩
    · unfold addAll at e ⊢
      rw [List.map_append, List.foldlM_append, e, Outcome.bind_ok]
      show (a.add (Arith.exact sq) kWindow (.fin s) >>= fun b => pure b) = _
      rw [f]
      rfl
    · unfold addAll at e' ⊢
      rw [List.map_append, List.foldlM_append, e', Outcome.bind_ok]
      show (b.add float64 kWindow (.fin s) >>= fun b => pure b) = _
      rw [f']
      rfl

/-! ### Means and variance -/

theorem count_eps {k : ℕ} (hl : k < 2 ^ 31) : (k : ℚ) * eps ≤ 1 / 2 ^ 22 := by
  have : (k : ℚ) ≤ 2 ^ 31 := by exact_mod_cast hl.le
  unfold eps
  rw [mul_one_div, div_le_iff₀ (by norm_num)]
  refine this.trans ?_
  norm_num

theorem average_bounds {M : ℚ} {ss : List ℚ} (h0 : ss ≠ []) (hs : ∀ t ∈ ss, 0 ≤ t ∧ t ≤ M) : 0 ≤ average ss ∧ average ss ≤ M := by
  have hp : (0 : ℚ) < ss.length := by exact_mod_cast List.length_pos_of_ne_nil h0
  unfold average
  constructor
  · exact div_nonneg (sum_nonneg' fun t ht => (hs t ht).1) hp.le
  · rw [div_le_iff₀ hp]
    have := sum_le_length fun t ht => (hs t ht).2
    linarith

/-- The rolling mean. -/
theorem rolling_near {M : ℚ} (hM0 : 1 / 2 ^ 60 ≤ M) (hM1 : M ≤ 2 ^ 60) {ss : List ℚ} (h0 : ss ≠ []) (hs : ∀ t ∈ ss, Sample M t)
    (hl : ss.length < 2 ^ 31) {a b : Acc} (ha : After kWindow ss a) (h : Near M ss.length a b) :
    ∃ r, b.rollingMean float64 kWindow = .fin r ∧ |r - average (latest kWindow ss)| ≤ (2 * ss.length + 54) * eps * M := by
  obtain ⟨x, y, e1, e2, e3⟩ := h.windowSum
  rw [ha.windowSum] at e1
  obtain rfl := Fl.fin.inj e1
  have hMp : 0 < M := lt_of_lt_of_le (by norm_num) hM0
  have hk := count_eps hl
  have he := eps_pos
  have hlen : 0 < ss.length := List.length_pos_of_ne_nil h0
  have hL : latest kWindow ss ≠ [] := by
    intro c
    have := latest_length kWindow ss
    rw [c] at this
    simp only [List.length_nil, kWindow] at this
    omega
  obtain ⟨a0, a1⟩ := average_bounds hL fun t ht => ⟨(hs t (latest_sub ht)).nonneg, (hs t (latest_sub ht)).high⟩
  have hn : (0 : ℚ) < ((Min.min ss.length kWindow : ℕ) : ℚ) := by
    have : 0 < Min.min ss.length kWindow := by unfold kWindow; omega
    exact_mod_cast this
  have hav : average (latest kWindow ss) = (latest kWindow ss).sum / ((Min.min ss.length kWindow : ℕ) : ℚ) := by
    unfold average
    rw [latest_length]
  have hdev : |y / ((Min.min ss.length kWindow : ℕ) : ℚ) - average (latest kWindow ss)| ≤ (2 * ss.length + 52) * eps * M := by
    rw [hav, ← sub_div, abs_div, abs_of_pos hn, div_le_iff₀ hn]
    refine e3.trans ?_
    have hem : 0 < eps * M := by positivity
    have hkey : 54 * (ss.length : ℚ) ≤ (2 * ss.length + 52) * ((Min.min ss.length kWindow : ℕ) : ℚ) := by
      rcases le_total ss.length 50 with hc | hc
      · have : Min.min ss.length kWindow = ss.length := by unfold kWindow; omega
        rw [this]
        have : (1 : ℚ) ≤ ss.length := by exact_mod_cast hlen
        nlinarith
      · have : Min.min ss.length kWindow = 50 := by unfold kWindow; omega
        rw [this]
        have : (50 : ℚ) ≤ ss.length := by exact_mod_cast hc
        push_cast
        linarith
    calc 54 * ss.length * eps * M = 54 * ss.length * (eps * M) := by ring
      _ ≤ (2 * ss.length + 52) * ((Min.min ss.length kWindow : ℕ) : ℚ) * (eps * M) := mul_le_mul_of_nonneg_right hkey hem.le
      _ = _ := by ring
  have hsmall : (2 * ss.length + 52) * eps * M ≤ M := by
    have : (2 * ss.length + 52) * eps ≤ 1 := by
      have : eps ≤ 1 / 2 ^ 53 := le_refl _
      linarith
    nlinarith
  have hb := abs_le.1 hdev
  obtain ⟨c, c1, c2⟩ := div64 (a := y) (b := ((Min.min ss.length kWindow : ℕ) : ℚ)) hn.ne' (B := 2 * M)
    (by linarith [show (1 / 2 ^ 200 : ℚ) ≤ 1 / 2 ^ 60 by norm_num])
    (by
      have : (2 : ℚ) * 2 ^ 60 ≤ 2 ^ 250 := by norm_num
      linarith) (abs_le.2 ⟨by linarith, by linarith⟩)
  refine ⟨c, ?_, ?_⟩
  · unfold Acc.rollingMean
    rw [e2, h.window, ha.window]
    exact c1
  · have hc := abs_le.1 c2
    exact abs_le.2 ⟨by linarith, by linarith⟩

/-- One term of the variance. -/
theorem term_near {M e s m r : ℚ} (hM0 : 1 / 2 ^ 60 ≤ M) (hM1 : M ≤ 2 ^ 60) (he : e ≤ M / 4) (hs : 0 ≤ s ∧ s ≤ M) (hm : 0 ≤ m ∧ m ≤ M)
    (hr : |r - m| ≤ e) :
    ∃ p, float64.mul (float64.sub (.fin s) (.fin r)) (float64.sub (.fin s) (.fin r)) = .fin p ∧
      |p - (s - m) ^ 2| ≤ 3 * M * (2 * eps * M + e) + 4 * eps * M ^ 2 ∧ |p| ≤ 5 * M ^ 2 := by
  have hMp : 0 < M := lt_of_lt_of_le (by norm_num) hM0
  have hp := eps_pos
  have hsm : eps ≤ 1 / 2 ^ 53 := le_refl _
  have hb := abs_le.1 hr
  obtain ⟨d, d1, d2⟩ := sub64 (a := s) (b := r) (B := 2 * M) (by linarith [show (1 / 2 ^ 200 : ℚ) ≤ 1 / 2 ^ 60 by norm_num])
    (by
      have : (2 : ℚ) * 2 ^ 60 ≤ 2 ^ 250 := by norm_num
      linarith) (abs_le.2 ⟨by linarith, by linarith⟩)
  have hd := abs_le.1 d2
  have hem : eps * M ≤ M / 8 := by nlinarith
  have hem0 : 0 < eps * M := by positivity
  have f1 : |d - (s - m)| ≤ 2 * eps * M + e := abs_le.2 ⟨by linarith, by linarith⟩
  have f2 : |d + (s - m)| ≤ 3 * M := abs_le.2 ⟨by linarith, by linarith⟩
  have f3 : |d * d - (s - m) ^ 2| ≤ 3 * M * (2 * eps * M + e) := by
    rw [show d * d - (s - m) ^ 2 = (d + (s - m)) * (d - (s - m)) by ring, abs_mul]
    exact mul_le_mul f2 f1 (abs_nonneg _) (by linarith)
  have f4 : |d| ≤ 2 * M := abs_le.2 ⟨by linarith, by linarith⟩
  have f5 : |d * d| ≤ 4 * M ^ 2 := by
    rw [abs_mul]
    calc |d| * |d| ≤ 2 * M * (2 * M) := mul_le_mul f4 f4 (abs_nonneg _) (by linarith)
      _ = _ := by ring
  have hM2 : 1 / 2 ^ 120 ≤ M ^ 2 := by
    calc (1 / 2 ^ 120 : ℚ) = (1 / 2 ^ 60) ^ 2 := by norm_num
      _ ≤ M ^ 2 := pow_le_pow_left₀ (by norm_num) hM0 2
  have hM3 : M ^ 2 ≤ 2 ^ 120 := by
    calc M ^ 2 ≤ (2 ^ 60) ^ 2 := pow_le_pow_left₀ hMp.le hM1 2
      _ = 2 ^ 120 := by norm_num
  obtain ⟨p, p1, p2⟩ := mul64 (a := d) (b := d) (B := 4 * M ^ 2) (by linarith [show (1 / 2 ^ 200 : ℚ) ≤ 1 / 2 ^ 120 by norm_num])
    (by
      have : (4 : ℚ) * 2 ^ 120 ≤ 2 ^ 250 := by norm_num
      linarith) f5
  refine ⟨p, by rw [d1]; exact p1, ?_, ?_⟩
  · have g1 := abs_le.1 p2
    have g2 := abs_le.1 f3
    exact abs_le.2 ⟨by linarith, by linarith⟩
  · have g1 := abs_le.1 p2
    have g2 := abs_le.1 f5
    have g3 : eps * (4 * M ^ 2) ≤ M ^ 2 := by nlinarith [sq_nonneg M]
    exact abs_le.2 ⟨by linarith, by linarith⟩

/-- The sum of the terms. -/
theorem fold_near {M e m r E : ℚ} (hM0 : 1 / 2 ^ 60 ≤ M) (hM1 : M ≤ 2 ^ 60) (he : e ≤ M / 4) (hm : 0 ≤ m ∧ m ≤ M) (hr : |r - m| ≤ e)
    (hE : 3 * M * (2 * eps * M + e) + 64 * eps * M ^ 2 ≤ E) (hE1 : 50 * E ≤ M ^ 2) : ∀ (L : List ℚ) (j : ℕ) (v w : ℚ), (∀ s ∈ L, 0 ≤ s ∧ s ≤ M) →
      j + L.length ≤ 50 → 0 ≤ w → w ≤ j * M ^ 2 → |v - w| ≤ j * E →
      ∃ v', (L.map Fl.fin).foldl (fun var s => float64.add var (float64.mul (float64.sub s (.fin r)) (float64.sub s (.fin r)))) (.fin v) = .fin v' ∧
        |v' - (w + (L.map fun s => (s - m) ^ 2).sum)| ≤ ((j + L.length : ℕ) : ℚ) * E
  | [], j, v, w, _, _, _, _, hv => ⟨v, rfl, by simpa using hv⟩
  | s :: L, j, v, w, hs, hj, hw0, hw1, hv => by
    have hMp : 0 < M := lt_of_lt_of_le (by norm_num) hM0
    rw [List.length_cons] at hj
    have hs1 := hs s List.mem_cons_self
    obtain ⟨p, p1, p2, p3⟩ := term_near hM0 hM1 he hs1 hm hr
    have hM2 : 1 / 2 ^ 120 ≤ M ^ 2 := by
      calc (1 / 2 ^ 120 : ℚ) = (1 / 2 ^ 60) ^ 2 := by norm_num
        _ ≤ M ^ 2 := pow_le_pow_left₀ (by norm_num) hM0 2
    have hM3 : M ^ 2 ≤ 2 ^ 120 := by
      calc M ^ 2 ≤ (2 ^ 60) ^ 2 := pow_le_pow_left₀ hMp.le hM1 2
        _ = 2 ^ 120 := by norm_num
    have hj' : (j : ℚ) ≤ 50 := by exact_mod_cast (show j ≤ 50 by omega)
    have hE0 : 0 ≤ E := by
      have h1 : 0 ≤ e := (abs_nonneg _).trans hr
      have := eps_pos
      refine le_trans ?_ hE
      positivity
    have hjE : j * E ≤ 50 * E := mul_le_mul_of_nonneg_right hj' hE0
    have hjM : j * M ^ 2 ≤ 50 * M ^ 2 := mul_le_mul_of_nonneg_right hj' (by positivity)
    have hvb := abs_le.1 hv
    have hpb := abs_le.1 p3
    have hpb2 := abs_le.1 p2
    have hsq : 0 ≤ (s - m) ^ 2 := sq_nonneg _
    have hsq1 : (s - m) ^ 2 ≤ M ^ 2 := by
      have : |s - m| ≤ M := abs_le.2 ⟨by linarith [hs1.1, hm.2], by linarith [hs1.2, hm.1]⟩
      calc (s - m) ^ 2 = |s - m| ^ 2 := (sq_abs _).symm
        _ ≤ M ^ 2 := pow_le_pow_left₀ (abs_nonneg _) this 2
    obtain ⟨c, c1, c2⟩ := add64 (a := v) (b := p) (B := 60 * M ^ 2) (by linarith [show (1 / 2 ^ 200 : ℚ) ≤ 1 / 2 ^ 120 by norm_num])
      (by
        have : (60 : ℚ) * 2 ^ 120 ≤ 2 ^ 250 := by norm_num
        linarith) (abs_le.2 ⟨by linarith, by linarith⟩)
    have hcb := abs_le.1 c2
    obtain ⟨v', h1, h2⟩ := fold_near hM0 hM1 he hm hr hE hE1 L (j + 1) c (w + (s - m) ^ 2) (fun t ht => hs t (List.mem_cons_of_mem _ ht)) (by omega)
      (by linarith) (by push_cast; linarith) (by push_cast; exact abs_le.2 ⟨by linarith, by linarith⟩)
    refine ⟨v', ?_, ?_⟩
    · rw [List.map_cons, List.foldl_cons, p1, c1]
      exact h1
    · rw [List.map_cons, List.sum_cons, List.length_cons, ← add_assoc, show j + (L.length + 1) = j + 1 + L.length by omega]
      exact h2

end Vox.Timing
