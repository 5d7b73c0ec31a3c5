/-
C79: the statistics of timers in double precision.
-/
import Verif.Lemmas.TimingDouble
import Verif.Props.Timing

namespace Vox.Timing

open TimingSpec Ieee

/-- The cells of the window hold its samples. -/
private theorem cells_of {ss : List ℚ} {a : Acc} (h : After kWindow ss a) : ∃ L : List ℚ, a.samples = L.map Fl.fin ∧ L.Perm (latest kWindow ss) := by
  refine ⟨a.samples.map number, ?_, ?_⟩
  · rw [List.map_map]
    conv_lhs => rw [← List.map_id a.samples]
    refine List.map_congr_left fun x hx => ?_
    obtain ⟨q, -, rfl⟩ := List.mem_map.1 (h.perm.mem_iff.1 hx)
    rfl
  · have := h.perm.map number
    rw [List.map_map] at this
    have e : (latest kWindow ss).map (number ∘ Fl.fin) = latest kWindow ss := by
      conv_rhs => rw [← List.map_id (latest kWindow ss)]
      rfl
    rwa [e] at this

/-- **C79**, total and mean in double precision: after `k` samples the total is that of the samples up to a relative error of `2 k` and the mean up to
`2 k + 2` units of rounding; the count, the minimum and the maximum are exact. -/
theorem C79_total_double {M : ℚ} (hM0 : 1 / 2 ^ 60 ≤ M) (hM1 : M ≤ 2 ^ 60) {ss : List ℚ} (h0 : ss ≠ []) (hs : ∀ t ∈ ss, Sample M t)
    (hl : ss.length < 2 ^ 31) :
    ∃ b, addAll float64 kWindow Acc.new (ss.map Fl.fin) = .ok b ∧ b.totalSamples = ss.length ∧
      (∃ y, b.sum = .fin y ∧ |y - ss.sum| ≤ 2 * ss.length * (1 / 2 ^ 53) * ss.sum) ∧
      (∃ y, b.mean float64 = .fin y ∧ |y - average ss| ≤ (2 * ss.length + 2) * (1 / 2 ^ 53) * average ss) ∧
      (∃ m ∈ ss, b.min = .fin m ∧ ∀ s ∈ ss, m ≤ s) ∧
      ((∃ s ∈ ss, 0 < s) → ∃ m ∈ ss, b.max = .fin m ∧ ∀ s ∈ ss, s ≤ m) := by
  obtain ⟨a, b, -, ha, hb, h⟩ := near_all hM0 hM1 (fun _ => .nan) ss hs hl
  obtain ⟨x, y, e1, e2, e3⟩ := h.sum
  rw [ha.sum] at e1
  obtain rfl := Fl.fin.inj e1
  have hp : (0 : ℚ) < ss.length := by exact_mod_cast List.length_pos_of_ne_nil h0
  have nn : ∀ t ∈ ss, 0 ≤ t := fun t ht => (hs t ht).nonneg
  have hk := count_eps hl
  have he := eps_pos
  refine ⟨b, hb, by rw [h.total, ha.total], ⟨y, e2, e3⟩, ?_, ?_, ?_⟩
  · have hav : ss.sum / ss.length = average ss := rfl
    have hdev : |y / ss.length - average ss| ≤ 2 * ss.length * eps * average ss := by
      rw [← hav, ← sub_div, abs_div, abs_of_pos hp, div_le_iff₀ hp]
      refine e3.trans (le_of_eq ?_)
      field_simp
    obtain ⟨a0, a1⟩ := average_bounds h0 fun t ht => ⟨nn t ht, (hs t ht).high⟩
    have hd := abs_le.1 hdev
    by_cases hz : average ss = 0
    · rw [hz] at hd ⊢
      have hy : y / ss.length = 0 := by linarith
      refine ⟨0, ?_, by simp⟩
      unfold Acc.mean
      rw [e2, h.total, ha.total]
      show (if _ then _ else float64.rnd (y / ss.length)) = _
      rw [if_neg hp.ne', hy]
      decide +kernel
    · have hlow : 1 / 2 ^ 200 ≤ 2 * average ss := by
        have hsum : 1 / 2 ^ 60 ≤ ss.sum := by
          by_contra hcon
          refine hz ?_
          have : ∀ t ∈ ss, t = 0 := fun t ht => by
            rcases (hs t ht).grain with h | h
            · exact h
            · exfalso
              have := List.single_le_sum nn t ht
              linarith
          unfold average
          rw [List.sum_eq_zero this, zero_div]
        have hn : (ss.length : ℚ) ≤ 2 ^ 31 := by exact_mod_cast hl.le
        unfold average
        have : (1 / 2 ^ 200 : ℚ) ≤ ss.sum / ss.length := by
          rw [le_div_iff₀ hp]
          calc (1 / 2 ^ 200 : ℚ) * ss.length ≤ 1 / 2 ^ 200 * 2 ^ 31 := mul_le_mul_of_nonneg_left hn (by norm_num)
            _ ≤ 1 / 2 ^ 60 := by norm_num
            _ ≤ _ := hsum
        have h2 : (0 : ℚ) < 1 / 2 ^ 200 := by norm_num
        linarith
      have hsm : 2 * ss.length * eps * average ss ≤ average ss := by nlinarith
      obtain ⟨c, c1, c2⟩ := div64 (a := y) (b := ss.length) hp.ne' (B := 2 * average ss) hlow
        (by
          have : (2 : ℚ) * 2 ^ 60 ≤ 2 ^ 250 := by norm_num
          linarith) (abs_le.2 ⟨by linarith, by linarith⟩)
      refine ⟨c, ?_, ?_⟩
      · unfold Acc.mean
        rw [e2, h.total, ha.total]
        exact c1
      · have hc := abs_le.1 c2
        show _ ≤ (2 * (ss.length : ℚ) + 2) * eps * average ss
        exact abs_le.2 ⟨by linarith, by linarith⟩
  · obtain ⟨m, m1, m2, -, m3⟩ := ha.min
    rw [h.min]
    rcases m2 with rfl | m2
    · exfalso
      obtain ⟨t, ht⟩ := List.exists_mem_of_ne_nil ss h0
      have h1 := m3 t ht
      have h2 := (hs t ht).high
      have h3 : ¬ dblMax ≤ 2 ^ 60 := by decide +kernel
      exact h3 (by linarith)
    · exact ⟨m, m2, m1, m3⟩
  · rintro ⟨t, ht, htp⟩
    obtain ⟨m, m1, m2, -, m3⟩ := ha.max
    rw [h.max]
    rcases m2 with rfl | m2
    · exfalso
      have h1 := m3 t ht
      have h2 : 1 / 2 ^ 60 ≤ t := by
        rcases (hs t ht).grain with h | h
        · linarith
        · exact h
      have h3 : ¬ 1 / 2 ^ 60 ≤ dblMin := by decide +kernel
      exact h3 (by linarith)
    · exact ⟨m, m2, m1, m3⟩

example : (1 / 2 ^ 60 : ℚ) ≤ 10 ∧ (10 : ℚ) ≤ 2 ^ 60 ∧ ∀ t ∈ ([1 / 10, 0, 5] : List ℚ), Sample 10 t := by
  refine ⟨by norm_num, by norm_num, ?_⟩
  intro t ht
  simp only [List.mem_cons, List.not_mem_nil, or_false] at ht
  rcases ht with rfl | rfl | rfl
  · exact ⟨.inr (by norm_num), by norm_num⟩
  · exact ⟨.inl rfl, by norm_num⟩
  · exact ⟨.inr (by norm_num), by norm_num⟩

/-- **C79**, rolling statistics in double precision: the rolling mean and variance are those of the last fifty samples, up to errors that grow with the
number of *all* samples and with the largest sample ever seen, even if it has left the window. -/
theorem C79_rolling_double {M : ℚ} (hM0 : 1 / 2 ^ 60 ≤ M) (hM1 : M ≤ 2 ^ 60) {ss : List ℚ} (h0 : ss ≠ []) (hs : ∀ t ∈ ss, Sample M t)
    (hl : ss.length < 2 ^ 31) :
    ∃ b, addAll float64 kWindow Acc.new (ss.map Fl.fin) = .ok b ∧
      (∃ r, b.rollingMean float64 kWindow = .fin r ∧ |r - average (latest 50 ss)| ≤ (2 * ss.length + 54) * (1 / 2 ^ 53) * M) ∧
      ∃ v, b.lazyVariance float64 kWindow = .fin v ∧ |v - variance (latest 50 ss)| ≤ (6 * ss.length + 234) * (1 / 2 ^ 53) * M ^ 2 := by
  obtain ⟨a, b, -, ha, hb, h⟩ := near_all hM0 hM1 (fun _ => .nan) ss hs hl
  obtain ⟨r, r1, r2⟩ := rolling_near hM0 hM1 h0 hs hl ha h
  refine ⟨b, hb, ⟨r, r1, r2⟩, ?_⟩
  have hMp : 0 < M := lt_of_lt_of_le (by norm_num) hM0
  have hk := count_eps hl
  have he := eps_pos
  have hsm : eps ≤ 1 / 2 ^ 53 := le_refl _
  have hlen : 0 < ss.length := List.length_pos_of_ne_nil h0
  have hlat := latest_length kWindow ss
  have hL0 : latest kWindow ss ≠ [] := by
    intro c
    rw [c] at hlat
    simp only [List.length_nil, kWindow] at hlat
    omega
  have hin : ∀ t ∈ latest kWindow ss, 0 ≤ t ∧ t ≤ M := fun t ht => ⟨(hs t (latest_sub ht)).nonneg, (hs t (latest_sub ht)).high⟩
  have hav := average_bounds hL0 hin
  obtain ⟨L, l1, l2⟩ := cells_of ha
  have hMM : 0 < M ^ 2 := by positivity
  obtain ⟨v, v1, v2⟩ := fold_near (M := M) (e := (2 * ss.length + 54) * eps * M) (m := average (latest kWindow ss)) (r := r)
    (E := (6 * ss.length + 232) * eps * M ^ 2) hM0 hM1 (by
      have : (2 * ss.length + 54) * eps ≤ 1 / 4 := by linarith
      nlinarith) hav r2 (le_of_eq (by ring)) (by
      have : 50 * ((6 * ss.length + 232) * eps) ≤ 1 := by linarith
      nlinarith) L 0 0 0 (fun t ht => hin t (l2.mem_iff.1 ht)) (by
        rw [l2.length_eq, hlat]
        unfold kWindow
        omega) le_rfl (by simp) (by simp)
  rw [zero_add, zero_add, l2.length_eq, hlat, (l2.map _).sum_eq] at v2
  have hn : (0 : ℚ) < ((Min.min ss.length kWindow : ℕ) : ℚ) := by
    have : 0 < Min.min ss.length kWindow := by unfold kWindow; omega
    exact_mod_cast this
  have hvar : variance (latest 50 ss) = ((latest kWindow ss).map fun s => (s - average (latest kWindow ss)) ^ 2).sum / ((Min.min ss.length kWindow : ℕ) : ℚ) := by
    show variance (latest kWindow ss) = _
    unfold variance
    rw [hlat]
  have hdev : |v / ((Min.min ss.length kWindow : ℕ) : ℚ) - variance (latest 50 ss)| ≤ (6 * ss.length + 232) * eps * M ^ 2 := by
    rw [hvar, ← sub_div, abs_div, abs_of_pos hn, div_le_iff₀ hn]
    linarith
  have hvar0 : 0 ≤ variance (latest 50 ss) := by
    rw [hvar]
    refine div_nonneg (sum_nonneg' fun t ht => ?_) hn.le
    obtain ⟨s, -, rfl⟩ := List.mem_map.1 ht
    exact sq_nonneg _
  have hvar1 : variance (latest 50 ss) ≤ M ^ 2 := by
    rw [hvar, div_le_iff₀ hn]
    have := sum_le_length (M := M ^ 2) (ss := (latest kWindow ss).map fun s => (s - average (latest kWindow ss)) ^ 2) fun t ht => by
      obtain ⟨s, hs, rfl⟩ := List.mem_map.1 ht
      have h1 := hin s hs
      have : |s - average (latest kWindow ss)| ≤ M := abs_le.2 ⟨by linarith [h1.1, hav.2], by linarith [h1.2, hav.1]⟩
      calc (s - average (latest kWindow ss)) ^ 2 = |s - average (latest kWindow ss)| ^ 2 := (sq_abs _).symm
        _ ≤ M ^ 2 := pow_le_pow_left₀ (abs_nonneg _) this 2
    rw [List.length_map, hlat] at this
    linarith
  have hM2 : 1 / 2 ^ 120 ≤ M ^ 2 := by
    calc (1 / 2 ^ 120 : ℚ) = (1 / 2 ^ 60) ^ 2 := by norm_num
      _ ≤ M ^ 2 := pow_le_pow_left₀ (by norm_num) hM0 2
  have hM3 : M ^ 2 ≤ 2 ^ 120 := by
    calc M ^ 2 ≤ (2 ^ 60) ^ 2 := pow_le_pow_left₀ hMp.le hM1 2
      _ = 2 ^ 120 := by norm_num
  have hsmall : (6 * ss.length + 232) * eps * M ^ 2 ≤ M ^ 2 := by
    have : (6 * ss.length + 232) * eps ≤ 1 := by linarith
    nlinarith
  have hd := abs_le.1 hdev
  obtain ⟨c, c1, c2⟩ := div64 (a := v) (b := ((Min.min ss.length kWindow : ℕ) : ℚ)) hn.ne' (B := 2 * M ^ 2)
    (by linarith [show (1 / 2 ^ 200 : ℚ) ≤ 1 / 2 ^ 120 by norm_num])
    (by
      have : (2 : ℚ) * 2 ^ 120 ≤ 2 ^ 250 := by norm_num
      linarith) (abs_le.2 ⟨by linarith, by linarith⟩)
  refine ⟨c, ?_, ?_⟩
  · unfold Acc.lazyVariance
    rw [r1, h.samples, l1, h.window, ha.window, if_neg hlen.ne', v1]
    exact c1
  · have hc := abs_le.1 c2
    show _ ≤ (6 * (ss.length : ℚ) + 234) * eps * M ^ 2
    exact abs_le.2 ⟨by linarith, by linarith⟩

example : (match addAll float64 kWindow Acc.new [.fin (1 / 2), .fin 1, .fin (3 / 2)] with
    | .ok b => decide (b.rollingMean float64 kWindow = .fin 1 ∧ b.lazyVariance float64 kWindow = .fin (rnd64 (1 / 6)))
    | _ => false) = true := by decide +kernel

/-- **C79**, frequency in double precision: if no sample is shorter than `m` and the history is not so long that the error exceeds half of that, the
frequency is defined and the inverse of the rolling mean, up to a relative error. -/
theorem C79_hz_double {M m : ℚ} (hm : 1 / 2 ^ 60 ≤ m) (hM1 : M ≤ 2 ^ 60) {ss : List ℚ} (h0 : ss ≠ []) (hs : ∀ t ∈ ss, m ≤ t ∧ t ≤ M)
    (hl : ss.length < 2 ^ 31) (he : (2 * ss.length + 54) * (1 / 2 ^ 53) * M ≤ m / 2) {r : Registry} {h : ℕ} {b : Acc}
    (hb : addAll float64 kWindow Acc.new (ss.map Fl.fin) = .ok b) (hr : r.timers[h]? = some b) :
    ∃ f, r.hz float64 h = .ok (.fin f) ∧
      |f - 1 / average (latest 50 ss)| ≤ ((4 * ss.length + 108) * (M / m) + 2) * (1 / 2 ^ 53) * (1 / average (latest 50 ss)) := by
  have hmp : 0 < m := lt_of_lt_of_le (by norm_num) hm
  obtain ⟨t0, ht0⟩ := List.exists_mem_of_ne_nil ss h0
  have hmM : m ≤ M := (hs t0 ht0).1.trans (hs t0 ht0).2
  have hs' : ∀ t ∈ ss, Sample M t := fun t ht => ⟨.inr (hm.trans (hs t ht).1), (hs t ht).2⟩
  obtain ⟨b', hb', ⟨q, q1, q2⟩, -⟩ := C79_rolling_double (hm.trans hmM) hM1 h0 hs' hl
  rw [hb] at hb'
  obtain rfl := Outcome.ok.inj hb'
  have hlen : 0 < ss.length := List.length_pos_of_ne_nil h0
  have hL : 0 < (latest 50 ss).length := by
    rw [latest_length]
    omega
  have hp : (0 : ℚ) < (latest 50 ss).length := by exact_mod_cast hL
  have hA : m ≤ average (latest 50 ss) := by
    unfold average
    rw [le_div_iff₀ hp]
    have := length_le_sum (m := m) (ss := latest 50 ss) fun t ht => (hs t (latest_sub ht)).1
    linarith
  have hA60 : average (latest 50 ss) ≤ 2 ^ 60 :=
    (average_bounds (M := M) (List.ne_nil_of_length_pos hL) fun t ht => ⟨hmp.le.trans (hs t (latest_sub ht)).1, (hs t (latest_sub ht)).2⟩).2.trans hM1
  generalize average (latest 50 ss) = A at *
  have hd := abs_le.1 q2
  have hq : m / 2 ≤ q := by linarith
  have hq' : A / 2 ≤ q := by linarith
  have hqp : 0 < q := by linarith
  have hAp : 0 < A := by linarith
  have hi : 1 / q ≤ 2 * (1 / A) := by
    rw [div_le_iff₀ hqp, mul_assoc, div_mul_eq_mul_div, one_mul, ← mul_div_assoc, le_div_iff₀ hAp]
    linarith
  obtain ⟨c, c1, c2⟩ := div64 (a := 1) (b := q) hqp.ne' (B := 2 * (1 / A)) (by
      rw [mul_one_div, div_le_div_iff₀ (by norm_num) hAp]
      refine le_trans ?_ (show (2 : ℚ) ^ 61 ≤ 2 * 2 ^ 200 by norm_num)
      linarith) (by
      rw [mul_one_div, div_le_iff₀ hAp]
      have : (2 : ℚ) ≤ 2 ^ 250 * (1 / 2 ^ 60) := by norm_num
      refine this.trans (mul_le_mul_of_nonneg_left (hm.trans hA) (by norm_num))) (by rw [abs_of_pos (by positivity)]; exact hi)
  refine ⟨c, ?_, ?_⟩
  · unfold Registry.hz Registry.timer
    rw [hr]
    simp only [Outcome.bind_ok]
    rw [q1, show Fl.lt (.fin 0) (.fin q) = true by simpa [Fl.lt] using hqp, c1]
    rfl
  · have hep := eps_pos
    have hgap : |1 / q - 1 / A| ≤ (4 * ss.length + 108) * (M / m) * eps * (1 / A) := by
      have e1 : 1 / q - 1 / A = -(q - A) / (q * A) := by field_simp; ring
      rw [e1, abs_div, abs_neg, abs_of_pos (by positivity : 0 < q * A), div_le_iff₀ (by positivity)]
      have e2 : (4 * ss.length + 108) * (M / m) * eps * (1 / A) * (q * A) = (2 * ss.length + 54) * eps * M * (2 * q / m) := by
        field_simp; ring
      rw [e2]
      have e3 : 1 ≤ 2 * q / m := by
        rw [le_div_iff₀ hmp]
        linarith
      have e4 : 0 ≤ (2 * ss.length + 54) * eps * M := (abs_nonneg _).trans q2
      exact q2.trans (le_mul_of_one_le_right e4 e3)
    have h1 := abs_le.1 hgap
    have h2 := abs_le.1 c2
    show _ ≤ ((4 * (ss.length : ℚ) + 108) * (M / m) + 2) * eps * (1 / A)
    exact abs_le.2 ⟨by linarith, by linarith⟩

example : (match addAll float64 kWindow Acc.new [.fin (1 / 4), .fin (3 / 4)] with
    | .ok b => decide (Registry.hz float64 ⟨[b], [("frame", 0)], 5⟩ 0 = Outcome.ok (Fl.fin 2))
    | _ => false) = true := by decide +kernel

/-- **C79**, the sample of an interval in double precision: an interval of `ns` nanoseconds, up to the 292 years the clock can count, is taken as
`ns / 10⁹` seconds up to four units of rounding, and is a sample the theorems above speak about. -/
theorem C79_seconds_double {ns : ℤ} (h0 : 0 ≤ ns) (h1 : ns < 2 ^ 63) :
    ∃ s : ℚ, seconds float64 ns = .fin s ∧ |s - (ns : ℚ) / 10 ^ 9| ≤ 4 * (1 / 2 ^ 53) * ((ns : ℚ) / 10 ^ 9) ∧ Sample (2 ^ 60) s := by
  rcases h0.eq_or_lt with rfl | hp
  · exact ⟨0, by decide +kernel, by simp, .inl rfl, by norm_num⟩
  have n1 : (1 : ℚ) ≤ ns := by exact_mod_cast hp
  have n2 : (ns : ℚ) ≤ 2 ^ 63 := by exact_mod_cast h1.le
  have he := eps_pos
  have hsm : eps ≤ 1 / 2 ^ 53 := le_refl _
  have a1 : float64.rnd (ns : ℚ) = .fin (rnd64 ns) := rnd64_fin (by
    rw [abs_of_nonneg (by linarith)]
    linarith [show (2 : ℚ) ^ 63 ≤ 2 ^ 250 by norm_num])
  have a2 := rnd64_within (x := (ns : ℚ)) (B := ns) (by linarith [show (1 / 2 ^ 200 : ℚ) ≤ 1 by norm_num]) (abs_of_nonneg (by linarith)).le
  have c1 : float64.rnd (1 / 1000000000 : ℚ) = .fin (rnd64 (1 / 1000000000)) := rnd64_fin (by
    rw [abs_of_nonneg (by norm_num)]
    norm_num)
  have c2 := rnd64_within (x := (1 / 1000000000 : ℚ)) (B := 1 / 1000000000) (by norm_num) (abs_of_nonneg (by norm_num)).le
  generalize rnd64 (ns : ℚ) = a at *
  generalize rnd64 (1 / 1000000000) = c at *
  have hprod : |a * c - ns / 10 ^ 9| ≤ 9 / 4 * eps * (ns / 10 ^ 9) := by
    have e1 : a * c - ns / 10 ^ 9 = (a - ns) * c + ns * (c - 1 / 1000000000) := by ring
    have e2 : |c| ≤ 5 / 4 * (1 / 1000000000) := by
      have := abs_le.1 c2
      exact abs_le.2 ⟨by linarith, by linarith⟩
    have e3 : |(a - ns) * c| ≤ eps * ns * (5 / 4 * (1 / 1000000000)) := by
      rw [abs_mul]
      exact mul_le_mul a2 e2 (abs_nonneg _) (by positivity)
    have e4 : |ns * (c - 1 / 1000000000)| ≤ ns * (eps * (1 / 1000000000)) := by
      rw [abs_mul, abs_of_nonneg (by linarith : (0 : ℚ) ≤ ns)]
      exact mul_le_mul_of_nonneg_left c2 (by linarith)
    rw [e1]
    refine (abs_add_le _ _).trans ((add_le_add e3 e4).trans (le_of_eq ?_))
    ring
  have hx : (1 : ℚ) / 10 ^ 9 ≤ ns / 10 ^ 9 := div_le_div_of_nonneg_right n1 (by norm_num)
  have hx2 : (ns : ℚ) / 10 ^ 9 ≤ 2 ^ 63 / 10 ^ 9 := div_le_div_of_nonneg_right n2 (by norm_num)
  generalize (ns : ℚ) / 10 ^ 9 = x at *
  have hxp : 0 < x := lt_of_lt_of_le (by norm_num) hx
  have hex : 0 < eps * x := by positivity
  have hex2 : eps * x ≤ 1 / 2 ^ 53 * x := mul_le_mul_of_nonneg_right hsm hxp.le
  have hb := abs_le.1 hprod
  obtain ⟨s, s1, s2⟩ := mul64 (a := a) (b := c) (B := 5 / 4 * x) (by linarith [show (1 / 2 ^ 200 : ℚ) ≤ 1 / 10 ^ 9 by norm_num])
    (by linarith [show (5 / 4 : ℚ) * (2 ^ 63 / 10 ^ 9) ≤ 2 ^ 250 by norm_num]) (abs_le.2 ⟨by linarith, by linarith⟩)
  have hb2 := abs_le.1 s2
  refine ⟨s, ?_, ?_, .inr ?_, ?_⟩
  · unfold seconds
    rw [a1, c1, s1]
  · show _ ≤ 4 * eps * x
    exact abs_le.2 ⟨by linarith, by linarith⟩
  · have : (1 / 2 ^ 60 : ℚ) ≤ 1 / 2 * (1 / 10 ^ 9) := by norm_num
    linarith
  · have : (2 : ℚ) * (2 ^ 63 / 10 ^ 9) ≤ 2 ^ 60 := by norm_num
    linarith

example : (seconds float64 1500000000 = .fin (3 / 2)) ∧ seconds float64 1 ≠ .fin (1 / 10 ^ 9) := by
  constructor <;> decide +kernel

end Vox.Timing
