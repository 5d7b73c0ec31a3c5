/-
Helper lemmas on ray casting: the loop as a list of emitted indices, and the exact traversal invariant.
-/
import Verif.Model.RayCaster
import Verif.Spec.Ray
import Verif.Lemmas.Tsdf
import Mathlib.Tactic.FinCases

namespace Vox.Ray

open Fl Spec

/-- One step of the traversal. -/
def advance (A : Arith) (b : Body) : Body :=
  let i := minCoeffIdx b.t
  { b with curr := modify3 b.curr i (· + at3 b.sign i)
           t := modify3 b.t i (A.add · (at3 b.tstep i))
           step := (b.step + 1) % 2 ^ 32 }

/-- The indices emitted by `n` calls. -/
def emit (A : Arith) : ℕ → Body → List Idx
  | 0, _ => []
  | n + 1, b => b.curr :: emit A n (advance A b)

theorem emit_length (A : Arith) (n : ℕ) : ∀ b, (emit A n b).length = n := by
  induction n with
  | zero => intro b; rfl
  | succ n ih => intro b; simp [emit, ih]

theorem castLoop_emit (A : Arith) (len : ℕ) (hlen : len + 1 < 2 ^ 32) (k : ℕ) :
    ∀ (n : ℕ) (b : Body), b.step + k = len + 1 → k + 1 ≤ n →
      castLoop A n { len := len, body := some b } = .ok (some (emit A k b)) := by
  induction k with
  | zero =>
    intro n b hb hn
    obtain ⟨m, rfl⟩ : ∃ m, n = m + 1 := ⟨n - 1, by omega⟩
    simp only [castLoop, next]
    rw [if_pos (show b.step > len by omega)]
    rfl
  | succ k ih =>
    intro n b hb hn
    obtain ⟨m, rfl⟩ : ∃ m, n = m + 1 := ⟨n - 1, by omega⟩
    simp only [castLoop, next]
    rw [if_neg (show ¬ b.step > len by omega)]
    have hstep : (advance A b).step + k = len + 1 := by
      simp only [advance]
      rw [Nat.mod_eq_of_lt (by omega)]
      omega
    have := ih m (advance A b) hstep (by omega)
    simp only [Outcome.bind_ok]
    unfold advance at this
    simp only at this
    rw [this]
    rfl

theorem advance_sign (A : Arith) (b : Body) : (advance A b).sign = b.sign := rfl

theorem modify3_step (a d : Idx) (i : Fin 3) : UnitStep d a (modify3 a i (· + at3 d i)) := by
  unfold UnitStep
  match i with
  | 0 => left; rfl
  | 1 => right; left; rfl
  | 2 => right; right; rfl

theorem emit_chain (A : Arith) (n : ℕ) : ∀ b, List.IsChain (UnitStep b.sign) (emit A n b) := by
  induction n with
  | zero => intro b; exact List.isChain_nil
  | succ n ih =>
    intro b
    cases n with
    | zero => exact List.isChain_singleton _
    | succ n =>
      have h2 := ih (advance A b)
      rw [advance_sign] at h2
      have : emit A (n + 1 + 1) b = b.curr :: emit A (n + 1) (advance A b) := rfl
      rw [this]
      rw [show emit A (n + 1) (advance A b) = (advance A b).curr :: emit A n (advance A (advance A b)) from rfl] at h2 ⊢
      exact List.IsChain.cons_cons (modify3_step _ _ _) h2

/-! ### The exact traversal -/

/-- Parameter of the next boundary of the current cell along axis `i`. -/
def tau (s r : Pt) (cur : Idx) (i : Fin 3) : ℚ :=
  (((at3 cur i : ℤ) : ℚ) + (max 0 (signum (at3 r i)) : ℤ) - at3 s i) / at3 r i

/-- The traversal state agrees with the exact boundary parameters. -/
structure Inv (s r : Pt) (b : Body) : Prop where
  t : ∀ i, at3 b.t i = .fin (tau s r b.curr i)
  sign : ∀ i, at3 b.sign i = signum (at3 r i)
  tstep : ∀ i, at3 b.tstep i = .fin ((signum (at3 r i) : ℤ) / at3 r i)

theorem minCoeffIdx_min {t : Vec3 Fl} {q : Fin 3 → ℚ} (h : ∀ i, at3 t i = .fin (q i)) (j : Fin 3) :
    q (minCoeffIdx t) ≤ q j := by
  have h0 : t.x = .fin (q 0) := h 0
  have h1 : t.y = .fin (q 1) := h 1
  have h2 : t.z = .fin (q 2) := h 2
  unfold minCoeffIdx
  simp only [h0, h1, h2, Fl.lt, decide_eq_true_eq]
  have hj : j = 0 ∨ j = 1 ∨ j = 2 := by omega
  by_cases a : q 1 < q 0
  · rw [if_pos a]
    by_cases c : q 2 < q 1
    · rw [if_pos c]; rcases hj with rfl | rfl | rfl <;> linarith
    · rw [if_neg c]; rcases hj with rfl | rfl | rfl <;> linarith
  · rw [if_neg a]
    by_cases c : q 2 < q 0
    · rw [if_pos c]; rcases hj with rfl | rfl | rfl <;> linarith
    · rw [if_neg c]; rcases hj with rfl | rfl | rfl <;> linarith

theorem at3_modify3_same {α : Type} (v : Vec3 α) (i : Fin 3) (f : α → α) : at3 (modify3 v i f) i = f (at3 v i) := by
  match i with
  | 0 => rfl
  | 1 => rfl
  | 2 => rfl

theorem at3_modify3_ne {α : Type} (v : Vec3 α) {i j : Fin 3} (h : j ≠ i) (f : α → α) :
    at3 (modify3 v i f) j = at3 v j := by
  match i, j with
  | 0, 0 => exact absurd rfl h
  | 0, 1 => rfl
  | 0, 2 => rfl
  | 1, 0 => rfl
  | 1, 1 => exact absurd rfl h
  | 1, 2 => rfl
  | 2, 0 => rfl
  | 2, 1 => rfl
  | 2, 2 => exact absurd rfl h

theorem tau_congr {s r : Pt} {a b : Idx} {i : Fin 3} (h : at3 a i = at3 b i) : tau s r a i = tau s r b i := by
  unfold tau; rw [h]

variable {sq : ℚ → Fl}

theorem advance_curr_same (A : Arith) (b : Body) :
    at3 (advance A b).curr (minCoeffIdx b.t) = at3 b.curr (minCoeffIdx b.t) + at3 b.sign (minCoeffIdx b.t) :=
  at3_modify3_same _ _ _

theorem advance_curr_ne (A : Arith) (b : Body) {j : Fin 3} (h : j ≠ minCoeffIdx b.t) :
    at3 (advance A b).curr j = at3 b.curr j := at3_modify3_ne _ h _

theorem inv_advance {s r : Pt} {b : Body} (h : Inv s r b) : Inv s r (advance (Arith.exact sq) b) where
  sign := h.sign
  tstep := h.tstep
  t := by
    intro i
    by_cases hi : i = minCoeffIdx b.t
    · rw [hi]
      have e : at3 (advance (Arith.exact sq) b).t (minCoeffIdx b.t) =
          (Arith.exact sq).add (at3 b.t (minCoeffIdx b.t)) (at3 b.tstep (minCoeffIdx b.t)) := at3_modify3_same _ _ _
      rw [e, h.t, h.tstep, Tsdf.exact_add]
      congr 1
      unfold tau
      rw [advance_curr_same, h.sign]
      push_cast
      ring
    · have e : at3 (advance (Arith.exact sq) b).t i = at3 b.t i := at3_modify3_ne _ hi _
      rw [e, h.t, tau_congr (advance_curr_ne _ b hi)]

/-- The traversal has not overshot the end voxel `E` along any axis. -/
def NoOver (r : Pt) (E cur : Idx) : Prop :=
  ∀ i, (0 < at3 r i ∧ at3 cur i ≤ at3 E i) ∨ (at3 r i < 0 ∧ at3 E i ≤ at3 cur i)

/-- The end point lies strictly inside the cell `E`. -/
def StrictIn (s r : Pt) (E : Idx) : Prop :=
  ∀ i, ((at3 E i : ℤ) : ℚ) < at3 s i + at3 r i ∧ at3 s i + at3 r i < at3 E i + 1

theorem signum_pos {q : ℚ} (h : 0 < q) : signum q = 1 := by
  simp [signum, h.ne', not_lt.2 h.le]

theorem signum_neg {q : ℚ} (h : q < 0) : signum q = -1 := by
  simp [signum, h.ne, h]

theorem tau_lt_one {s r : Pt} {E cur : Idx} (hn : NoOver r E cur) (he : StrictIn s r E) (i : Fin 3) :
    (at3 cur i ≠ at3 E i → tau s r cur i < 1) ∧ (at3 cur i = at3 E i → 1 < tau s r cur i) := by
  have he := he i
  rcases hn i with ⟨hr, hc⟩ | ⟨hr, hc⟩
  · constructor
    · intro hne
      have : at3 cur i + 1 ≤ at3 E i := by omega
      have : ((at3 cur i : ℤ) : ℚ) + 1 ≤ at3 E i := by exact_mod_cast this
      unfold tau
      rw [signum_pos hr, div_lt_one hr]
      push_cast
      norm_num
      linarith
    · intro heq
      unfold tau
      rw [signum_pos hr, one_lt_div hr, heq]
      push_cast
      norm_num
      linarith
  · constructor
    · intro hne
      have : at3 E i + 1 ≤ at3 cur i := by omega
      have : ((at3 E i : ℤ) : ℚ) + 1 ≤ at3 cur i := by exact_mod_cast this
      unfold tau
      rw [signum_neg hr, div_lt_one_of_neg hr]
      push_cast
      norm_num
      linarith
    · intro heq
      unfold tau
      rw [signum_neg hr, one_lt_div_of_neg hr, heq]
      push_cast
      norm_num
      linarith

/-- Per-axis distance to the end voxel. -/
def gap (E cur : Idx) (i : Fin 3) : ℕ := (at3 E i - at3 cur i).natAbs

theorem l1_eq_gap (E cur : Idx) : l1dist cur E = gap E cur 0 + gap E cur 1 + gap E cur 2 := rfl

theorem gap_zero_iff (E cur : Idx) : l1dist cur E = 0 ↔ cur = E := by
  constructor
  · intro h
    unfold l1dist at h
    ext <;> omega
  · rintro rfl; simp [l1dist]

theorem exists_ne {E cur : Idx} (h : cur ≠ E) : ∃ i, at3 cur i ≠ at3 E i := by
  by_contra hcon
  push Not at hcon
  exact h (by ext; exact hcon 0; exact hcon 1; exact hcon 2)

/-- Away from the end voxel, the step is taken along an axis that still has to be advanced. -/
theorem advance_progress {s r : Pt} {E : Idx} {b : Body} (hI : Inv s r b) (hn : NoOver r E b.curr)
    (he : StrictIn s r E) (hne : b.curr ≠ E) :
    at3 b.curr (minCoeffIdx b.t) ≠ at3 E (minCoeffIdx b.t) ∧ tau s r b.curr (minCoeffIdx b.t) < 1 := by
  obtain ⟨j, hj⟩ := exists_ne hne
  have h1 := (tau_lt_one hn he j).1 hj
  have h2 := minCoeffIdx_min hI.t j
  have h3 : tau s r b.curr (minCoeffIdx b.t) < 1 := lt_of_le_of_lt h2 h1
  refine ⟨?_, h3⟩
  intro heq
  have := (tau_lt_one hn he (minCoeffIdx b.t)).2 heq
  linarith

theorem noOver_advance {s r : Pt} {E : Idx} {b : Body} (hI : Inv s r b) (hn : NoOver r E b.curr)
    (he : StrictIn s r E) (hne : b.curr ≠ E) : NoOver r E (advance (Arith.exact sq) b).curr := by
  intro i
  have hp := (advance_progress hI hn he hne).1
  by_cases hi : i = minCoeffIdx b.t
  · rw [hi, advance_curr_same, hI.sign]
    rcases hn (minCoeffIdx b.t) with ⟨hr, hc⟩ | ⟨hr, hc⟩
    · left; rw [signum_pos hr]; exact ⟨hr, by omega⟩
    · right; rw [signum_neg hr]; exact ⟨hr, by omega⟩
  · rw [advance_curr_ne _ b hi]; exact hn i

theorem gap_advance {s r : Pt} {E : Idx} {b : Body} (hI : Inv s r b) (hn : NoOver r E b.curr)
    (he : StrictIn s r E) (hne : b.curr ≠ E) :
    l1dist (advance (Arith.exact sq) b).curr E + 1 = l1dist b.curr E := by
  have hp := (advance_progress hI hn he hne).1
  have hsame : gap E (advance (Arith.exact sq) b).curr (minCoeffIdx b.t) + 1 = gap E b.curr (minCoeffIdx b.t) := by
    unfold gap
    rw [advance_curr_same, hI.sign]
    rcases hn (minCoeffIdx b.t) with ⟨hr, hc⟩ | ⟨hr, hc⟩
    · rw [signum_pos hr]; omega
    · rw [signum_neg hr]; omega
  have hother : ∀ j, j ≠ minCoeffIdx b.t → gap E (advance (Arith.exact sq) b).curr j = gap E b.curr j := by
    intro j hj; unfold gap; rw [advance_curr_ne _ b hj]
  rw [l1_eq_gap, l1_eq_gap]
  generalize minCoeffIdx b.t = i at *
  have hi : i = 0 ∨ i = 1 ∨ i = 2 := by omega
  rcases hi with rfl | rfl | rfl
  · rw [hother 1 (by decide), hother 2 (by decide)]; omega
  · rw [hother 0 (by decide), hother 2 (by decide)]; omega
  · rw [hother 0 (by decide), hother 1 (by decide)]; omega

/-- The traversal ends in the end voxel. -/
theorem emit_last {s r : Pt} {E : Idx} (he : StrictIn s r E) (n : ℕ) :
    ∀ (b : Body), Inv s r b → NoOver r E b.curr → l1dist b.curr E = n →
      (emit (Arith.exact sq) (n + 1) b).getLast? = some E := by
  induction n with
  | zero =>
    intro b _ _ h
    rw [gap_zero_iff] at h
    simp [emit, h]
  | succ n ih =>
    intro b hI hn h
    have hne : b.curr ≠ E := by
      intro heq
      have := (gap_zero_iff E b.curr).2 heq
      omega
    have h' : l1dist (advance (Arith.exact sq) b).curr E = n := by
      have := gap_advance (sq := sq) hI hn he hne
      omega
    have := ih _ (inv_advance hI) (noOver_advance hI hn he hne) h'
    rw [show emit (Arith.exact sq) (n + 1 + 1) b = b.curr :: emit (Arith.exact sq) (n + 1) (advance _ b) from rfl]
    rw [List.getLast?_cons, this]
    rfl

/-! Which cells the segment passes. -/

/-- Coordinate `i` of the segment at parameter `t`. -/
def seg (s r : Pt) (t : ℚ) (i : Fin 3) : ℚ := at3 s i + t * at3 r i

/-- The closed cell contains the point of the segment. -/
def CellAt (s r : Pt) (c : Idx) (t : ℚ) : Prop := ∀ i, ((at3 c i : ℤ) : ℚ) ≤ seg s r t i ∧ seg s r t i ≤ at3 c i + 1

theorem cellAt_convex {s r : Pt} {c : Idx} {a b t : ℚ} (ha : CellAt s r c a) (hb : CellAt s r c b) (h1 : a ≤ t)
    (h2 : t ≤ b) : CellAt s r c t := by
  intro i
  have ha := ha i
  have hb := hb i
  unfold seg at *
  rcases le_total 0 (at3 r i) with h | h
  · have := mul_le_mul_of_nonneg_right h1 h
    have := mul_le_mul_of_nonneg_right h2 h
    constructor <;> linarith
  · have := mul_le_mul_of_nonpos_right h1 h
    have := mul_le_mul_of_nonpos_right h2 h
    constructor <;> linarith

theorem seg_tau {s r : Pt} {c : Idx} {i : Fin 3} (hr : at3 r i ≠ 0) :
    seg s r (tau s r c i) i = at3 c i + (max 0 (signum (at3 r i)) : ℤ) := by
  unfold seg tau
  rw [div_mul_cancel₀ _ hr]
  ring

/-- The segment point at the next crossing lies in the closed current cell. -/
theorem cellAt_crossing {s r : Pt} {b : Body} {t0 : ℚ} (hI : Inv s r b) (hr : ∀ i, at3 r i ≠ 0)
    (h0 : CellAt s r b.curr t0) (hle : ∀ i, t0 ≤ tau s r b.curr i) :
    CellAt s r b.curr (tau s r b.curr (minCoeffIdx b.t)) := by
  intro j
  have hmin := minCoeffIdx_min hI.t j
  have ht := hle (minCoeffIdx b.t)
  have h0 := h0 j
  have hs := seg_tau (s := s) (c := b.curr) (hr j)
  unfold seg at *
  generalize tau s r b.curr (minCoeffIdx b.t) = t1 at *
  rcases lt_or_gt_of_ne (hr j) with h | h
  · rw [signum_neg h] at hs
    have a1 := mul_le_mul_of_nonpos_right ht h.le
    have a2 := mul_le_mul_of_nonpos_right hmin h.le
    norm_num at hs
    constructor <;> linarith
  · rw [signum_pos h] at hs
    have a1 := mul_le_mul_of_nonneg_right ht h.le
    have a2 := mul_le_mul_of_nonneg_right hmin h.le
    norm_num at hs
    constructor <;> linarith

/-- ... and in the closed next cell. -/
theorem cellAt_next {s r : Pt} {b : Body} {t0 : ℚ} (hI : Inv s r b) (hr : ∀ i, at3 r i ≠ 0)
    (h0 : CellAt s r b.curr t0) (hle : ∀ i, t0 ≤ tau s r b.curr i) :
    CellAt s r (advance (Arith.exact sq) b).curr (tau s r b.curr (minCoeffIdx b.t)) := by
  intro j
  by_cases hj : j = minCoeffIdx b.t
  · rw [hj, advance_curr_same, hI.sign]
    have hs := seg_tau (s := s) (c := b.curr) (hr (minCoeffIdx b.t))
    rw [hs]
    rcases lt_or_gt_of_ne (hr (minCoeffIdx b.t)) with h | h
    · rw [signum_neg h]; push_cast; norm_num
    · rw [signum_pos h]; push_cast; norm_num
  · rw [advance_curr_ne _ b hj]
    exact cellAt_crossing hI hr h0 hle j

theorem tau_le_next {s r : Pt} {b : Body} (hI : Inv s r b) (hr : ∀ i, at3 r i ≠ 0) (j : Fin 3) :
    tau s r b.curr (minCoeffIdx b.t) ≤ tau s r (advance (Arith.exact sq) b).curr j := by
  by_cases hj : j = minCoeffIdx b.t
  · rw [hj]
    unfold tau
    rw [advance_curr_same, hI.sign]
    rcases lt_or_gt_of_ne (hr (minCoeffIdx b.t)) with h | h
    · rw [signum_neg h]
      apply div_le_div_of_nonpos_of_le h.le
      push_cast; linarith
    · rw [signum_pos h]
      apply div_le_div_of_nonneg_right _ h.le
      push_cast; linarith
  · rw [tau_congr (advance_curr_ne _ b hj)]
    exact minCoeffIdx_min hI.t j

/-- Every emitted cell is hit by the segment, and the emitted cells cover the segment. -/
theorem emit_cells {s r : Pt} {E : Idx} (he : StrictIn s r E) (hr : ∀ i, at3 r i ≠ 0) (n : ℕ) :
    ∀ (b : Body) (t0 : ℚ), Inv s r b → NoOver r E b.curr → l1dist b.curr E = n → 0 ≤ t0 → t0 ≤ 1 →
      CellAt s r b.curr t0 → (∀ i, t0 ≤ tau s r b.curr i) →
      (∀ c ∈ emit (Arith.exact sq) (n + 1) b, ∃ t, 0 ≤ t ∧ t ≤ 1 ∧ CellAt s r c t) ∧
      (∀ t, t0 ≤ t → t ≤ 1 → ∃ c ∈ emit (Arith.exact sq) (n + 1) b, CellAt s r c t) := by
  induction n with
  | zero =>
    intro b t0 _ _ h h0 h1 hc _
    rw [gap_zero_iff] at h
    have hE : CellAt s r b.curr 1 := by
      rw [h]
      intro i
      have := he i
      unfold seg
      rw [one_mul]
      exact ⟨this.1.le, this.2.le⟩
    constructor
    · intro c hc'
      simp only [emit, List.mem_singleton] at hc'
      exact ⟨t0, h0, h1, by rw [hc']; exact hc⟩
    · intro t ht ht1
      exact ⟨b.curr, by simp [emit], cellAt_convex hc hE ht ht1⟩
  | succ n ih =>
    intro b t0 hI hn h h0 h1 hc hle
    have hne : b.curr ≠ E := by
      intro heq
      have := (gap_zero_iff E b.curr).2 heq
      omega
    have h' : l1dist (advance (Arith.exact sq) b).curr E = n := by
      have := gap_advance (sq := sq) hI hn he hne
      omega
    have ht1 := (advance_progress hI hn he hne).2
    have ht0 := hle (minCoeffIdx b.t)
    have hcross := cellAt_crossing hI hr hc hle
    obtain ⟨ih1, ih2⟩ := ih _ (tau s r b.curr (minCoeffIdx b.t)) (inv_advance (sq := sq) hI)
      (noOver_advance hI hn he hne) h' (by linarith) ht1.le (cellAt_next hI hr hc hle) (tau_le_next hI hr)
    have hcons : emit (Arith.exact sq) (n + 1 + 1) b = b.curr :: emit (Arith.exact sq) (n + 1) (advance _ b) := rfl
    rw [hcons]
    constructor
    · intro c hc'
      rcases List.mem_cons.1 hc' with rfl | hc'
      · exact ⟨t0, h0, h1, hc⟩
      · exact ih1 c hc'
    · intro t ht ht'
      rcases le_total t (tau s r b.curr (minCoeffIdx b.t)) with h2 | h2
      · exact ⟨b.curr, by simp, cellAt_convex hc hcross ht h2⟩
      · obtain ⟨c, hc1, hc2⟩ := ih2 t h2 ht'
        exact ⟨c, by simp [hc1], hc2⟩

/-! ### Setup -/

/-- The state after setting up a ray between points with known voxels. -/
theorem setup_ok (A : Arith) {s e : Vec3 Fl} {a z : Idx} (ha : gridFl A s = .ok a) (hz : gridFl A e = .ok z)
    (hnan : (anyNan s || anyNan e) = false) (hlen : l1dist a z + 1 < 2 ^ 32) :
    ∃ b : Body, setup A s e = .ok { len := l1dist a z, body := some b } ∧ b.step = 0 ∧ b.curr = a ∧
      b.sign = (A.vsub e s).map signumFl := by
  have hm : l1 a z % 2 ^ 32 = l1dist a z := Nat.mod_eq_of_lt (by show l1dist a z < _; omega)
  have h : ∃ c, setup A s e = .ok c ∧ c.len = l1dist a z ∧
      ∃ b, c.body = some b ∧ b.step = 0 ∧ b.curr = a ∧ b.sign = (A.vsub e s).map signumFl := by
    unfold setup
    rw [if_neg (by simp [hnan]), ha, hz]
    exact ⟨_, rfl, hm, _, rfl, rfl, rfl, rfl⟩
  obtain ⟨⟨l, ob⟩, h1, h2, b, h3, h4⟩ := h
  simp only at h2 h3
  subst h2 h3
  exact ⟨b, h1, h4⟩

/-- Range within which the conversion to 64-bit indices is defined. -/
def InRange (p : Pt) : Prop := p.All fun c => -2 ^ 62 ≤ c ∧ c ≤ 2 ^ 62

theorem gridFl1_exact {c : ℚ} (h : -2 ^ 62 ≤ c ∧ c ≤ 2 ^ 62) :
    gridFl1 (Arith.exact sq) (.fin c) = .ok ⌊c + kEpsilon⌋ := by
  unfold gridFl1
  have hr : (Arith.exact sq).rnd kEpsilon = .fin kEpsilon := rfl
  simp only [hr, Tsdf.exact_add]
  rw [if_pos]
  have hk : kEpsilon = 1 / 1000000 := rfl
  constructor
  · apply Int.le_floor.2; rw [hk]; push_cast; linarith
  · apply Int.floor_lt.2; rw [hk]; push_cast; linarith

theorem gridFl_exact {p : Pt} (h : InRange p) :
    gridFl (Arith.exact sq) (p.map .fin) = .ok (gridIndexScaled p) := by
  unfold gridFl
  simp only [Vec3.map_x, Vec3.map_y, Vec3.map_z, gridFl1_exact h.1, gridFl1_exact h.2.1, gridFl1_exact h.2.2,
    Outcome.bind_ok]
  rfl

theorem tFirst_exact {s r : ℚ} (hr : r ≠ 0) (cur : ℤ) :
    tFirst (Arith.exact sq) (.fin s) (.fin r) cur =
      .fin (((cur : ℚ) + (max 0 (signum r) : ℤ) - s) / r) := by
  unfold tFirst
  have h1 : (Arith.exact sq).rnd cur = .fin cur := rfl
  simp only [h1, Tsdf.exact_sub, signumFl, Fl.abs, Fl.lt, Tsdf.exact_div sq hr]
  rw [if_neg (by simp)]
  congr 1
  ring

theorem tStep_exact {r : ℚ} (hr : r ≠ 0) :
    tStep (Arith.exact sq) (.fin r) = .fin ((signum r : ℤ) / r) := by
  unfold tStep
  simp only [signumFl, Fl.abs, Fl.lt, Tsdf.exact_div sq hr]
  rw [if_neg (by simp)]

/-- The state after setting up a ray in exact arithmetic. -/
def startBody (s e : Pt) : Body :=
  let r := (Arith.exact sq).vsub (e.map .fin) (s.map .fin)
  let cur := gridIndexScaled s
  { t := ⟨tFirst (Arith.exact sq) (.fin s.x) r.x cur.x, tFirst (Arith.exact sq) (.fin s.y) r.y cur.y,
      tFirst (Arith.exact sq) (.fin s.z) r.z cur.z⟩
    curr := cur, sign := r.map signumFl, tstep := r.map (tStep (Arith.exact sq)), step := 0 }

theorem setup_exact {s e : Pt} (hs : InRange s) (he : InRange e) :
    setup (Arith.exact sq) (s.map .fin) (e.map .fin) =
      .ok { len := l1dist (gridIndexScaled s) (gridIndexScaled e) % 2 ^ 32, body := some (startBody (sq := sq) s e) } := by
  unfold setup
  rw [if_neg (by simp [anyNan, isNan]), gridFl_exact hs, gridFl_exact he]
  rfl

theorem startBody_inv {s e : Pt} (hx : e.x ≠ s.x) (hy : e.y ≠ s.y) (hz : e.z ≠ s.z) :
    Inv s (e - s) (startBody (sq := sq) s e) := by
  have hx := sub_ne_zero.2 hx
  have hy := sub_ne_zero.2 hy
  have hz := sub_ne_zero.2 hz
  constructor
  · intro i
    match i with
    | 0 =>
      show tFirst (Arith.exact sq) (.fin s.x) ((Arith.exact sq).sub (.fin e.x) (.fin s.x)) _ = _
      rw [Tsdf.exact_sub, tFirst_exact hx]; rfl
    | 1 =>
      show tFirst (Arith.exact sq) (.fin s.y) ((Arith.exact sq).sub (.fin e.y) (.fin s.y)) _ = _
      rw [Tsdf.exact_sub, tFirst_exact hy]; rfl
    | 2 =>
      show tFirst (Arith.exact sq) (.fin s.z) ((Arith.exact sq).sub (.fin e.z) (.fin s.z)) _ = _
      rw [Tsdf.exact_sub, tFirst_exact hz]; rfl
  · intro i
    match i with
    | 0 => show signumFl ((Arith.exact sq).sub (.fin e.x) (.fin s.x)) = _; rw [Tsdf.exact_sub]; rfl
    | 1 => show signumFl ((Arith.exact sq).sub (.fin e.y) (.fin s.y)) = _; rw [Tsdf.exact_sub]; rfl
    | 2 => show signumFl ((Arith.exact sq).sub (.fin e.z) (.fin s.z)) = _; rw [Tsdf.exact_sub]; rfl
  · intro i
    match i with
    | 0 => show tStep (Arith.exact sq) ((Arith.exact sq).sub (.fin e.x) (.fin s.x)) = _; rw [Tsdf.exact_sub, tStep_exact hx]; rfl
    | 1 => show tStep (Arith.exact sq) ((Arith.exact sq).sub (.fin e.y) (.fin s.y)) = _; rw [Tsdf.exact_sub, tStep_exact hy]; rfl
    | 2 => show tStep (Arith.exact sq) ((Arith.exact sq).sub (.fin e.z) (.fin s.z)) = _; rw [Tsdf.exact_sub, tStep_exact hz]; rfl

theorem floor_eps_clear {c : ℤ} {q : ℚ} (h1 : (c : ℚ) ≤ q) (h2 : q + 1 / 1000000 < c + 1) : ⌊q + kEpsilon⌋ = c := by
  have hk : kEpsilon = 1 / 1000000 := rfl
  rw [Int.floor_eq_iff, hk]
  constructor <;> linarith

theorem gridIndexScaled_of_insideLow {c : Idx} {p : Pt} (h : InsideLow c p) : gridIndexScaled p = c := by
  ext
  · exact floor_eps_clear h.1.1 h.1.2
  · exact floor_eps_clear h.2.1.1 h.2.1.2
  · exact floor_eps_clear h.2.2.1 h.2.2.2

theorem ClearlyInside.low {c : Idx} {p : Pt} (h : ClearlyInside c p) : InsideLow c p :=
  ⟨⟨h.1.1.le, h.1.2⟩, ⟨h.2.1.1.le, h.2.1.2⟩, ⟨h.2.2.1.le, h.2.2.2⟩⟩

/-- No axis starts beyond the end voxel. -/
theorem noOver_start {s e : ℚ} {E : ℤ} (hne : e ≠ s) (h1 : (E : ℚ) < e) (h2 : e + 1 / 1000000 < E + 1) :
    (0 < e - s ∧ ⌊s + kEpsilon⌋ ≤ E) ∨ (e - s < 0 ∧ E ≤ ⌊s + kEpsilon⌋) := by
  have hk : kEpsilon = 1 / 1000000 := rfl
  rcases lt_or_gt_of_ne hne with h | h
  · right
    refine ⟨by linarith, Int.le_floor.2 ?_⟩
    rw [hk]; linarith
  · left
    refine ⟨by linarith, ?_⟩
    have : ⌊s + kEpsilon⌋ < E + 1 := Int.floor_lt.2 (by rw [hk]; push_cast; linarith)
    omega

end Vox.Ray
