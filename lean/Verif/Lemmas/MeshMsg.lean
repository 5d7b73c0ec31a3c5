/-
Mesh messages: error of the fixed-point positions, range checks.
-/
import Verif.Model.MeshMsg
import Verif.Lemmas.IndexFloat

namespace Vox.MeshMsg

open MC Ieee MeshInt
open IndexF (u eta Size)

/-! ### Finite results -/

theorem rnd_fin {q r : ℚ} (h : float32.rnd q = .fin r) : r = rnd32 q := (overflow_fin h).1

theorem rnd_of_lt {q : ℚ} (h : |rnd32 q| < 2 ^ 128) : float32.rnd q = .fin (rnd32 q) := overflow_of_lt h

theorem mul_fin {x y : Fl} {r : ℚ} (h : float32.mul x y = .fin r) : ∃ a b, x = .fin a ∧ y = .fin b ∧ r = rnd32 (a * b) := by
  cases x <;> cases y <;> simp only [Arith.mul, Fl.infOfSign] at h <;> first
    | exact ⟨_, _, rfl, rfl, rnd_fin h⟩
    | (exfalso; revert h; (repeat' split) <;> simp)

theorem add_fin {x y : Fl} {r : ℚ} (h : float32.add x y = .fin r) : ∃ a b, x = .fin a ∧ y = .fin b ∧ r = rnd32 (a + b) := by
  cases x <;> cases y <;> simp only [Arith.add] at h <;> first
    | exact ⟨_, _, rfl, rfl, rnd_fin h⟩
    | simp at h

theorem sub_fin {x y : Fl} {r : ℚ} (h : float32.sub x y = .fin r) : ∃ a b, x = .fin a ∧ y = .fin b ∧ r = rnd32 (a - b) := by
  obtain ⟨a, b, rfl, hb, hr⟩ := add_fin h
  cases y <;> simp only [Fl.neg] at hb <;> try simp at hb
  exact ⟨_, _, rfl, rfl, by rw [hr, ← hb, sub_eq_add_neg]⟩

theorem rnd32_mono {a b : ℚ} (h : a ≤ b) : rnd32 a ≤ rnd32 b := rne_mono (by norm_num) h

theorem rnd32_idem (a : ℚ) : rnd32 (rnd32 a) = rnd32 a := rne_idem (by norm_num) a

theorem rnd32_one : rnd32 1 = 1 := by simpa using IndexF.rnd32_int (n := 1) (by norm_num)

/-- Not negative: what squares and their sums are. -/
def NonNeg : Fl → Prop
  | .fin q => 0 ≤ q ∧ rnd32 q = q
  | .ninf => False
  | _ => True

theorem rnd_nonneg {q : ℚ} (h : 0 ≤ q) : NonNeg (float32.rnd q) := by
  have h0 : 0 ≤ rnd32 q := rne_nonneg h
  rcases hr : float32.rnd q with _ | _ | r | _
  · trivial
  · exfalso
    change overflow _ _ = _ at hr
    unfold overflow at hr
    split_ifs at hr with h1 h2
    have : (0 : ℚ) < 2 ^ 128 := by positivity
    linarith
  · rw [rnd_fin hr]
    exact ⟨h0, rnd32_idem q⟩
  · trivial

theorem mul_self_nonneg' (x : Fl) : NonNeg (float32.mul x x) := by
  cases x <;> simp only [Arith.mul] <;> first
    | exact rnd_nonneg (mul_self_nonneg _)
    | trivial

theorem add_nonneg' {x y : Fl} (hx : NonNeg x) (hy : NonNeg y) : NonNeg (float32.add x y) := by
  cases x <;> cases y <;> simp only [Arith.add] <;> first
    | exact rnd_nonneg (add_nonneg hx.1 hy.1)
    | trivial

theorem le_one_fin {x : Fl} (hx : NonNeg x) (h : Fl.le x (.fin 1) = true) : ∃ q, x = .fin q ∧ q ≤ 1 := by
  cases x <;> first
    | exact hx.elim
    | exact ⟨_, rfl, by simpa [Fl.le] using h⟩
    | simp [Fl.le] at h

theorem add_le_one {x y : Fl} (hx : NonNeg x) (hy : NonNeg y) (h : Fl.le (float32.add x y) (.fin 1) = true) :
    Fl.le x (.fin 1) = true ∧ Fl.le y (.fin 1) = true := by
  obtain ⟨q, hq, h1⟩ := le_one_fin (add_nonneg' hx hy) h
  obtain ⟨a, b, rfl, rfl, rfl⟩ := add_fin hq
  have ha := rnd32_mono (show a ≤ a + b by linarith [hy.1])
  have hb := rnd32_mono (show b ≤ a + b by linarith [hx.1])
  rw [hx.2] at ha
  rw [hy.2] at hb
  simp only [Fl.le, decide_eq_true_eq]
  constructor <;> linarith

/-- A product with itself that is at most one. -/
theorem sq_le_one {x : Fl} (h : Fl.le (float32.mul x x) (.fin 1) = true) (hr : ∀ q, x = .fin q → rnd32 q = q) :
    ∃ q, x = .fin q ∧ q ≤ 1 := by
  obtain ⟨q, hq, h1⟩ := le_one_fin (mul_self_nonneg' x) h
  obtain ⟨a, b, ha, hb, rfl⟩ := mul_fin hq
  have hab : a = b := Fl.fin.inj (ha.symm.trans hb)
  subst hab
  refine ⟨a, ha, ?_⟩
  by_contra hc
  push Not at hc
  have := rnd32_mono (show a ≤ a * a by nlinarith)
  rw [hr a ha] at this
  linarith

theorem normalized1_repr {inv x : Fl} {i : ℤ} : ∀ q, normalized1 inv x i = .fin q → rnd32 q = q := by
  intro q h
  obtain ⟨a, b, -, -, rfl⟩ := mul_fin h
  exact rnd32_idem _

/-- What the range checks say. -/
theorem checked {n : Vec3 Fl} (h : Fl.le (float32.dot n n) (.fin 1) = true)
    (hx : ∀ q, n.x = .fin q → rnd32 q = q) (hy : ∀ q, n.y = .fin q → rnd32 q = q) (hz : ∀ q, n.z = .fin q → rnd32 q = q) :
    ∃ a b c, n = ⟨.fin a, .fin b, .fin c⟩ ∧ a ≤ 1 ∧ b ≤ 1 ∧ c ≤ 1 := by
  have h1 := add_le_one (add_nonneg' (mul_self_nonneg' n.x) (mul_self_nonneg' n.y)) (mul_self_nonneg' n.z) h
  have h2 := add_le_one (mul_self_nonneg' n.x) (mul_self_nonneg' n.y) h1.1
  obtain ⟨a, ha, ha1⟩ := sq_le_one h2.1 hx
  obtain ⟨b, hb, hb1⟩ := sq_le_one h2.2 hy
  obtain ⟨c, hc, hc1⟩ := sq_le_one h1.2 hz
  exact ⟨a, b, c, by cases n; simp_all, ha1, hb1, hc1⟩

theorem rnd32_65535 : rnd32 65535 = 65535 := by simpa using IndexF.rnd32_int (n := 65535) (by norm_num)

/-- The conversion to fixed point is defined for values in [0, 1]. -/
theorem encode1_ok {a : ℚ} (h0 : 0 ≤ a) (h1 : a ≤ 1) :
    encode1 (.fin a) = .ok ⌊rnd32 (65535 * a)⌋.toNat ∧ 0 ≤ rnd32 (65535 * a) ∧ rnd32 (65535 * a) ≤ 65535 := by
  have hlo : 0 ≤ rnd32 (65535 * a) := rne_nonneg (by linarith)
  have hhi := rnd32_mono (show 65535 * a ≤ 65535 by linarith)
  rw [rnd32_65535] at hhi
  refine ⟨?_, hlo, hhi⟩
  have hf : float32.rnd (65535 * a) = .fin (rnd32 (65535 * a)) := rnd_of_lt (by
    rw [abs_of_nonneg hlo]
    have : (65535 : ℚ) < 2 ^ 128 := by norm_num
    linarith)
  have e : encode1 (.fin a) = toShort (float32.rnd (65535 * a)) := rfl
  rw [e, hf]
  unfold toShort
  dsimp only
  rw [if_pos ⟨by linarith, by linarith⟩]

/-! ### The error of a position -/

/-- The bookkeeping: `X` is the position in block edges, `I` the block index, `c` the unit `u`. -/
theorem error_sum {X I y g f d a t k p q w D E : ℚ} (hE : E ≤ 1 / 16777216 / 1000)
    (hg : |g - X| ≤ 3 / 2 * (1 / 16777216) * |X|) (hy : |y - g| ≤ 1 / 16777216 * |g| + E)
    (hd : |d - (y - f)| ≤ 1 / 16777216 * |y - f| + E) (hf : |f - I| ≤ 1 / 16777216 * |I| + E)
    (ha : |a - 1 / 2 * d| ≤ 1 / 16777216 * |1 / 2 * d| + E) (ha0 : 0 ≤ a) (ha1 : a ≤ 1)
    (ht : |t - 65535 * a| ≤ 1 / 16777216 * |65535 * a| + E) (hk0 : k ≤ t) (hk1 : t < k + 1)
    (hp : |p - 2 * k / 65535| ≤ 1 / 16777216 * 2 + 65535 * E) (hq : |q - p| ≤ 1 / 16777216 * |p| + E) (hk2 : k ≤ 65535) (hk3 : 0 ≤ k)
    (hE2 : E ≤ 1 / 16777216 / 10000000)
    (hw : |w - (q + f)| ≤ 1 / 16777216 * |q + f| + E) (hD : |D - w| ≤ 1 / 16777216 * |w| + E) :
    |D - X| ≤ 2 / 65535 + 8 * (1 / 16777216) * (|I| + 3) := by
  rw [abs_of_nonneg (show 0 ≤ 65535 * a by linarith)] at ht
  have hq' : |p| ≤ 2 + 1 / 1000 := by
    have := abs_le.1 hp
    rw [abs_le]
    constructor <;> linarith
  have hdabs : |1 / 2 * d| ≤ 1 + 1 / 1000 := by
    have h1 : |1 / 2 * d| ≤ |a| + |a - 1 / 2 * d| := by
      have := abs_sub_abs_le_abs_sub (1 / 2 * d) a
      rw [abs_sub_comm] at this
      linarith
    rw [abs_of_nonneg ha0] at h1
    linarith
  have hd2 : |d| ≤ 2 + 2 / 1000 := by
    rw [abs_mul, abs_of_pos (by norm_num : (0 : ℚ) < 1 / 2)] at hdabs
    linarith
  have hyf : |y - f| ≤ 2 + 3 / 1000 := by
    have := abs_sub_abs_le_abs_sub (y - f) d
    rw [abs_sub_comm (y - f) d] at this
    linarith
  have hfabs : |f| ≤ |I| * (1 + 1 / 16777216) + E := by
    have := abs_sub_abs_le_abs_sub f I
    linarith
  have hyabs : |y| ≤ |f| + |y - f| := by
    have := abs_sub_abs_le_abs_sub y f
    linarith
  have hgabs : |g| ≤ |y| + (1 / 16777216 * |g| + E) := by
    have := abs_sub_abs_le_abs_sub g y
    rw [abs_sub_comm] at this
    linarith
  have hXabs : |X| ≤ |g| + 3 / 2 * (1 / 16777216) * |X| := by
    have := abs_sub_abs_le_abs_sub X g
    rw [abs_sub_comm] at this
    linarith
  have hqabs : |q| ≤ 2 + 2 / 1000 := by
    have := abs_sub_abs_le_abs_sub q p
    linarith
  have hqf : |q + f| ≤ |q| + |f| := abs_add_le _ _
  have hwabs : |w| ≤ |q + f| + (1 / 16777216 * |q + f| + E) := by
    have := abs_sub_abs_le_abs_sub w (q + f)
    linarith
  have hI := abs_nonneg I
  have b1 := abs_le.1 hg
  have b2 := abs_le.1 hy
  have b3 := abs_le.1 hd
  have b5 := abs_le.1 ha
  have b6 := abs_le.1 ht
  have b7 := abs_le.1 hp
  have b8 := abs_le.1 hq
  have b9 := abs_le.1 hw
  have b10 := abs_le.1 hD
  rw [abs_le]
  constructor <;> linarith

theorem eta_small : eta ≤ 1 / 16777216 / 10000000 / 2 ^ 60 := by unfold eta; norm_num

theorem eta_nonneg : 0 ≤ eta := by unfold eta; positivity

theorem u_eq : u = 1 / 16777216 := by unfold u; norm_num

theorem rnd32_abs {x B : ℚ} (h : |x| ≤ B) : |rnd32 x| ≤ 2 * B + 1 := by
  have h1 := IndexF.rnd32_err x
  have h2 := abs_sub_abs_le_abs_sub (rnd32 x) x
  have h3 : eta ≤ 1 := by unfold eta; norm_num
  have h4 := abs_nonneg x
  rw [u_eq] at h1
  linarith

/-- The conversion factor of the display. -/
def factor : ℚ := rnd32 (2 / 65535)

theorem pointFactor_eq : pointFactor = .fin factor := by
  have h : |factor| < 2 ^ 128 := by
    have := IndexF.rnd32_err (2 / 65535)
    have h2 := abs_sub_abs_le_abs_sub factor (2 / 65535)
    have := eta_small
    rw [u_eq] at *
    unfold factor at *
    norm_num at *
    linarith
  unfold pointFactor Arith.div
  dsimp only
  rw [if_neg (by norm_num)]
  exact rnd_of_lt h

/-- One axis: what the sender stores and the display computes from it. -/
theorem axis_error {s v a : ℚ} (hs : Size s) {i : ℤ} (hi : |i| ≤ 2 ^ 31) (h : normalized1 (.fin (IndexF.inverse s)) (.fin v) i = .fin a)
    (h0 : 0 ≤ a) (h1 : a ≤ 1) :
    ∃ D, decode1 (.fin s) i ⌊rnd32 (65535 * a)⌋.toNat = .fin D ∧ |D - v| ≤ s * (2 / 65535 + 8 * u * (|(i : ℚ)| + 3)) := by
  have hs0 := hs.pos
  obtain ⟨c, d, hc, hd, rfl⟩ := mul_fin h
  obtain rfl : c = 1 / 2 := (Fl.fin.inj hc).symm
  obtain ⟨y, f, hy, hf, rfl⟩ := sub_fin hd
  obtain ⟨g1, g2, hg1, hg2, rfl⟩ := mul_fin hy
  obtain rfl := Fl.fin.inj hg1
  obtain rfl := Fl.fin.inj hg2
  have hf := rnd_fin hf
  subst hf
  obtain ⟨-, ht0, ht1⟩ := encode1_ok h0 h1
  set a := rnd32 (1 / 2 * rnd32 (rnd32 (IndexF.inverse s * v) - rnd32 (i : ℚ))) with ha
  set t := rnd32 (65535 * a) with ht
  have hfl : ((⌊t⌋.toNat : ℕ) : ℚ) = ((⌊t⌋ : ℤ) : ℚ) := by
    have : ((⌊t⌋.toNat : ℕ) : ℤ) = ⌊t⌋ := Int.toNat_of_nonneg (Int.floor_nonneg.2 ht0)
    exact_mod_cast this
  have hk0 : ((⌊t⌋ : ℤ) : ℚ) ≤ t := Int.floor_le t
  have hk1 : t < ((⌊t⌋ : ℤ) : ℚ) + 1 := Int.lt_floor_add_one t
  have hk3 : (0 : ℚ) ≤ ((⌊t⌋ : ℤ) : ℚ) := by exact_mod_cast Int.floor_nonneg.2 ht0
  have hkr : rnd32 ((⌊t⌋.toNat : ℕ) : ℚ) = ((⌊t⌋ : ℤ) : ℚ) := by
    rw [hfl]
    apply IndexF.rnd32_int
    have h1 : (0 : ℤ) ≤ ⌊t⌋ := Int.floor_nonneg.2 ht0
    have h2 : ⌊t⌋ ≤ 65535 := by exact_mod_cast (show ((⌊t⌋ : ℤ) : ℚ) ≤ 65535 by linarith)
    rw [abs_of_nonneg h1]
    omega
  set k : ℚ := ((⌊t⌋ : ℤ) : ℚ) with hk
  have eU := u_eq
  have hX : v = v / s * s := by field_simp
  have hg : |IndexF.inverse s * v - v / s| ≤ 3 / 2 * u * |v / s| := by
    have e : IndexF.inverse s * v - v / s = (IndexF.inverse s - 1 / s) * v := by ring
    rw [e, abs_mul]
    have := mul_le_mul_of_nonneg_right (IndexF.inverse_err hs) (abs_nonneg v)
    have e2 : |v / s| = 1 / s * |v| := by rw [abs_div, abs_of_pos hs0]; ring
    rw [e2]
    linarith
  have hpf : |factor - 2 / 65535| ≤ u * (2 / 65535) + eta := by
    have := IndexF.rnd32_err (2 / 65535)
    rwa [abs_of_pos (by norm_num : (0 : ℚ) < 2 / 65535)] at this
  have hp : |k * factor - 2 * k / 65535| ≤ 1 / 16777216 * 2 + 65535 * eta := by
    have e : k * factor - 2 * k / 65535 = k * (factor - 2 / 65535) := by ring
    rw [e, abs_mul, abs_of_nonneg hk3]
    have h2 : k * |factor - 2 / 65535| ≤ 65535 * (u * (2 / 65535) + eta) :=
      mul_le_mul (by linarith) hpf (abs_nonneg _) (by norm_num)
    rw [eU] at h2
    linarith
  set q := rnd32 (k * factor) with hq
  set w := rnd32 (q + rnd32 (i : ℚ)) with hw
  have hDe := IndexF.rnd32_err (w * s)
  have heta := IndexF.eta_le hs
  have hD : |rnd32 (w * s) / s - w| ≤ u * |w| + 1 / 2 ^ 60 := by
    have e : rnd32 (w * s) / s - w = (rnd32 (w * s) - w * s) / s := by field_simp
    rw [e, abs_div, abs_of_pos hs0, div_le_iff₀ hs0]
    rw [abs_mul, abs_of_pos hs0] at hDe
    linarith
  have e1 := IndexF.rnd32_err (IndexF.inverse s * v)
  have e2 := IndexF.rnd32_err (rnd32 (IndexF.inverse s * v) - rnd32 (i : ℚ))
  have e3 := IndexF.rnd32_err (i : ℚ)
  have e4 := IndexF.rnd32_err (1 / 2 * rnd32 (rnd32 (IndexF.inverse s * v) - rnd32 (i : ℚ)))
  have e5 := IndexF.rnd32_err (65535 * a)
  have e6 := IndexF.rnd32_err (k * factor)
  have e7 := IndexF.rnd32_err (q + rnd32 (i : ℚ))
  rw [eU] at hg hD e1 e2 e3 e4 e5 e6 e7
  have n0 : eta ≤ 1 / 2 ^ 60 := by unfold eta; norm_num
  have n1 := eta_nonneg
  have key : |rnd32 (w * s) / s - v / s| ≤ 2 / 65535 + 8 * (1 / 16777216) * (|(i : ℚ)| + 3) := by
    refine error_sum (E := 1 / 2 ^ 60) (by norm_num) hg (by linarith) (y := rnd32 (IndexF.inverse s * v))
      (f := rnd32 (i : ℚ)) (d := rnd32 (rnd32 (IndexF.inverse s * v) - rnd32 (i : ℚ))) (a := a) (t := t) (k := k) (p := k * factor) (q := q) (w := w)
      ?_ ?_ ?_ h0 h1 ?_ hk0 hk1 ?_ ?_ ?_ hk3 (by norm_num) ?_ hD <;> linarith
  refine ⟨rnd32 (w * s), ?_, ?_⟩
  · have hI : |(i : ℚ)| ≤ 2 ^ 31 := by exact_mod_cast hi
    have hk2 : |k| ≤ 65535 := by rw [abs_of_nonneg hk3]; linarith
    have hfac : |factor| ≤ 1 := by
      have := abs_sub_abs_le_abs_sub factor (2 / 65535)
      rw [abs_of_pos (by norm_num : (0 : ℚ) < 2 / 65535)] at this
      rw [eU] at hpf
      norm_num at *
      linarith
    have bi := rnd32_abs hI
    have bq := rnd32_abs (show |k * factor| ≤ 65535 by
      rw [abs_mul]
      calc |k| * |factor| ≤ 65535 * 1 := mul_le_mul hk2 hfac (abs_nonneg _) (by norm_num)
        _ = 65535 := by norm_num)
    have bw := rnd32_abs (show |q + rnd32 (i : ℚ)| ≤ 2 ^ 33 by
      have := abs_add_le q (rnd32 (i : ℚ))
      rw [← hq] at bq
      have n : (2 * 65535 + 1 : ℚ) + (2 * 2 ^ 31 + 1) ≤ 2 ^ 33 := by norm_num
      linarith)
    have bD := rnd32_abs (show |w * s| ≤ 2 ^ 35 * 2 ^ 90 by
      rw [abs_mul, abs_of_pos hs0]
      exact mul_le_mul (bw.trans (by norm_num)) hs.high hs0.le (by positivity))
    have fk : float32.rnd ((⌊t⌋.toNat : ℕ) : ℚ) = .fin k := by
      rw [rnd_of_lt (by rw [hkr]; exact lt_of_le_of_lt hk2 (by norm_num)), hkr]
    have fi : float32.rnd (i : ℚ) = .fin (rnd32 (i : ℚ)) := rnd_of_lt (lt_of_le_of_lt bi (by norm_num))
    have fq : float32.rnd (k * factor) = .fin q := rnd_of_lt (lt_of_le_of_lt bq (by norm_num))
    have fw : float32.rnd (q + rnd32 (i : ℚ)) = .fin w := rnd_of_lt (lt_of_le_of_lt bw (by norm_num))
    have fD : float32.rnd (w * s) = .fin (rnd32 (w * s)) := rnd_of_lt (lt_of_le_of_lt bD (by norm_num))
    unfold decode1
    rw [pointFactor_eq, fk, fi]
    unfold Arith.mul Arith.add
    dsimp only
    rw [fq]
    dsimp only
    rw [fw]
    dsimp only
    rw [fD]
  · have e : rnd32 (w * s) - v = s * (rnd32 (w * s) / s - v / s) := by field_simp
    rw [e, abs_mul, abs_of_pos hs0, eU]
    exact mul_le_mul_of_nonneg_left key hs0.le

end Vox.MeshMsg
