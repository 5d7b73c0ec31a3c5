/-
Numbers written with six significant digits and read back.
-/
import Verif.Model.Ply
import Verif.Spec.Ply
import Verif.Lemmas.Ieee
import Mathlib.Data.Nat.Digits.Lemmas
import Mathlib.Data.List.TakeWhile
import Mathlib.Tactic.IntervalCases
import Mathlib.Tactic.Linarith
import Mathlib.Tactic.FieldSimp
import Mathlib.Tactic.Ring
import Mathlib.Tactic.Positivity

namespace Vox.Ply

open PlySpec Ieee

/-! ### Digits -/

/-- The number with the given digits. -/
def val (ds : List ℕ) : ℕ := ds.foldl (fun a d => 10 * a + d) 0

theorem foldl_val (ds : List ℕ) : ∀ a, ds.foldl (fun a d => 10 * a + d) a = a * 10 ^ ds.length + val ds := by
  unfold val
  induction ds with
  | nil => intro a; simp
  | cons d ds ih =>
    intro a
    rw [List.foldl_cons, List.foldl_cons, ih, ih (10 * 0 + d), List.length_cons, pow_succ]
    ring

theorem val_append (a b : List ℕ) : val (a ++ b) = val a * 10 ^ b.length + val b := by
  unfold val
  rw [List.foldl_append, foldl_val]
  rfl

theorem val_zeros (k : ℕ) : val (List.replicate k 0) = 0 := by
  induction k with
  | zero => rfl
  | succ k ih => rw [List.replicate_succ', val_append, ih]; rfl

theorem digit_char {d : ℕ} (h : d < 10) : digit (Nat.digitChar d) = some d := by
  interval_cases d <;> rfl

theorem natOf_chars {ds : List ℕ} (h : ∀ d ∈ ds, d < 10) (hne : ds ≠ []) : natOf (chars ds) = some (val ds) := by
  unfold natOf chars
  rw [if_neg (by simpa using hne)]
  have : ∀ (ds : List ℕ), (∀ d ∈ ds, d < 10) → ∀ a, (ds.map Nat.digitChar).foldlM (fun a c => (digit c).map (10 * a + ·)) a =
      some (ds.foldl (fun a d => 10 * a + d) a) := by
    intro ds
    induction ds with
    | nil => intro _ a; rfl
    | cons d ds ih =>
      intro h a
      rw [List.map_cons, List.foldlM_cons, digit_char (h d (by simp))]
      exact ih (fun x hx => h x (by simp [hx])) _
  exact this ds h 0

theorem digits_lt (n : ℕ) : ∀ d ∈ (Nat.digits 10 n).reverse, d < 10 := fun _ h =>
  Nat.digits_lt_base (by norm_num) (List.mem_reverse.1 h)

theorem val_digits (n : ℕ) : val (Nat.digits 10 n).reverse = n := by
  unfold val
  rw [List.foldl_reverse]
  conv_rhs => rw [← Nat.ofDigits_digits 10 n, Nat.ofDigits_eq_foldr]
  congr 1
  funext x y
  simp [add_comm]

theorem natText_eq (n : ℕ) : ∃ ds, natText n = chars ds ∧ ds ≠ [] ∧ (∀ d ∈ ds, d < 10) ∧ val ds = n := by
  unfold natText
  split_ifs with h
  · exact ⟨[0], rfl, by simp, by simp, by rw [h]; rfl⟩
  · refine ⟨_, rfl, ?_, digits_lt n, val_digits n⟩
    rw [Ne, List.reverse_eq_nil_iff, Nat.digits_eq_nil_iff_eq_zero]
    exact h

theorem natOf_natText (n : ℕ) : natOf (natText n) = some n := by
  obtain ⟨ds, h1, h2, h3, h4⟩ := natText_eq n
  rw [h1, natOf_chars h3 h2, h4]

/-! ### Which characters occur -/

/-- The characters of numbers. -/
def Numeric (c : Char) : Prop := (digit c).isSome ∨ c = '.' ∨ c = 'e' ∨ c = '-' ∨ c = '+'

theorem chars_digit {ds : List ℕ} (h : ∀ d ∈ ds, d < 10) {c : Char} (hc : c ∈ chars ds) : (digit c).isSome := by
  obtain ⟨d, hd, rfl⟩ := List.mem_map.1 hc
  rw [digit_char (h d hd)]
  rfl

theorem not_mem_chars {ds : List ℕ} (h : ∀ d ∈ ds, d < 10) {c : Char} (hc : digit c = none) : c ∉ chars ds := fun hm => by
  have := chars_digit h hm
  rw [hc] at this
  cases this

theorem digit_space : digit ' ' = none := rfl
theorem digit_newline : digit '\n' = none := rfl
theorem digit_point : digit '.' = none := rfl
theorem digit_e : digit 'e' = none := rfl

theorem strip_eq (fs : List ℕ) : ∃ k, fs = strip fs ++ List.replicate k 0 := by
  refine ⟨(fs.reverse.takeWhile (· = 0)).length, ?_⟩
  have h1 : fs = (fs.reverse.dropWhile (· = 0)).reverse ++ (fs.reverse.takeWhile (· = 0)).reverse := by
    rw [← List.reverse_append, List.takeWhile_append_dropWhile, List.reverse_reverse]
  have h2 : (fs.reverse.takeWhile (· = 0)).reverse = List.replicate (fs.reverse.takeWhile (· = 0)).length 0 := by
    rw [List.eq_replicate_iff]
    refine ⟨by simp, fun b hb => ?_⟩
    have := List.mem_takeWhile_imp (List.mem_reverse.1 hb)
    simpa using this
  unfold strip
  conv_lhs => rw [h1, h2]

theorem strip_lt {fs : List ℕ} (h : ∀ d ∈ fs, d < 10) : ∀ d ∈ strip fs, d < 10 := by
  obtain ⟨k, hk⟩ := strip_eq fs
  intro d hd
  exact h d (by rw [hk]; exact List.mem_append_left _ hd)

theorem pointText_numeric {ip fp : List ℕ} (h1 : ∀ d ∈ ip, d < 10) (h2 : ∀ d ∈ fp, d < 10) {c : Char} (hc : c ∈ pointText ip fp) :
    (digit c).isSome ∨ c = '.' := by
  unfold pointText at hc
  rcases List.mem_append.1 hc with hc | hc
  · exact Or.inl (chars_digit h1 hc)
  · split_ifs at hc
    · cases hc
    · rcases List.mem_cons.1 hc with rfl | hc
      · exact Or.inr rfl
      · exact Or.inl (chars_digit (strip_lt h2) hc)

theorem expDigits (n : ℕ) : ∃ ds, (if n < 10 then '0' :: natText n else natText n) = chars ds ∧ ds ≠ [] ∧ (∀ d ∈ ds, d < 10) ∧ val ds = n := by
  obtain ⟨ds, h1, h2, h3, h4⟩ := natText_eq n
  split_ifs
  · refine ⟨0 :: ds, ?_, by simp, ?_, ?_⟩
    · rw [h1]; rfl
    · intro d hd
      rcases List.mem_cons.1 hd with rfl | hd
      · omega
      · exact h3 d hd
    · exact h4
  · exact ⟨ds, h1, h2, h3, h4⟩

theorem expText_numeric {e : ℤ} {c : Char} (hc : c ∈ expText e) : Numeric c := by
  obtain ⟨ds, h1, h2, h3, h4⟩ := expDigits e.natAbs
  unfold expText at hc
  rw [h1] at hc
  unfold Numeric
  rcases List.mem_cons.1 hc with rfl | hc
  · simp
  rcases List.mem_cons.1 hc with rfl | hc
  · split_ifs <;> simp
  · exact Or.inl (chars_digit h3 hc)

theorem generalText_numeric {ds : List ℕ} (h : ∀ d ∈ ds, d < 10) {e : ℤ} {c : Char} (hc : c ∈ generalText ds e) : Numeric c := by
  have lift : ∀ {ip fp : List ℕ}, (∀ d ∈ ip, d < 10) → (∀ d ∈ fp, d < 10) → c ∈ pointText ip fp → Numeric c := by
    intro ip fp h1 h2 hc
    rcases pointText_numeric h1 h2 hc with h | h
    · exact Or.inl h
    · exact Or.inr (Or.inl h)
  unfold generalText at hc
  split_ifs at hc
  · exact lift (fun d hd => h d (List.mem_of_mem_take hd)) (fun d hd => h d (List.mem_of_mem_drop hd)) hc
  · refine lift (by simp) (fun d hd => ?_) hc
    rcases List.mem_append.1 hd with hd | hd
    · rw [List.eq_of_mem_replicate hd]; omega
    · exact h d hd
  · rcases List.mem_append.1 hc with hc | hc
    · exact lift (fun d hd => h d (List.mem_of_mem_take hd)) (fun d hd => h d (List.mem_of_mem_drop hd)) hc
    · exact expText_numeric hc

/-- A number begins with a digit. -/
theorem generalText_head {ds : List ℕ} (h : ∀ d ∈ ds, d < 10) (hne : ds ≠ []) (e : ℤ) : ∃ c r, generalText ds e = c :: r ∧ (digit c).isSome := by
  obtain ⟨d, ds', rfl⟩ := List.exists_cons_of_ne_nil hne
  have hd : (digit (Nat.digitChar d)).isSome := by rw [digit_char (h d (by simp))]; rfl
  unfold generalText
  split_ifs
  · exact ⟨_, _, rfl, hd⟩
  · exact ⟨_, _, rfl, rfl⟩
  · exact ⟨_, _, rfl, hd⟩

/-! ### Reading a number -/

theorem cutAt_none {c : Char} {w : List Char} (h : c ∉ w) : cutAt c w = (w, none) := by
  induction w with
  | nil => rfl
  | cons d w ih =>
    rw [List.mem_cons, not_or] at h
    unfold cutAt
    rw [if_neg (fun e => h.1 e.symm), ih h.2]

theorem cutAt_some {c : Char} {a b : List Char} (h : c ∉ a) : cutAt c (a ++ c :: b) = (a, some b) := by
  induction a with
  | nil => simp [cutAt]
  | cons d a ih =>
    rw [List.mem_cons, not_or] at h
    rw [List.cons_append]
    unfold cutAt
    rw [if_neg (fun e => h.1 e.symm), ih h.2]

theorem expOf_expText (e : ℤ) : ∃ ds, expText e = 'e' :: ds ∧ expOf ds = some e := by
  obtain ⟨ds, h1, h2, h3, h4⟩ := expDigits e.natAbs
  unfold expText
  rw [h1]
  refine ⟨_, rfl, ?_⟩
  split_ifs with h
  · simp only [expOf]
    rw [natOf_chars h3 h2, h4, Option.map_some]
    congr 1
    omega
  · simp only [expOf]
    rw [natOf_chars h3 h2, h4, Option.map_some]
    congr 1
    omega

/-- The digits with the point among them. -/
theorem point_value {ip fp : List ℕ} (h1 : ∀ d ∈ ip, d < 10) (h2 : ∀ d ∈ fp, d < 10) (hne : ip ≠ []) {s : List Char} {x : ℤ}
    (hs : (s = [] ∧ x = 0) ∨ ∃ ds, s = 'e' :: ds ∧ expOf ds = some x) :
    decimalOf (pointText ip fp ++ s) = some ((val (ip ++ fp) : ℚ) * 10 ^ (x - fp.length)) := by
  have ne : 'e' ∉ pointText ip fp := by
    intro h
    rcases pointText_numeric h1 h2 h with h | h
    · rw [digit_e] at h; cases h
    · revert h; decide
  have cut1 : (cutAt 'e' (pointText ip fp ++ s)).1 = pointText ip fp ∧
      exponentOf (cutAt 'e' (pointText ip fp ++ s)).2 = some x := by
    rcases hs with ⟨rfl, rfl⟩ | ⟨ds, rfl, h⟩
    · rw [List.append_nil, cutAt_none ne]
      exact ⟨rfl, rfl⟩
    · rw [cutAt_some ne]
      exact ⟨rfl, h⟩
  have np : '.' ∉ chars ip := not_mem_chars h1 digit_point
  obtain ⟨k, hk⟩ := strip_eq fp
  have cut2 : (cutAt '.' (pointText ip fp)).1 ++ ((cutAt '.' (pointText ip fp)).2).getD [] = chars (ip ++ strip fp) ∧
      (((cutAt '.' (pointText ip fp)).2).getD []).length = (strip fp).length := by
    unfold pointText
    split_ifs with h
    · rw [h, List.append_nil, List.append_nil, cutAt_none np]
      simp
    · rw [cutAt_some np]
      simp [chars]
  unfold decimalOf
  dsimp only
  rw [cut1.1, cut2.1, cut2.2, cut1.2, natOf_chars]
  · show some _ = some _
    congr 1
    have hv : (val (ip ++ fp) : ℚ) = val (ip ++ strip fp) * 10 ^ k := by
      conv_lhs => rw [hk, ← List.append_assoc, val_append, val_zeros]
      simp
    have hl : (fp.length : ℤ) = (strip fp).length + k := by
      conv_lhs => rw [hk]
      simp
    rw [hv, hl, mul_assoc, ← zpow_natCast, ← zpow_add₀ (by norm_num)]
    congr 2
    ring
  · intro d hd
    rcases List.mem_append.1 hd with hd | hd
    · exact h1 d hd
    · exact strip_lt h2 d hd
  · simp [hne]

theorem general_value {ds : List ℕ} (h : ∀ d ∈ ds, d < 10) (hl : ds.length = 6) (e : ℤ) :
    decimalOf (generalText ds e) = some ((val ds : ℚ) * 10 ^ (e - 5)) := by
  have ht : ∀ k, ∀ d ∈ ds.take k, d < 10 := fun k d hd => h d (List.mem_of_mem_take hd)
  have hd' : ∀ k, ∀ d ∈ ds.drop k, d < 10 := fun k d hd => h d (List.mem_of_mem_drop hd)
  have hne : ∀ k, ds.take (k + 1) ≠ [] := by
    intro k e
    have := congrArg List.length e
    rw [List.length_take, hl] at this
    simp at this
  unfold generalText
  split_ifs with h1 h2
  · have := point_value (ht (e.toNat + 1)) (hd' (e.toNat + 1)) (hne _) (s := []) (x := 0) (Or.inl ⟨rfl, rfl⟩)
    rw [List.append_nil] at this
    rw [this, List.take_append_drop, List.length_drop, hl]
    congr 3
    omega
  · have := point_value (ip := [0]) (fp := List.replicate (-e - 1).toNat 0 ++ ds) (by simp) (by
      intro d hd
      rcases List.mem_append.1 hd with hd | hd
      · rw [List.eq_of_mem_replicate hd]; omega
      · exact h d hd) (by simp) (s := []) (x := 0) (Or.inl ⟨rfl, rfl⟩)
    rw [List.append_nil] at this
    rw [this]
    have hv : val ([0] ++ (List.replicate (-e - 1).toNat 0 ++ ds)) = val ds := by
      rw [val_append, val_append, val_zeros]
      show 0 * _ + _ = _
      omega
    rw [hv, List.length_append, List.length_replicate, hl]
    congr 3
    omega
  · have := point_value (ht 1) (hd' 1) (hne 0) (s := expText e) (x := e) (Or.inr (expOf_expText e))
    rw [this, List.take_append_drop, List.length_drop, hl]
    congr 3

/-! ### Six digits -/

/-- The number shown. -/
def six (q : ℚ) : ℚ := (sixDigits q).1 * 10 ^ ((sixDigits q).2 - 5)

theorem pow_split (e : ℤ) : (10 : ℚ) ^ e = 10 ^ 5 * 10 ^ (e - 5) := by
  rw [← zpow_natCast, ← zpow_add₀ (by norm_num)]
  congr 1
  push_cast
  ring

theorem log_bounds {q : ℚ} (hq : 0 < q) : (10 : ℚ) ^ Int.log 10 q ≤ q ∧ q < 10 ^ (Int.log 10 q + 1) := by
  have h1 := Int.zpow_log_le_self (b := 10) (by norm_num) hq
  have h2 := Int.lt_zpow_succ_log_self (b := 10) (by norm_num) q
  exact ⟨by exact_mod_cast h1, by exact_mod_cast h2⟩

/-- The rounded mantissa. -/
theorem mantissa {q : ℚ} (hq : 0 < q) : 10 ^ 5 ≤ roundEven (q / 10 ^ (Int.log 10 q - 5)) ∧ roundEven (q / 10 ^ (Int.log 10 q - 5)) ≤ 10 ^ 6 := by
  obtain ⟨h1, h2⟩ := log_bounds hq
  have hp : (0 : ℚ) < 10 ^ (Int.log 10 q - 5) := by positivity
  constructor
  · refine le_roundEven ?_
    rw [le_div_iff₀ hp]
    rw [pow_split] at h1
    push_cast
    norm_num at h1 ⊢
    exact h1
  · refine roundEven_le ?_
    rw [div_le_iff₀ hp]
    push_cast
    have : (10 : ℚ) ^ (Int.log 10 q + 1) = 10 ^ 6 * 10 ^ (Int.log 10 q - 5) := by
      rw [zpow_add_one₀ (by norm_num), pow_split]
      ring
    rw [this] at h2
    norm_num at h2 ⊢
    exact h2.le

theorem sixDigits_range {q : ℚ} (hq : 0 < q) : 10 ^ 5 ≤ (sixDigits q).1 ∧ (sixDigits q).1 < 10 ^ 6 := by
  obtain ⟨h1, h2⟩ := mantissa hq
  unfold sixDigits
  dsimp only
  generalize roundEven (q / 10 ^ (Int.log 10 q - 5)) = m at *
  split_ifs with h
  · norm_num
  · simp only
    constructor <;> omega

theorem six_eq {q : ℚ} (hq : 0 < q) : six q = roundEven (q / 10 ^ (Int.log 10 q - 5)) * 10 ^ (Int.log 10 q - 5) := by
  obtain ⟨h1, h2⟩ := mantissa hq
  unfold six sixDigits
  dsimp only
  generalize roundEven (q / 10 ^ (Int.log 10 q - 5)) = m at *
  split_ifs with h
  · have : m = 10 ^ 6 := by omega
    subst this
    simp only
    rw [add_sub_right_comm, zpow_add_one₀ (by norm_num)]
    push_cast
    ring
  · simp only
    have : (m.toNat : ℤ) = m := by omega
    have : ((m.toNat : ℕ) : ℚ) = (m : ℚ) := by exact_mod_cast this
    rw [this]

theorem six_pos {q : ℚ} (hq : 0 < q) : 0 < six q := by
  unfold six
  have := (sixDigits_range hq).1
  have : (0 : ℚ) < (sixDigits q).1 := by
    have h : 0 < (sixDigits q).1 := by omega
    exact_mod_cast h
  positivity

/-- The error is at most half a unit of the sixth digit. -/
theorem six_error {q : ℚ} (hq : 0 < q) : |six q - q| ≤ q / 200000 := by
  obtain ⟨h1, -⟩ := log_bounds hq
  rw [six_eq hq]
  have hp : (0 : ℚ) < 10 ^ (Int.log 10 q - 5) := by positivity
  have hc := roundEven_close (q / 10 ^ (Int.log 10 q - 5))
  have e : (roundEven (q / 10 ^ (Int.log 10 q - 5)) : ℚ) * 10 ^ (Int.log 10 q - 5) - q =
      (roundEven (q / 10 ^ (Int.log 10 q - 5)) - q / 10 ^ (Int.log 10 q - 5)) * 10 ^ (Int.log 10 q - 5) := by
    rw [sub_mul, div_mul_cancel₀ _ hp.ne']
  rw [e, abs_mul, abs_of_pos hp]
  have := mul_le_mul_of_nonneg_right hc hp.le
  rw [pow_split] at h1
  linarith

/-- Numbers of at most six digits are shown as they are. -/
theorem six_exact {k : ℕ} {j : ℤ} (hk : k < 10 ^ 6) (h0 : 0 < k) : six (k * 10 ^ j) = k * 10 ^ j := by
  have hq : (0 : ℚ) < k * 10 ^ j := by
    have : (0 : ℚ) < k := by exact_mod_cast h0
    positivity
  rw [six_eq hq]
  obtain ⟨h1, -⟩ := log_bounds hq
  generalize Int.log 10 ((k : ℚ) * 10 ^ j) = e at *
  have hj : e - 5 ≤ j := by
    by_contra hlt
    push Not at hlt
    have h2 : (10 : ℚ) ^ (j + 6) ≤ 10 ^ e := zpow_le_zpow_right₀ (by norm_num) (by omega)
    have h3 : (10 : ℚ) ^ (j + 6) = 10 ^ 6 * 10 ^ j := by
      rw [zpow_add₀ (by norm_num), mul_comm]
      norm_cast
    have hp : (0 : ℚ) < 10 ^ j := by positivity
    have h4 : (k : ℚ) < 10 ^ 6 := by exact_mod_cast hk
    nlinarith [mul_lt_mul_of_pos_right h4 hp]
  obtain ⟨n, hn⟩ := Int.eq_ofNat_of_zero_le (show 0 ≤ j - (e - 5) by omega)
  have hp : (10 : ℚ) ^ (e - 5) ≠ 0 := by positivity
  have hd : (k : ℚ) * 10 ^ j / 10 ^ (e - 5) = ((k * 10 ^ n : ℤ) : ℚ) := by
    rw [mul_div_assoc, ← zpow_sub₀ (by norm_num), hn]
    push_cast
    norm_cast
  rw [hd, roundEven_int, ← hd, div_mul_cancel₀ _ hp]

theorem six_mono {q r : ℚ} (hq : 0 < q) (h : q ≤ r) : six q ≤ six r := by
  have hr := lt_of_lt_of_le hq h
  have hl : Int.log 10 q ≤ Int.log 10 r := Int.log_mono_right hq h
  rcases eq_or_lt_of_le hl with he | hlt
  · rw [six_eq hq, six_eq hr, he]
    have hp : (0 : ℚ) < 10 ^ (Int.log 10 r - 5) := by positivity
    refine mul_le_mul_of_nonneg_right ?_ hp.le
    exact_mod_cast roundEven_mono (div_le_div_of_nonneg_right h hp.le)
  · have h1 : six q ≤ 10 ^ (Int.log 10 q + 1) := by
      rw [six_eq hq, zpow_add_one₀ (by norm_num), pow_split (Int.log 10 q)]
      have hp : (0 : ℚ) < 10 ^ (Int.log 10 q - 5) := by positivity
      have hm : (roundEven (q / 10 ^ (Int.log 10 q - 5)) : ℚ) ≤ 10 ^ 6 := by exact_mod_cast (mantissa hq).2
      have := mul_le_mul_of_nonneg_right hm hp.le
      linarith
    have h2 : (10 : ℚ) ^ Int.log 10 r ≤ six r := by
      rw [six_eq hr, pow_split (Int.log 10 r)]
      have hp : (0 : ℚ) < 10 ^ (Int.log 10 r - 5) := by positivity
      have hm : (10 ^ 5 : ℚ) ≤ roundEven (r / 10 ^ (Int.log 10 r - 5)) := by exact_mod_cast (mantissa hr).1
      exact mul_le_mul_of_nonneg_right hm hp.le
    have h3 : (10 : ℚ) ^ (Int.log 10 q + 1) ≤ 10 ^ Int.log 10 r := zpow_le_zpow_right₀ (by norm_num) (by omega)
    linarith

theorem sixDigits_length {q : ℚ} (hq : 0 < q) : (Nat.digits 10 (sixDigits q).1).reverse.length = 6 := by
  obtain ⟨h1, h2⟩ := sixDigits_range hq
  rw [List.length_reverse]
  have a := (Nat.digits_length_le_iff (b := 10) (k := 6) (by norm_num) (sixDigits q).1).2 h2
  have b := (Nat.lt_digits_length_iff (b := 10) (k := 5) (by norm_num) (sixDigits q).1).2 h1
  omega

theorem posText_value {q : ℚ} (hq : 0 < q) : decimalOf (posText q) = some (six q) := by
  unfold posText
  rw [general_value (digits_lt _) (sixDigits_length hq), val_digits]
  rfl

theorem posText_head {q : ℚ} (hq : 0 < q) : ∃ c r, posText q = c :: r ∧ (digit c).isSome := by
  refine generalText_head (digits_lt _) ?_ _
  intro h
  have := sixDigits_length hq
  rw [h] at this
  cases this

/-! ### Floats -/

/-- What a reader makes of a number. -/
def shown : Fl → Fl
  | .fin q => .fin (if q = 0 then 0 else if q < 0 then -six (-q) else six q)
  | x => x

theorem number_digit {c : Char} {r : List Char} (h : (digit c).isSome) : numberOf (c :: r) = (decimalOf (c :: r)).map .fin := by
  have n1 : c ≠ 'n' := by rintro rfl; cases h
  have n2 : c ≠ 'i' := by rintro rfl; cases h
  have n3 : c ≠ '-' := by rintro rfl; cases h
  unfold numberOf
  rw [show "nan".toList = ['n', 'a', 'n'] from rfl, show "inf".toList = ['i', 'n', 'f'] from rfl,
    show "-inf".toList = ['-', 'i', 'n', 'f'] from rfl]
  rw [if_neg (fun e => n1 (List.cons.inj e).1), if_neg (fun e => n2 (List.cons.inj e).1), if_neg (fun e => n3 (List.cons.inj e).1)]
  split
  · rename_i ds e
    exact absurd (List.cons.inj e).1 n3
  · rfl

theorem number_minus {c : Char} {r : List Char} (h : (digit c).isSome) :
    numberOf ('-' :: c :: r) = (decimalOf (c :: r)).map fun q => .fin (-q) := by
  have n2 : c ≠ 'i' := by rintro rfl; cases h
  unfold numberOf
  rw [show "nan".toList = ['n', 'a', 'n'] from rfl, show "inf".toList = ['i', 'n', 'f'] from rfl,
    show "-inf".toList = ['-', 'i', 'n', 'f'] from rfl]
  rw [if_neg (fun e => absurd (List.cons.inj e).1 (by decide)), if_neg (fun e => absurd (List.cons.inj e).1 (by decide)),
    if_neg (fun e => n2 (List.cons.inj (List.cons.inj e).2).1)]
  simp only

/-- Reading what was written gives the number with six digits. -/
theorem number_floatText (x : Fl) : numberOf (floatText x) = some (shown x) := by
  cases x with
  | nan => decide +kernel
  | ninf => decide +kernel
  | pinf => decide +kernel
  | fin q =>
    unfold floatText shown
    dsimp only
    split_ifs with h0 h1
    · decide +kernel
    · have hq : 0 < -q := by linarith
      obtain ⟨c, r, hc, hd⟩ := posText_head hq
      have hv := posText_value hq
      rw [hc] at hv ⊢
      rw [number_minus hd, hv]
      rfl
    · have hq : 0 < q := lt_of_le_of_ne (not_lt.1 h1) (Ne.symm h0)
      obtain ⟨c, r, hc, hd⟩ := posText_head hq
      have hv := posText_value hq
      rw [hc] at hv ⊢
      rw [number_digit hd, hv]
      rfl

theorem number_natText (n : ℕ) : numberOf (natText n) = some (.fin n) := by
  obtain ⟨ds, h1, h2, h3, h4⟩ := natText_eq n
  obtain ⟨d, ds', rfl⟩ := List.exists_cons_of_ne_nil h2
  have hd : (digit (Nat.digitChar d)).isSome := by rw [digit_char (h3 d (by simp))]; rfl
  have hp : natText n = pointText (d :: ds') [] ++ [] := by
    rw [h1]
    simp [pointText, strip]
  have hv := point_value (ip := d :: ds') (fp := []) h3 (by simp) (by simp) (s := []) (x := 0) (Or.inl ⟨rfl, rfl⟩)
  rw [← hp, List.append_nil, h4] at hv
  rw [h1] at hv ⊢
  unfold chars at hv ⊢
  rw [List.map_cons] at hv ⊢
  rw [number_digit hd, hv]
  simp

/-- A word: not empty, without blanks. -/
structure Clean (w : List Char) : Prop where
  ne : w ≠ []
  space : ' ' ∉ w
  newline : '\n' ∉ w

theorem numeric_clean {w : List Char} (hne : w ≠ []) (h : ∀ c ∈ w, Numeric c) : Clean w := by
  refine ⟨hne, fun hm => ?_, fun hm => ?_⟩
  · have := h _ hm
    revert this
    unfold Numeric
    decide
  · have := h _ hm
    revert this
    unfold Numeric
    decide

theorem natText_clean (n : ℕ) : Clean (natText n) := by
  obtain ⟨ds, h1, h2, h3, h4⟩ := natText_eq n
  rw [h1]
  exact numeric_clean (by simpa [chars] using h2) fun c hc => Or.inl (chars_digit h3 hc)

theorem posText_numeric {q : ℚ} {c : Char} (hc : c ∈ posText q) : Numeric c := generalText_numeric (digits_lt _) hc

theorem floatText_clean (x : Fl) : Clean (floatText x) := by
  cases x with
  | nan => exact ⟨by decide +kernel, by decide +kernel, by decide +kernel⟩
  | ninf => exact ⟨by decide +kernel, by decide +kernel, by decide +kernel⟩
  | pinf => exact ⟨by decide +kernel, by decide +kernel, by decide +kernel⟩
  | fin q =>
    unfold floatText
    dsimp only
    split_ifs with h0 h1
    · exact ⟨by decide, by decide, by decide⟩
    · refine numeric_clean (by simp) fun c hc => ?_
      rcases List.mem_cons.1 hc with rfl | hc
      · right; right; right; left; rfl
      · exact posText_numeric hc
    · have hq : 0 < q := lt_of_le_of_ne (not_lt.1 h1) (Ne.symm h0)
      obtain ⟨c, r, hc, -⟩ := posText_head hq
      exact numeric_clean (by rw [hc]; simp) fun c hc => posText_numeric hc

end Vox.Ply
