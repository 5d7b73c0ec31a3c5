import Verif.Spec.Transformer
import Verif.Lemmas.IndexFloat
import Mathlib.Tactic.Linarith
import Mathlib.Tactic.FieldSimp
import Mathlib.Tactic.Ring

namespace Vox.Tf

open Vox.Spec Vox.Ieee

variable {P : Type}

/-- Passed over by the loop. -/
def Old (tol t : ℤ) (x : Stamped P) : Prop := x.stamp ≤ t ∧ tol ≤ t - x.stamp

/-- Accepted by the loop as a match. -/
def Near (tol t : ℤ) (x : Stamped P) : Prop := (t < x.stamp → x.stamp - t < tol) ∧ (x.stamp ≤ t → t - x.stamp < tol)

theorem old_or_near_or_new (tol t : ℤ) (x : Stamped P) : Old tol t x ∨ Near tol t x ∨ (t < x.stamp ∧ tol ≤ x.stamp - t) := by
  unfold Old Near; omega

theorem scan_old {tol t : ℤ} {d : List (Stamped P)} (hd : ∀ x ∈ d, Old tol t x) (r : List (Stamped P)) :
    scan tol t (d ++ r) = ((scan tol t r).1 + d.length, (scan tol t r).2) := by
  induction d with
  | nil => simp
  | cons x xs ih =>
    have hx := hd x (by simp)
    unfold Old at hx
    rw [List.cons_append, scan, if_neg (by omega), if_neg (by omega), ih (fun y hy => hd y (by simp [hy]))]
    simp; omega

theorem scan_near {tol t : ℤ} {x : Stamped P} (h : Near tol t x) (xs : List (Stamped P)) : scan tol t (x :: xs) = (0, true) := by
  unfold Near at h
  rw [scan]
  split
  · rename_i h'; simp [h.1 h']
  · rw [if_pos (h.2 (by omega))]

theorem scan_new {tol t : ℤ} {x : Stamped P} (h : t < x.stamp ∧ tol ≤ x.stamp - t) (xs : List (Stamped P)) : scan tol t (x :: xs) = (0, false) := by
  rw [scan, if_pos h.1]; simp; omega

theorem split_old (tol t : ℤ) (q : List (Stamped P)) :
    ∃ d r, q = d ++ r ∧ (∀ x ∈ d, Old tol t x) ∧ ∀ x ∈ r.head?, ¬ Old tol t x := by
  induction q with
  | nil => exact ⟨[], [], rfl, by simp, by simp⟩
  | cons x xs ih =>
    by_cases hx : Old tol t x
    · obtain ⟨d, r, e, hd, hr⟩ := ih
      refine ⟨x :: d, r, by rw [e]; rfl, ?_, hr⟩
      intro y hy
      rcases List.mem_cons.1 hy with rfl | hy
      · exact hx
      · exact hd y hy
    · exact ⟨[], x :: xs, rfl, by simp, by simpa using hx⟩

variable {A : Arith} {ops : PoseOps P}

theorem resolve_none_end {tol t : ℤ} {d : List (Stamped P)} (hd : ∀ x ∈ d, Old tol t x) : resolve A ops tol t d = none := by
  have e := scan_old hd []
  simp only [List.append_nil, scan, Nat.zero_add] at e
  unfold resolve
  rw [e]
  simp

theorem resolve_near {tol t : ℤ} {d : List (Stamped P)} (hd : ∀ x ∈ d, Old tol t x) {x : Stamped P} (hx : Near tol t x) (xs : List (Stamped P)) :
    resolve A ops tol t (d ++ x :: xs) = some (x.pose, x :: xs) := by
  have e := scan_old hd (x :: xs)
  rw [scan_near hx] at e
  unfold resolve
  rw [e]
  simp

theorem resolve_begin {tol t : ℤ} {x : Stamped P} (hx : t < x.stamp ∧ tol ≤ x.stamp - t) (xs : List (Stamped P)) :
    resolve A ops tol t (x :: xs) = none := by
  unfold resolve
  rw [scan_new hx]
  simp

theorem resolve_between {tol t : ℤ} {d : List (Stamped P)} (hd : ∀ x ∈ d, Old tol t x) {a : Stamped P} (ha : Old tol t a) {x : Stamped P}
    (hx : t < x.stamp ∧ tol ≤ x.stamp - t) (xs : List (Stamped P)) :
    resolve A ops tol t (d ++ a :: x :: xs) = some (ops.blend (ratio A (t - a.stamp) (x.stamp - t)) a.pose x.pose, a :: x :: xs) := by
  have hd' : ∀ y ∈ d ++ [a], Old tol t y := by
    intro y hy
    rcases List.mem_append.1 hy with h | h
    · exact hd y h
    · rw [List.mem_singleton.1 h]; exact ha
  have e := scan_old hd' (x :: xs)
  rw [scan_new hx, List.append_assoc] at e
  simp only [List.singleton_append, List.length_append, List.length_singleton, Nat.zero_add] at e
  unfold resolve
  rw [e]
  simp

/-- All cases of a lookup. -/
theorem resolve_cases (A : Arith) (ops : PoseOps P) (tol t : ℤ) (q : List (Stamped P)) :
    ((∀ x ∈ q, Old tol t x) ∧ resolve A ops tol t q = none) ∨
    (∃ d x xs, q = d ++ x :: xs ∧ (∀ y ∈ d, Old tol t y) ∧ Near tol t x ∧ resolve A ops tol t q = some (x.pose, x :: xs)) ∨
    (∃ x xs, q = x :: xs ∧ (t < x.stamp ∧ tol ≤ x.stamp - t) ∧ resolve A ops tol t q = none) ∨
    (∃ d a x xs, q = d ++ a :: x :: xs ∧ (∀ y ∈ d, Old tol t y) ∧ Old tol t a ∧ (t < x.stamp ∧ tol ≤ x.stamp - t) ∧
      resolve A ops tol t q = some (ops.blend (ratio A (t - a.stamp) (x.stamp - t)) a.pose x.pose, a :: x :: xs)) := by
  obtain ⟨d, r, rfl, hd, hr⟩ := split_old tol t q
  cases r with
  | nil => left; rw [List.append_nil]; exact ⟨hd, resolve_none_end hd⟩
  | cons x xs =>
    have hx : ¬ Old tol t x := hr x (by simp)
    rcases old_or_near_or_new tol t x with h | h | h
    · exact absurd h hx
    · exact Or.inr (Or.inl ⟨d, x, xs, rfl, hd, h, resolve_near hd h xs⟩)
    · rcases List.eq_nil_or_concat d with rfl | ⟨d', a, rfl⟩
      · exact Or.inr (Or.inr (Or.inl ⟨x, xs, rfl, h, resolve_begin h xs⟩))
      · right; right; right
        rw [List.concat_eq_append] at hd ⊢
        have ha : Old tol t a := hd a (by simp)
        have hd' : ∀ y ∈ d', Old tol t y := fun y hy => hd y (by simp [hy])
        refine ⟨d', a, x, xs, by simp, hd', ha, h, ?_⟩
        rw [List.append_assoc]
        exact resolve_between hd' ha h xs

theorem Old.later {tol t t' : ℤ} (h : t ≤ t') {x : Stamped P} (hx : Old tol t x) : Old tol t' x := by unfold Old at *; omega

/-- Entries before one that is old or matches do not matter. -/
theorem resolve_drop {tol t : ℤ} {d : List (Stamped P)} (hd : ∀ x ∈ d, Old tol t x) {x : Stamped P} (hx : Old tol t x ∨ Near tol t x)
    (xs : List (Stamped P)) : resolve A ops tol t (d ++ x :: xs) = resolve A ops tol t (x :: xs) := by
  rcases hx with hx | hx
  · have hdx : ∀ d' : List (Stamped P), (∀ y ∈ d', Old tol t y) → ∀ y ∈ d ++ d', Old tol t y := by
      intro d' h y hy
      rcases List.mem_append.1 hy with h' | h'
      · exact hd y h'
      · exact h y h'
    rcases resolve_cases A ops tol t (x :: xs) with ⟨h, e⟩ | ⟨d', y, ys, e1, h, hy, e⟩ | ⟨y, ys, e1, h, e⟩ | ⟨d', a, y, ys, e1, h, ha, hy, e⟩
    · rw [e]
      exact resolve_none_end (hdx _ h)
    · rw [e, e1, ← List.append_assoc]
      exact resolve_near (hdx _ h) hy ys
    · cases e1
      unfold Old at hx; omega
    · rw [e, e1, ← List.append_assoc]
      exact resolve_between (hdx _ h) ha hy ys
  · rw [resolve_near hd hx]
    exact (resolve_near (d := []) (by simp) hx xs).symm

/-- Two queues that answer alike from a time on, whatever arrives. -/
def EqFrom (A : Arith) (ops : PoseOps P) (tol from_ : ℤ) (q q' : List (Stamped P)) : Prop :=
  ∀ t, from_ ≤ t → ∀ new, (resolve A ops tol t (q ++ new)).map Prod.fst = (resolve A ops tol t (q' ++ new)).map Prod.fst

theorem resolve_purge {tol t t' : ℤ} (h : t ≤ t') {q q' : List (Stamped P)} {p : P} (hr : resolve A ops tol t q = some (p, q')) (new : List (Stamped P)) :
    resolve A ops tol t' (q' ++ new) = resolve A ops tol t' (q ++ new) := by
  rcases resolve_cases A ops tol t q with ⟨_, e⟩ | ⟨d', y, ys, e1, hd, hy, e⟩ | ⟨y, ys, e1, hd, e⟩ | ⟨d', a, y, ys, e1, hd, ha, hy, e⟩
  · rw [e] at hr; cases hr
  · rw [e] at hr
    obtain ⟨rfl, rfl⟩ := Prod.mk.inj (Option.some.inj hr)
    rw [e1, List.append_assoc]
    symm
    refine resolve_drop (fun z hz => (hd z hz).later h) ?_ _
    unfold Near at hy
    unfold Old Near
    omega
  · rw [e] at hr; cases hr
  · rw [e] at hr
    obtain ⟨rfl, rfl⟩ := Prod.mk.inj (Option.some.inj hr)
    rw [e1, List.append_assoc]
    symm
    exact resolve_drop (fun z hz => (hd z hz).later h) (Or.inl (ha.later h)) _

theorem EqFrom.refl (tol f : ℤ) (q : List (Stamped P)) : EqFrom A ops tol f q q := fun _ _ _ => rfl

theorem EqFrom.append {tol f : ℤ} {q q' : List (Stamped P)} (h : EqFrom A ops tol f q q') (m : List (Stamped P)) :
    EqFrom A ops tol f (q ++ m) (q' ++ m) := by
  intro t ht new
  rw [List.append_assoc, List.append_assoc]
  exact h t ht _

theorem EqFrom.mono {tol f f' : ℤ} (hf : f ≤ f') {q q' : List (Stamped P)} (h : EqFrom A ops tol f q q') : EqFrom A ops tol f' q q' :=
  fun t ht new => h t (hf.trans ht) new

theorem EqFrom.purge {tol f t : ℤ} {q q' r : List (Stamped P)} (h : EqFrom A ops tol f q q') (ht : f ≤ t) {p : P}
    (hr : resolve A ops tol t q = some (p, r)) : EqFrom A ops tol t r q' := by
  intro t' ht' new
  rw [resolve_purge ht' hr]
  exact h t' (ht.trans ht') new

/-- Transformers that differ in what they remember only. -/
structure Alike (A : Arith) (ops : PoseOps P) (f : ℤ) (a b : Transformer P) : Prop where
  tol : a.tolerance = b.tolerance
  bd : a.staticBD = b.staticBD
  bc : a.staticBC = b.staticBC
  queue : EqFrom A ops a.tolerance f a.queue b.queue

theorem Alike.refl (f : ℤ) (a : Transformer P) : Alike A ops f a a := ⟨rfl, rfl, rfl, EqFrom.refl _ _ _⟩

theorem Alike.mono {f f' : ℤ} (h : f ≤ f') {a b : Transformer P} (hab : Alike A ops f a b) : Alike A ops f' a b :=
  ⟨hab.tol, hab.bd, hab.bc, hab.queue.mono h⟩

theorem Alike.receive {f : ℤ} {a b : Transformer P} (h : Alike A ops f a b) (m : Stamped P) : Alike A ops f (a.receive m) (b.receive m) :=
  ⟨h.tol, h.bd, h.bc, h.queue.append [m]⟩

theorem lookup_fst (tr : Transformer P) (t : ℤ) :
    (tr.lookup A ops t).1 = ((resolve A ops tr.tolerance t tr.queue).map Prod.fst).map (chained ops tr) := by
  unfold Transformer.lookup
  split
  · rename_i e; rw [e]; rfl
  · rename_i e; rw [e]; rfl

theorem Alike.lookup {f t : ℤ} (ht : f ≤ t) {a b : Transformer P} (h : Alike A ops f a b) :
    (a.lookup A ops t).1 = (b.lookup A ops t).1 ∧ Alike A ops t (a.lookup A ops t).2 b := by
  constructor
  · rw [lookup_fst, lookup_fst]
    have := h.queue t ht []
    rw [List.append_nil, List.append_nil] at this
    rw [this, h.tol]
    congr 1
    funext p
    unfold chained
    rw [h.bd, h.bc]
  · unfold Transformer.lookup
    split
    · rename_i p q e
      exact ⟨h.tol, h.bd, h.bc, h.queue.purge ht e⟩
    · exact h.mono ht

theorem answers_eq (es : List (TfEvent P)) : ∀ {f : ℤ} {a b : Transformer P}, Alike A ops f a b → (f :: asked es).Pairwise (· ≤ ·) →
    answers A ops a es = fullAnswers A ops b es := by
  induction es with
  | nil => intros; rfl
  | cons e es ih =>
    intro f a b h hs
    cases e with
    | transform m => exact ih (h.receive m) hs
    | ask t =>
      rw [asked] at hs
      rw [answers, fullAnswers]
      have hl := h.lookup (t := t) (by have := List.pairwise_cons.1 hs; exact this.1 t (by simp))
      rw [hl.1, ih hl.2 (List.pairwise_cons.1 hs).2]

/-! ### The ratio -/

theorem rnd_int {n : ℤ} (h0 : 0 ≤ n) (h : n < 2 ^ 64) : float32.rnd (n : ℚ) = .fin (rnd32 n) := by
  show overflow _ _ = _
  apply overflow_of_lt
  have e1 : (n : ℚ) ≤ ((1 : ℤ) : ℚ) * pow2 64 := by
    rw [pow2_eq]; norm_num; exact_mod_cast h.le
  have h1 := rne_mono (p := 24) (qmin := -149) (by norm_num) e1
  rw [rne_exact (by norm_num) (by norm_num) (by norm_num)] at h1
  have h2 := rne_nonneg (p := 24) (qmin := -149) (x := (n : ℚ)) (by exact_mod_cast h0)
  rw [abs_of_nonneg (by unfold rnd32; exact h2)]
  refine lt_of_le_of_lt (by unfold rnd32; exact h1) ?_
  rw [pow2_eq]; norm_num

theorem quotient_error {o s o' s' v : ℚ} (hs : 1 ≤ s) (ho : 0 ≤ o) (hos : o ≤ s) (hv0 : 0 ≤ v) (hv : v ≤ 1 / 4) (h1 : |o' - o| ≤ v * s)
    (h2 : |s' - s| ≤ v * s) : |o' / s' - o / s| ≤ 2 * v / (1 - v) := by
  obtain ⟨a1, a2⟩ := abs_le.1 h1
  obtain ⟨b1, b2⟩ := abs_le.1 h2
  have hs0 : 0 < s := by linarith
  have hs' : (1 - v) * s ≤ s' := by linarith
  have hp : 0 < (1 - v) * s := mul_pos (by linarith) hs0
  have hs'0 : 0 < s' := by linarith
  have e : o' / s' - o / s = ((o' - o) * s - o * (s' - s)) / (s * s') := by field_simp; ring
  rw [e, abs_div, abs_of_pos (mul_pos hs0 hs'0), div_le_div_iff₀ (mul_pos hs0 hs'0) (by linarith)]
  have hn : |(o' - o) * s - o * (s' - s)| ≤ 2 * v * (s * s) := by
    have t1 : |(o' - o) * s| ≤ v * s * s := by rw [abs_mul, abs_of_pos hs0]; exact mul_le_mul_of_nonneg_right h1 hs0.le
    have t2 : |o * (s' - s)| ≤ s * (v * s) := by
      rw [abs_mul, abs_of_nonneg ho]
      exact mul_le_mul hos h2 (abs_nonneg _) hs0.le
    have := abs_sub ((o' - o) * s) (o * (s' - s))
    nlinarith
  calc |(o' - o) * s - o * (s' - s)| * (1 - v) ≤ 2 * v * (s * s) * (1 - v) := mul_le_mul_of_nonneg_right hn (by linarith)
    _ = 2 * v * s * ((1 - v) * s) := by ring
    _ ≤ 2 * v * s * s' := mul_le_mul_of_nonneg_left hs' (by positivity)
    _ = 2 * v * (s * s') := by ring

theorem rnd32_mono' {a b : ℚ} (h : a ≤ b) : rnd32 a ≤ rnd32 b := rne_mono (by norm_num) h

theorem rnd32_zero' : rnd32 0 = 0 := rne_zero

theorem rnd32_one' : rnd32 1 = 1 := by
  have := rne_exact (p := 24) (qmin := -149) (by norm_num) (k := 1) (e := 0) (by norm_num) (by norm_num)
  simpa [rnd32, pow2_eq] using this

theorem ratio_float {o n : ℤ} (ho : 0 ≤ o) (hn : 0 < n) (hb : o + n < 2 ^ 63) :
    ∃ r : ℚ, ratio float32 o n = .fin r ∧ 0 ≤ r ∧ r ≤ 1 ∧ |r - o / (o + n)| ≤ 1 / 2 ^ 22 := by
  have hs : (1 : ℚ) ≤ ((n + o : ℤ) : ℚ) := by exact_mod_cast (by omega : (1 : ℤ) ≤ n + o)
  have hoq : (0 : ℚ) ≤ o := by exact_mod_cast ho
  have hos : (o : ℚ) ≤ ((n + o : ℤ) : ℚ) := by exact_mod_cast (by omega : o ≤ n + o)
  have s1 : 1 ≤ rnd32 ((n + o : ℤ) : ℚ) := by have := rnd32_mono' hs; rwa [rnd32_one'] at this
  have o0 : 0 ≤ rnd32 (o : ℚ) := by have := rnd32_mono' hoq; rwa [rnd32_zero'] at this
  have o1 : rnd32 (o : ℚ) ≤ rnd32 ((n + o : ℤ) : ℚ) := rnd32_mono' hos
  have q0 : 0 ≤ rnd32 (o : ℚ) / rnd32 ((n + o : ℤ) : ℚ) := by positivity
  have q1 : rnd32 (o : ℚ) / rnd32 ((n + o : ℤ) : ℚ) ≤ 1 := by rw [div_le_one (by linarith)]; exact o1
  have eta0 : (0 : ℚ) ≤ IndexF.eta := by unfold IndexF.eta; positivity
  have e1 := IndexF.rnd32_err (o : ℚ)
  have e2 := IndexF.rnd32_err ((n + o : ℤ) : ℚ)
  have e3 := IndexF.rnd32_err (rnd32 (o : ℚ) / rnd32 ((n + o : ℤ) : ℚ))
  rw [abs_of_nonneg hoq] at e1
  rw [abs_of_nonneg (by linarith : (0 : ℚ) ≤ ((n + o : ℤ) : ℚ))] at e2
  rw [abs_of_nonneg q0] at e3
  have u0 : (0 : ℚ) ≤ IndexF.u := by unfold IndexF.u; positivity
  have r0 : 0 ≤ rnd32 (rnd32 (o : ℚ) / rnd32 ((n + o : ℤ) : ℚ)) := by have := rnd32_mono' q0; rwa [rnd32_zero'] at this
  have r1 : rnd32 (rnd32 (o : ℚ) / rnd32 ((n + o : ℤ) : ℚ)) ≤ 1 := by have := rnd32_mono' q1; rwa [rnd32_one'] at this
  refine ⟨rnd32 (rnd32 (o : ℚ) / rnd32 ((n + o : ℤ) : ℚ)), ?_, r0, r1, ?_⟩
  · unfold ratio
    rw [rnd_int ho (by omega), rnd_int (by omega) (by omega)]
    show (if rnd32 ((n + o : ℤ) : ℚ) = 0 then _ else float32.rnd (rnd32 (o : ℚ) / rnd32 ((n + o : ℤ) : ℚ))) = _
    rw [if_neg (by linarith)]
    refine overflow_of_lt ?_
    rw [abs_of_nonneg r0]
    exact lt_of_le_of_lt r1 (by norm_num)
  · have hq := quotient_error (v := IndexF.u + IndexF.eta) hs hoq hos (by linarith) (by unfold IndexF.u IndexF.eta; norm_num)
      (e1.trans (by nlinarith)) (e2.trans (by nlinarith))
    have ec : ((n + o : ℤ) : ℚ) = (o : ℚ) + n := by push_cast; ring
    rw [ec] at hq e3 q1 ⊢
    have e4 : IndexF.u * (rnd32 (o : ℚ) / rnd32 ((o : ℚ) + n)) ≤ IndexF.u := by
      have := mul_le_mul_of_nonneg_left q1 u0; rwa [mul_one] at this
    have e5 : IndexF.u + IndexF.eta + 2 * (IndexF.u + IndexF.eta) / (1 - (IndexF.u + IndexF.eta)) ≤ 1 / 2 ^ 22 := by
      unfold IndexF.u IndexF.eta; norm_num
    have tri := abs_sub_le (rnd32 (rnd32 (o : ℚ) / rnd32 ((o : ℚ) + n))) (rnd32 (o : ℚ) / rnd32 ((o : ℚ) + n)) ((o : ℚ) / (o + n))
    linarith

/-! ### The queue of clouds -/

section
variable {S : Type} (look : S → ℤ → Option P × S)

theorem drain_split (q : List Cloud) : ∀ s : S, ∃ dropped, q = (drain look q s).1.map Prod.fst ++ dropped ++ (drain look q s).2.1 ∧
    (dropped ≠ [] → (drain look q s).2.1.length = 9) := by
  induction q with
  | nil => intro s; exact ⟨[], by simp [drain]⟩
  | cons c cs ih =>
    intro s
    rw [drain]
    split
    · rename_i p s' e
      obtain ⟨d, h1, h2⟩ := ih s'
      exact ⟨d, by simp only [List.map_cons, List.cons_append]; rw [← h1], h2⟩
    · rename_i s' e
      refine ⟨(c :: cs).take ((c :: cs).length - (kMaxQueueSize - 1)), by simp, ?_⟩
      intro h
      have h0 : (c :: cs).length - (kMaxQueueSize - 1) ≠ 0 := by
        intro h0; rw [h0] at h; exact h (by simp)
      simp only [List.length_drop, kMaxQueueSize] at h0 ⊢
      omega

theorem drain_bound (q : List Cloud) : ∀ s : S, (drain look q s).2.1.length ≤ 9 := by
  induction q with
  | nil => intro s; simp [drain]
  | cons c cs ih =>
    intro s
    rw [drain]
    split
    · exact ih _
    · simp only [List.length_drop, kMaxQueueSize]; omega

theorem drain_short (q : List Cloud) : ∀ s : S, q.length ≤ 9 → q = (drain look q s).1.map Prod.fst ++ (drain look q s).2.1 := by
  induction q with
  | nil => intro s _; simp [drain]
  | cons c cs ih =>
    intro s h
    rw [drain]
    split
    · rename_i p s' e
      simp only [List.length_cons] at h
      simp only [List.map_cons, List.cons_append]
      rw [← ih s' (by omega)]
    · have : (c :: cs).length - (kMaxQueueSize - 1) = 0 := by simp only [kMaxQueueSize]; omega
      rw [this]; simp

theorem drain_all (hl : ∀ s t, (look s t).1 ≠ none) (q : List Cloud) : ∀ s : S, (drain look q s).1.map Prod.fst = q ∧ (drain look q s).2.1 = [] := by
  induction q with
  | nil => intro s; simp [drain]
  | cons c cs ih =>
    intro s
    rw [drain]
    split
    · simp [ih]
    · rename_i s' e
      exact absurd (by rw [e]) (hl s c.stamp)

end

theorem taken_sublist (i : ℤ) (cs : List Cloud) : ∀ last, (taken i last cs).Sublist cs := by
  induction cs with
  | nil => intro _; simp [taken]
  | cons c cs ih =>
    intro last
    rw [taken]
    split
    · exact (ih _).cons_cons _
    · exact (ih _).cons _

theorem taken_spaced (i : ℤ) (cs : List Cloud) : ∀ last, Spaced i last (taken i last cs) := by
  induction cs with
  | nil => intro _; simp [taken, Spaced]
  | cons c cs ih =>
    intro last
    rw [taken]
    split
    · rename_i h
      obtain ⟨h1, h2⟩ := ih c.stamp
      refine ⟨List.isChain_cons.2 ⟨?_, h1⟩, by simpa using h⟩
      intro y hy
      exact h2 y hy
    · exact ih _

/-- What is still to come out of an inbox, at most. -/
theorem serve_sublist (look : Transformer P → ℤ → Option P × Transformer P) (es : List (SrvEvent P)) : ∀ (b : Inbox) (tr : Transformer P),
    ((serve look b tr es).1.map Prod.fst ++ (serve look b tr es).2.1.queue).Sublist (b.queue ++ taken b.minInterval b.last (clouds es)) := by
  induction es with
  | nil => intro b tr; simp [serve, clouds, taken]
  | cons e es ih =>
    intro b tr
    cases e with
    | transform m => exact ih b _
    | cloud c =>
      rw [serve, clouds, taken]
      have hi := ih (b.insert look tr c).2.1 (b.insert look tr c).2.2
      obtain ⟨d, hd, -⟩ := drain_split look (b.push c).queue tr
      simp only [Inbox.insert] at hi ⊢
      rw [List.map_append, List.append_assoc]
      have hq : (b.push c).queue ++ taken (b.push c).minInterval (b.push c).last (clouds es) =
          b.queue ++ (if b.minInterval < c.stamp - b.last then c :: taken b.minInterval c.stamp (clouds es) else taken b.minInterval b.last (clouds es)) := by
        unfold Inbox.push Inbox.accepts
        by_cases h : b.minInterval < c.stamp - b.last <;> simp [h]
      rw [← hq]
      have goal := (List.Sublist.refl ((drain look (b.push c).queue tr).1.map Prod.fst)).append (hi.trans (List.sublist_append_right d _))
      have eq : (b.push c).queue ++ taken (b.push c).minInterval (b.push c).last (clouds es) = (drain look (b.push c).queue tr).1.map Prod.fst ++
          (d ++ ((drain look (b.push c).queue tr).2.1 ++ taken (b.push c).minInterval (b.push c).last (clouds es))) := by
        conv_lhs => rw [hd]
        simp only [List.append_assoc]
      rw [eq]
      exact goal

/-- The clouds waiting are in order, and none is older than the last pose asked for. -/
structure InOrder (b : Inbox) (f : ℤ) : Prop where
  interval : 0 ≤ b.minInterval
  sorted : b.queue.Pairwise fun x y => x.stamp ≤ y.stamp
  low : ∀ c ∈ b.queue, f ≤ c.stamp
  high : ∀ c ∈ b.queue, c.stamp ≤ b.last
  last : f ≤ b.last

theorem InOrder.push {b : Inbox} {f : ℤ} (h : InOrder b f) (c : Cloud) : InOrder (b.push c) f := by
  unfold Inbox.push
  split
  · rename_i ha
    have ha' : b.minInterval < c.stamp - b.last := by simpa [Inbox.accepts] using ha
    have := h.interval
    refine ⟨h.interval, ?_, ?_, ?_, ?_⟩
    · rw [List.pairwise_append]
      refine ⟨h.sorted, by simp, ?_⟩
      intro x hx y hy
      rw [List.mem_singleton.1 hy]
      have := h.high x hx
      omega
    · intro x hx
      rcases List.mem_append.1 hx with hx | hx
      · exact h.low x hx
      · rw [List.mem_singleton.1 hx]; have := h.last; omega
    · intro x hx
      rcases List.mem_append.1 hx with hx | hx
      · have := h.high x hx; show x.stamp ≤ c.stamp; omega
      · rw [List.mem_singleton.1 hx]
    · show f ≤ c.stamp
      have := h.last; omega
  · exact h

theorem drain_alike (L : ℤ) (q : List Cloud) : ∀ {f : ℤ} {a b : Transformer P}, Alike A ops f a b → q.Pairwise (fun x y => x.stamp ≤ y.stamp) →
    (∀ c ∈ q, f ≤ c.stamp) → (∀ c ∈ q, c.stamp ≤ L) → f ≤ L →
    (drain (fun tr t => tr.lookup A ops t) q a).1 = (drain (lookupKeeping A ops) q b).1 ∧
    (drain (fun tr t => tr.lookup A ops t) q a).2.1 = (drain (lookupKeeping A ops) q b).2.1 ∧
    (drain (lookupKeeping A ops) q b).2.2 = b ∧
    ∃ f', f' ≤ L ∧ (∀ c ∈ (drain (lookupKeeping A ops) q b).2.1, f' ≤ c.stamp) ∧ Alike A ops f' (drain (fun tr t => tr.lookup A ops t) q a).2.2 b := by
  induction q with
  | nil => intro f a b h _ _ _ hf; exact ⟨rfl, rfl, rfl, f, hf, by simp [drain], h⟩
  | cons c cs ih =>
    intro f a b h hs hl hh hf
    obtain ⟨e1, e2⟩ := h.lookup (hl c (by simp))
    rw [List.pairwise_cons] at hs
    have ek : lookupKeeping A ops b c.stamp = ((b.lookup A ops c.stamp).1, b) := rfl
    rcases hlk : b.lookup A ops c.stamp with ⟨_ | p, b'⟩
    · rcases hla : a.lookup A ops c.stamp with ⟨_ | p', a'⟩
      · rw [hla] at e2
        rw [drain, drain, hla, ek, hlk]
        refine ⟨rfl, rfl, rfl, c.stamp, hh c (by simp), ?_, e2⟩
        intro y hy
        rcases List.mem_cons.1 (List.mem_of_mem_drop hy) with rfl | hy
        · exact le_refl _
        · exact hs.1 y hy
      · rw [hla, hlk] at e1; cases e1
    · rcases hla : a.lookup A ops c.stamp with ⟨_ | p', a'⟩
      · rw [hla, hlk] at e1; cases e1
      · rw [hla] at e1 e2
        rw [hlk] at e1
        obtain rfl : p' = p := Option.some.inj e1
        rw [drain, drain, hla, ek, hlk]
        obtain ⟨i1, i2, i3, i4⟩ := ih e2 hs.2 hs.1 (fun y hy => hh y (by simp [hy])) (hh c (by simp))
        exact ⟨by simp only [i1], i2, i3, i4⟩

theorem serve_alike (es : List (SrvEvent P)) : ∀ {f : ℤ} {x : Inbox} {a b : Transformer P}, Alike A ops f a b → InOrder x f →
    (serve (fun tr t => tr.lookup A ops t) x a es).1 = (serve (lookupKeeping A ops) x b es).1 := by
  induction es with
  | nil => intros; rfl
  | cons e es ih =>
    intro f x a b h hx
    cases e with
    | transform m => exact ih (h.receive m) hx
    | cloud c =>
      have hp := hx.push c
      obtain ⟨i1, i2, i3, f', h1, h2, h3⟩ := drain_alike (x.push c).last (x.push c).queue h hp.sorted hp.low hp.high hp.last
      rw [serve, serve]
      simp only [Inbox.insert]
      rw [i1, i2, i3]
      congr 1
      refine ih h3 ⟨hp.interval, ?_, h2, ?_, h1⟩
      · obtain ⟨d, hd, -⟩ := drain_split (lookupKeeping A ops) (x.push c).queue b
        have := hp.sorted
        rw [hd] at this
        exact (List.pairwise_append.1 this).2.1
      · intro y hy
        obtain ⟨d, hd, -⟩ := drain_split (lookupKeeping A ops) (x.push c).queue b
        refine hp.high y ?_
        rw [hd]
        exact List.mem_append_right _ hy

end Vox.Tf
