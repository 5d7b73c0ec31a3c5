import Verif.Model.BucketQueue
import Verif.Spec.PriorityQueue
import Mathlib.Tactic.Ring
import Mathlib.Tactic.Linarith
import Mathlib.Tactic.Positivity
import Mathlib.Tactic.FieldSimp
import Mathlib.Tactic.NormNum

namespace Vox.BQueue
open Vox.Spec

variable {T : Type}

/-- The entries held in buckets numbered from `i` on. -/
def entriesFrom : ℕ → List (List T) → List (ℕ × T)
  | _, [] => []
  | i, b :: bs => b.map (fun k => (i, k)) ++ entriesFrom (i + 1) bs

/-- Relation between a queue and its specification. -/
structure Rel (q : BQueue T) (s : PQ T) : Prop where
  conf : q.configured = true
  n : q.numBuckets = s.n
  mx : q.maxVal = s.maxVal
  npos : 0 < s.n
  nlt : s.n < 2 ^ 31
  mpos : 0 < s.maxVal
  len : q.buckets.length = s.n
  low : ∀ i, i < q.last → ∀ b, q.buckets[i]? = some b → b = []
  cnt : q.numElements = s.entries.length
  ent : entriesFrom 0 q.buckets = s.entries

theorem modify_ne {α : Type} {l : List α} {f : α → α} {i j : ℕ} (h : i ≠ j) :
    (l.modify i f)[j]? = l[j]? := by
  rw [List.getElem?_modify]; simp [h]

theorem entriesFrom_replicate_nil (i n : ℕ) :
    entriesFrom i (List.replicate n ([] : List T)) = [] := by
  induction n generalizing i with
  | zero => rfl
  | succ n ih => simp [List.replicate_succ, entriesFrom, ih]

theorem entriesFrom_ge (i : ℕ) (bs : List (List T)) : ∀ e ∈ entriesFrom i bs, i ≤ e.1 := by
  induction bs generalizing i with
  | nil => simp [entriesFrom]
  | cons b bs ih =>
    intro e he
    rcases List.mem_append.1 he with h | h
    · obtain ⟨k, _, rfl⟩ := List.mem_map.1 h; exact le_refl _
    · have := ih (i + 1) e h; omega

theorem takeWhile_all {α : Type} (p : α → Bool) (l m : List α) (h : ∀ a ∈ l, p a = true) :
    (l ++ m).takeWhile p = l ++ m.takeWhile p := by
  induction l with
  | nil => rfl
  | cons a l ih =>
    have ha := h a (by simp)
    simp [ha, ih fun x hx => h x (by simp [hx])]

theorem dropWhile_all {α : Type} (p : α → Bool) (l m : List α) (h : ∀ a ∈ l, p a = true) :
    (l ++ m).dropWhile p = m.dropWhile p := by
  induction l with
  | nil => rfl
  | cons a l ih =>
    have ha := h a (by simp)
    simp [ha, ih fun x hx => h x (by simp [hx])]

theorem takeWhile_none {α : Type} (p : α → Bool) (l : List α) (h : ∀ a ∈ l, p a = false) :
    l.takeWhile p = [] ∧ l.dropWhile p = l := by
  cases l with
  | nil => simp
  | cons a l => simp [h a (by simp)]

theorem insertStable_append {b : ℕ} {k : T} {l m : List (ℕ × T)} (h : ∀ e ∈ l, e.1 ≤ b) :
    insertStable b k (l ++ m) = l ++ insertStable b k m := by
  unfold insertStable
  rw [takeWhile_all _ _ _ (by simpa using h), dropWhile_all _ _ _ (by simpa using h),
    List.append_assoc]

theorem entriesFrom_modify (i j : ℕ) (k : T) (bs : List (List T)) (hj : j < bs.length) :
    entriesFrom i (bs.modify j (· ++ [k])) = insertStable (i + j) k (entriesFrom i bs) := by
  induction bs generalizing i j with
  | nil => simp at hj
  | cons b bs ih =>
    cases j with
    | zero =>
      simp only [List.modify_zero_cons, entriesFrom, Nat.add_zero]
      rw [insertStable_append (by
        intro e he; obtain ⟨k', _, rfl⟩ := List.mem_map.1 he; exact le_refl _)]
      have := takeWhile_none (fun e : ℕ × T => decide (e.1 ≤ i)) (entriesFrom (i + 1) bs)
        (by
          intro e he
          have := entriesFrom_ge _ _ e he
          simp; omega)
      unfold insertStable
      rw [this.1, this.2]
      simp
    | succ j =>
      simp only [List.modify_succ_cons, entriesFrom]
      rw [insertStable_append (by
        intro e he; obtain ⟨k', _, rfl⟩ := List.mem_map.1 he; simp)]
      rw [ih (i + 1) j (by simpa using hj)]
      congr 2
      omega

theorem scan_spec (i : ℕ) (bs : List (List T)) (h : entriesFrom i bs ≠ []) :
    ∃ m a t, scan bs i = .ok (i + m) ∧ m < bs.length ∧ bs[m]? = some (a :: t) ∧
      (∀ m' < m, bs[m']? = some []) ∧
      entriesFrom i bs = (i + m, a) :: entriesFrom i (bs.modify m List.tail) := by
  induction bs generalizing i with
  | nil => simp [entriesFrom] at h
  | cons b bs ih =>
    cases b with
    | nil =>
      obtain ⟨m, a, t, h1, h2, h3, h4, h5⟩ := ih (i + 1) (by simpa [entriesFrom] using h)
      refine ⟨m + 1, a, t, ?_, by simpa using h2, by simpa using h3, ?_, ?_⟩
      · simp only [scan]; rw [h1]; congr 1; omega
      · intro m' hm'
        cases m' with
        | zero => rfl
        | succ m' => simpa using h4 m' (by omega)
      · simp only [entriesFrom, List.modify_succ_cons, List.map_nil, List.nil_append]
        rw [h5]
        congr 2
        omega
    | cons a t =>
      exact ⟨0, a, t, rfl, by simp, rfl, by simp, by simp [entriesFrom, List.modify_zero_cons]⟩

theorem entriesFrom_drop (bs : List (List T)) (l i : ℕ)
    (h : ∀ j, j < l → ∀ b, bs[j]? = some b → b = []) :
    entriesFrom i bs = entriesFrom (i + l) (bs.drop l) := by
  induction l generalizing bs i with
  | zero => simp
  | succ l ih =>
    cases bs with
    | nil => simp [entriesFrom]
    | cons b bs =>
      have hb : b = [] := h 0 (by omega) b rfl
      subst hb
      simp only [entriesFrom, List.map_nil, List.nil_append, List.drop_succ_cons]
      rw [ih bs (i + 1) (fun j hj b hb => h (j + 1) (by omega) b (by simpa using hb))]
      congr 1
      omega

/-- The scan from the cursor finds the first entry of the abstraction. -/
theorem scan_cursor {q : BQueue T} {s : PQ T} (r : Rel q s) (hne : s.entries ≠ []) :
    ∃ m a t, scan (q.buckets.drop q.last) q.last = .ok m ∧ m < q.buckets.length ∧
      q.buckets[m]? = some (a :: t) ∧ (∀ i, i < m → ∀ b, q.buckets[i]? = some b → b = []) ∧
      s.entries = (m, a) :: entriesFrom 0 (q.buckets.modify m List.tail) := by
  have e := entriesFrom_drop q.buckets q.last 0 r.low
  rw [Nat.zero_add, r.ent] at e
  obtain ⟨m, a, t, h1, h2, h3, h4, h5⟩ := scan_spec q.last (q.buckets.drop q.last)
    (by rw [← e]; exact hne)
  have h6 : q.buckets[q.last + m]? = some (a :: t) := by
    rw [← List.getElem?_drop]; exact h3
  have hlow : ∀ i, i < q.last + m → ∀ b, q.buckets[i]? = some b → b = [] := by
    intro i hi b hb
    rcases Nat.lt_or_ge i q.last with h | h
    · exact r.low i h b hb
    · have := h4 (i - q.last) (by omega)
      rw [List.getElem?_drop, show q.last + (i - q.last) = i by omega, hb] at this
      exact Option.some.inj this
  refine ⟨q.last + m, a, t, h1, ?_, h6, hlow, ?_⟩
  · simp at h2; omega
  · rw [e, h5]
    congr 1
    have hlow' : ∀ j, j < q.last → ∀ b,
        (q.buckets.modify (q.last + m) List.tail)[j]? = some b → b = [] := by
      intro j hj b hb
      rw [modify_ne (by omega)] at hb
      exact r.low j hj b hb
    have e2 := entriesFrom_drop (q.buckets.modify (q.last + m) List.tail) q.last 0 hlow'
    rw [e2, Nat.zero_add]
    congr 1
    apply List.ext_getElem?
    intro j
    rw [List.getElem?_drop, List.getElem?_modify, List.getElem?_modify, List.getElem?_drop]
    by_cases hj : m = j
    · subst hj; simp
    · simp [hj]

theorem bucketIndex_spec {n : ℕ} {mx v : ℚ} (hn : 0 < n) (hn2 : n < 2 ^ 31) (hm : 0 < mx)
    (hv : |v| * ((n : ℚ) - 1) / mx < 2 ^ 31) :
    bucketIndex n mx v = .ok (bucketOf n mx v) ∧ bucketOf n mx v < n := by
  have hn1 : (0 : ℚ) ≤ (n : ℚ) - 1 := by
    have : (1 : ℚ) ≤ n := by exact_mod_cast hn
    linarith
  have hclip : (if v > mx then mx else v) = min v mx := by
    split_ifs with h
    · rw [min_eq_right h.le]
    · rw [min_eq_left (not_lt.1 h)]
  have hle : |min v mx| ≤ |v| := by
    rcases le_total v mx with h | h
    · rw [min_eq_left h]
    · rw [min_eq_right h, abs_of_pos hm]
      exact le_trans h (le_abs_self v)
  have hval : |min v mx| / mx * ((n : ℚ) - 1) = |min v mx| * ((n : ℚ) - 1) / mx := by ring
  have h0 : 0 ≤ |min v mx| * ((n : ℚ) - 1) / mx := by positivity
  have h1 : |min v mx| * ((n : ℚ) - 1) / mx < 2 ^ 31 := by
    refine lt_of_le_of_lt ?_ hv
    gcongr
  have f0 : 0 ≤ ⌊|min v mx| * ((n : ℚ) - 1) / mx⌋ := Int.floor_nonneg.2 h0
  have f1 : ⌊|min v mx| * ((n : ℚ) - 1) / mx⌋ < 2 ^ 31 := by
    rw [Int.floor_lt]; exact_mod_cast h1
  constructor
  · unfold bucketIndex bucketOf
    simp only [hclip, hm.ne', if_false, hval]
    rw [if_pos ⟨by omega, f1⟩]
    congr 1
    split_ifs <;> omega
  · unfold bucketOf
    omega

/-- Translation of the operations. -/
def toSpecOp : Op T → PQOp T
  | .push k v => .push k v
  | .pop => .pop
  | .front => .front
  | .empty => .empty
  | .clear => .clear
  | .setNumBuckets n m => .resize n m

def toSpecOut : Out T → PQOut T
  | .unit => .unit
  | .key k => .key k
  | .bool b => .bool b

theorem low_replicate (n l : ℕ) :
    ∀ i, i < l → ∀ b, (List.replicate n ([] : List T))[i]? = some b → b = [] := by
  intro i _ b hb
  rw [List.getElem?_replicate] at hb
  split_ifs at hb
  exact (Option.some.inj hb).symm

theorem rel_init {n : ℕ} {mx : ℚ} (hn : 0 < n) (hn2 : n < 2 ^ 31) (hm : 0 < mx) :
    Rel (mk' n mx : BQueue T) ⟨n, mx, []⟩ :=
  { conf := rfl, n := rfl, mx := rfl, npos := hn, nlt := hn2, mpos := hm, len := by simp [mk'],
    low := by intro i hi; simp [mk'] at hi
    cnt := rfl, ent := entriesFrom_replicate_nil _ _ }

theorem rel_step {q : BQueue T} {s : PQ T} (r : Rel q s) (op : Op T)
    (ha : (toSpecOp op).Allowed s) :
    ∃ q' o, q.step op = .ok (q', o) ∧ Rel q' (s.step (toSpecOp op)).1 ∧
      toSpecOut o = (s.step (toSpecOp op)).2 := by
  have hlen : entriesFrom 0 q.buckets = s.entries := r.ent
  cases op with
  | push k v =>
    obtain ⟨h1, h2⟩ := bucketIndex_spec r.npos r.nlt r.mpos ha
    refine ⟨{ q with
        last := if bucketOf s.n s.maxVal v < q.last then bucketOf s.n s.maxVal v else q.last
        buckets := q.buckets.modify (bucketOf s.n s.maxVal v) (· ++ [k])
        numElements := q.numElements + 1 }, .unit, ?_, ?_, rfl⟩
    · have hnb : (s.n != 0) = true := by
        have := r.npos; simp; omega
      have hc : 0 ≤ ((bucketOf s.n s.maxVal v : ℕ) : ℤ) ∧
          ((bucketOf s.n s.maxVal v : ℕ) : ℤ) < (q.buckets.length : ℤ) :=
        ⟨by omega, by rw [r.len]; exact_mod_cast h2⟩
      simp only [step, push, Outcome.require, Outcome.check, r.conf, r.n, r.mx, hnb, if_true,
        Outcome.bind_ok, h1, if_pos hc, Outcome.pure_eq, Int.toNat_natCast]
    · refine { conf := r.conf, n := r.n, mx := r.mx, npos := r.npos, nlt := r.nlt, mpos := r.mpos,
               len := by simp [r.len, PQ.step, toSpecOp], low := ?_, cnt := ?_, ent := ?_ }
      · intro i hi b hb
        simp only at hi
        have hi' : i < q.last ∧ i < bucketOf s.n s.maxVal v ∨ i < q.last ∧ i ≠ bucketOf s.n s.maxVal v := by
          split_ifs at hi <;> omega
        have hne : bucketOf s.n s.maxVal v ≠ i := by omega
        rw [modify_ne hne] at hb
        exact r.low i (by omega) b hb
      · simp only [r.cnt, PQ.step, toSpecOp, insertStable]
        rw [List.length_append, List.length_cons, ← Nat.add_assoc, ← List.length_append,
          List.takeWhile_append_dropWhile]
      · simp only [PQ.step, toSpecOp]
        rw [entriesFrom_modify _ _ _ _ (by rw [r.len]; exact h2), hlen, Nat.zero_add]
  | pop =>
    by_cases hne : s.entries = []
    · refine ⟨q, .unit, ?_, ?_, rfl⟩
      · simp [step, pop, empty, Outcome.require, r.conf, r.cnt, hne]
      · have : (s.step (toSpecOp (Op.pop : Op T))).1 = s := by
          cases s; simp_all [PQ.step, toSpecOp]
        rw [this]; exact r
    · obtain ⟨m, a, t, e1, e2, e3, e4, e5⟩ := scan_cursor r hne
      have hcnt : (q.numElements == 0) = false := by
        rw [r.cnt]; simp [hne]
      refine ⟨{ q with last := m, buckets := q.buckets.modify m List.tail,
                       numElements := q.numElements - 1 }, .unit, ?_, ?_, rfl⟩
      · simp only [step, pop, empty, Outcome.require, r.conf, if_true, Outcome.bind_ok,
          Outcome.pure_eq, hcnt, e1, Bool.false_eq_true, if_false]
      · refine { conf := r.conf, n := r.n, mx := r.mx, npos := r.npos, nlt := r.nlt,
                 mpos := r.mpos, len := by simp [r.len, PQ.step, toSpecOp], low := ?_, cnt := ?_, ent := ?_ }
        · intro i hi b hb
          simp only at hi hb
          rw [modify_ne (by omega)] at hb
          exact e4 i hi b hb
        · simp only [r.cnt, PQ.step, toSpecOp, List.length_tail]
        · simp only [PQ.step, toSpecOp]
          rw [e5]; rfl
  | front =>
    have hne : s.entries ≠ [] := ha
    obtain ⟨m, a, t, e1, e2, e3, e4, e5⟩ := scan_cursor r hne
    have hcnt : (q.numElements == 0) = false := by
      rw [r.cnt]; simp [hne]
    have hnb : (q.numBuckets != 0) = true := by
      rw [r.n]; have := r.npos; simp; omega
    refine ⟨{ q with last := m }, .key a, ?_, ?_, ?_⟩
    · simp [step, front, empty, Outcome.require, Outcome.check, r.conf, hcnt, hnb, e1, e3]
    · exact { conf := r.conf, n := r.n, mx := r.mx, npos := r.npos, nlt := r.nlt, mpos := r.mpos,
              len := r.len, low := e4, cnt := r.cnt, ent := r.ent }
    · simp [toSpecOut, PQ.step, toSpecOp, e5]
  | empty =>
    refine ⟨q, .bool (q.numElements == 0), ?_, r, ?_⟩
    · simp [step, empty, Outcome.require, r.conf]
    · simp only [toSpecOut, PQ.step, toSpecOp, r.cnt]
      cases s.entries <;> rfl
  | clear =>
    refine ⟨{ q with buckets := List.replicate q.numBuckets [], last := 0, numElements := 0 },
      .unit, by simp only [step, clear, Outcome.require, r.conf, if_true,
      Outcome.bind_ok, Outcome.pure_eq], ?_, rfl⟩
    exact { conf := r.conf, n := r.n, mx := r.mx, npos := r.npos, nlt := r.nlt, mpos := r.mpos,
            len := by simp [r.n, PQ.step, toSpecOp],
            low := low_replicate _ _, cnt := rfl, ent := entriesFrom_replicate_nil _ _ }
  | setNumBuckets n m =>
    refine ⟨q.setNumBuckets n m, .unit, rfl, ?_, rfl⟩
    obtain ⟨h1, h2, h3⟩ := ha
    exact { conf := rfl, n := rfl, mx := rfl, npos := h1, nlt := h2, mpos := h3,
            len := by simp [setNumBuckets, PQ.step, toSpecOp],
            low := low_replicate _ _, cnt := rfl, ent := entriesFrom_replicate_nil _ _ }

theorem rel_run {q : BQueue T} {s : PQ T} (r : Rel q s) (ops : List (Op T))
    (ha : s.AllowedRun (ops.map toSpecOp)) :
    ∃ q' outs, q.run ops = .ok (q', outs) ∧ Rel q' (s.run (ops.map toSpecOp)).1 ∧
      outs.map toSpecOut = (s.run (ops.map toSpecOp)).2 := by
  induction ops generalizing q s with
  | nil => exact ⟨q, [], rfl, r, rfl⟩
  | cons op ops ih =>
    obtain ⟨h1, h2⟩ := ha
    obtain ⟨q1, o, e1, r1, e2⟩ := rel_step r op h1
    obtain ⟨q2, os, f1, r2, f2⟩ := ih r1 h2
    refine ⟨q2, o :: os, ?_, r2, ?_⟩
    · simp only [run, e1, Outcome.bind_ok, f1, Outcome.pure_eq]
    · simp only [List.map_cons, e2, f2, PQ.run]

end Vox.BQueue
