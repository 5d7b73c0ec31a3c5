/-
Properties C36 and C37: the bucket queue.
-/
import Verif.Lemmas.BucketQueue

namespace Vox.Props
open Vox Vox.Spec Vox.BQueue

/-! ## C36 lowest bucket first, FIFO inside a bucket, nothing lost -/

/-- Every sequence of operations that respects the documented preconditions gives exactly the answers
of a stable priority queue (see `Spec.PQ`). -/
theorem C36_refines_stable_priority_queue {T : Type} {n : ℕ} {mx : ℚ} (hn : 0 < n)
    (hn2 : n < 2 ^ 31) (hm : 0 < mx) (ops : List (Op T))
    (ha : PQ.AllowedRun ⟨n, mx, []⟩ (ops.map toSpecOp)) :
    ∃ q outs, (mk' n mx : BQueue T).run ops = .ok (q, outs) ∧
      outs.map toSpecOut = (PQ.run ⟨n, mx, []⟩ (ops.map toSpecOp)).2 := by
  obtain ⟨q, outs, h1, _, h3⟩ := rel_run (rel_init hn hn2 hm) ops ha
  exact ⟨q, outs, h1, h3⟩

/-- A history with a decreasing key after a pop, a tie, a negative key and a key beyond the maximum. -/
def sampleOps : List (Op ℕ) :=
  [.push 1 3, .push 2 9, .pop, .push 3 1, .push 4 (-1), .push 5 100, .front, .pop, .front,
   .setNumBuckets 4 2, .empty, .push 6 (-50), .front]

example : PQ.AllowedRun (⟨20, 10, []⟩ : PQ ℕ) (sampleOps.map toSpecOp) := by
  decide +kernel

/-- The service order of the specification: the entries are always sorted by bucket, and an insertion
neither loses nor duplicates an entry. -/
theorem C36_entries_sorted {T : Type} (q : PQ T)
    (hq : q.entries.Pairwise (fun a b => a.1 ≤ b.1)) (op : PQOp T) :
    (q.step op).1.entries.Pairwise (fun a b => a.1 ≤ b.1) := by
  cases op with
  | push k v =>
    simp only [PQ.step, insertStable]
    generalize bucketOf q.n q.maxVal v = b
    generalize q.entries = l at hq
    induction l with
    | nil => simp
    | cons a l ih =>
      rw [List.pairwise_cons] at hq
      by_cases hab : a.1 ≤ b
      · simp only [List.takeWhile_cons, List.dropWhile_cons, hab, decide_true, if_true,
          List.cons_append]
        refine List.pairwise_cons.2 ⟨?_, ih hq.2⟩
        intro e he
        rcases List.mem_append.1 he with h | h
        · exact hq.1 e ((List.takeWhile_prefix _).mem h)
        · rcases List.mem_cons.1 h with h | h
          · subst h; exact hab
          · exact hq.1 e ((List.dropWhile_suffix _).mem h)
      · simp only [List.takeWhile_cons, List.dropWhile_cons, hab, decide_false, Bool.false_eq_true,
          if_false, List.nil_append]
        refine List.pairwise_cons.2 ⟨?_, List.pairwise_cons.2 hq⟩
        intro e he
        rcases List.mem_cons.1 he with h | h
        · subst h; simp only; omega
        · have := hq.1 e h; simp only; omega
  | pop => exact hq.tail
  | front => exact hq
  | empty => exact hq
  | clear => exact List.Pairwise.nil
  | resize n m => exact List.Pairwise.nil

example : ([(0, 'a'), (0, 'b'), (3, 'c')] : List (ℕ × Char)).Pairwise (fun a b => a.1 ≤ b.1) := by
  decide

/-- A push adds exactly one entry and keeps all others. -/
theorem C36_push_conserves {T : Type} (q : PQ T) (k : T) (v : ℚ) :
    (q.step (.push k v)).1.entries.Perm ((bucketOf q.n q.maxVal v, k) :: q.entries) := by
  simp only [PQ.step, insertStable]
  refine List.perm_middle.trans ?_
  rw [List.takeWhile_append_dropWhile]

/-- Buckets respect the order of the magnitudes. -/
theorem C36_bucket_monotone {n : ℕ} (hn : 0 < n) {mx v w : ℚ} (hm : 0 < mx) (h : |v| ≤ |w|) :
    bucketOf n mx v ≤ bucketOf n mx w := by
  have hn1 : (0 : ℚ) ≤ (n : ℚ) - 1 := by
    have : (1 : ℚ) ≤ n := by exact_mod_cast hn
    linarith
  have key : ∀ x y : ℚ, x ≤ y →
      (⌊x * ((n : ℚ) - 1) / mx⌋).toNat ≤ (⌊y * ((n : ℚ) - 1) / mx⌋).toNat := by
    intro x y hxy
    exact Int.toNat_le_toNat (Int.floor_le_floor (by gcongr))
  have hmax : ∀ x : ℚ, mx ≤ x → n - 1 ≤ (⌊x * ((n : ℚ) - 1) / mx⌋).toNat := by
    intro x hx
    refine le_trans ?_ (key mx x hx)
    rw [mul_comm, mul_div_assoc, div_self hm.ne', mul_one]
    have : (n : ℚ) - 1 = ((n - 1 : ℕ) : ℚ) := by push_cast [hn]; rfl
    rw [this, Int.floor_natCast]
    simp
  unfold bucketOf
  -- either `w` is clipped, or `|min w mx| = |w|`
  by_cases hw : mx ≤ |min w mx|
  · rw [min_eq_left (hmax _ hw)]
    exact min_le_left _ _
  · have hwlt : w < mx := by
      by_contra hc
      rw [min_eq_right (not_lt.1 hc), abs_of_pos hm] at hw
      exact hw le_rfl
    rw [min_eq_left hwlt.le] at hw ⊢
    have hv : min v mx = v := min_eq_left (le_trans (le_abs_self v) (le_trans h (not_le.1 hw).le))
    rw [hv]
    exact min_le_min le_rfl (key _ _ h)

example : |(-3 : ℚ)| ≤ |(7 : ℚ)| ∧ bucketOf 20 10 (-3) = 5 ∧ bucketOf 20 10 7 = 13 := by
  refine ⟨by norm_num [abs_of_neg, abs_of_pos], by decide +kernel, by decide +kernel⟩

/-! ## C37 memory safety -/

/-- No sequence of operations within the preconditions aborts or is undefined. -/
theorem C37_no_abort_no_ub {T : Type} {n : ℕ} {mx : ℚ} (hn : 0 < n) (hn2 : n < 2 ^ 31)
    (hm : 0 < mx) (ops : List (Op T)) (ha : PQ.AllowedRun ⟨n, mx, []⟩ (ops.map toSpecOp)) :
    (mk' n mx : BQueue T).run ops ≠ .ub ∧ (mk' n mx : BQueue T).run ops ≠ .fatal := by
  obtain ⟨q, outs, h1, _⟩ := C36_refines_stable_priority_queue hn hn2 hm ops ha
  rw [h1]
  exact ⟨by simp, by simp⟩

/-- A default-constructed queue is usable after it has been configured. -/
theorem C37_default_then_configured {T : Type} {n : ℕ} {mx : ℚ} (hn : 0 < n) (hn2 : n < 2 ^ 31)
    (hm : 0 < mx) (ops : List (Op T)) (ha : PQ.AllowedRun ⟨n, mx, []⟩ (ops.map toSpecOp)) :
    ∃ q outs, (mkDefault : BQueue T).run (.setNumBuckets n mx :: ops) = .ok (q, outs) := by
  have : (mkDefault : BQueue T).setNumBuckets n mx = mk' n mx := rfl
  obtain ⟨q, outs, h1, _⟩ := C36_refines_stable_priority_queue hn hn2 hm ops ha
  refine ⟨q, .unit :: outs, ?_⟩
  simp only [run, step, Outcome.bind_ok, this, h1, Outcome.pure_eq]

example : PQ.AllowedRun (⟨2, 1, []⟩ : PQ ℕ) ([Op.push 4 (1 / 2), .front].map toSpecOp) := by
  decide +kernel

/-- Reading the front of an empty configured queue is refused by a fatal check. -/
theorem C37_front_of_empty_aborts {T : Type} {n : ℕ} {mx : ℚ} (hn : 0 < n) :
    (mk' n mx : BQueue T).front = .fatal := by
  have : (n != 0) = true := by simp; omega
  simp [front, mk', Outcome.require, Outcome.check, empty, this]

example : (0 : ℕ) < 20 := by norm_num

/-- Zero buckets are refused on push and front. -/
theorem C37_zero_buckets_abort {T : Type} (mx v : ℚ) (k : T) :
    (mk' 0 mx : BQueue T).push k v = .fatal ∧ (mk' 0 mx : BQueue T).front = .fatal := by
  constructor <;> simp [push, front, mk', Outcome.require, Outcome.check]

/-- Outside the contract: using a queue that was only default-constructed reads uninitialised
members. -/
theorem C37_default_constructed_undefined {T : Type} (k : T) (v : ℚ) :
    (mkDefault : BQueue T).push k v = .ub ∧ (mkDefault : BQueue T).pop = .ub ∧
    (mkDefault : BQueue T).front = .ub ∧ (mkDefault : BQueue T).clear = .ub := by
  refine ⟨?_, ?_, ?_, ?_⟩ <;>
    simp [push, pop, front, clear, empty, mkDefault, Outcome.require]

/-- Outside the contract: a maximum of zero makes every push undefined (0/0 is converted to `int`). -/
theorem C37_zero_maximum_undefined {T : Type} {n : ℕ} (hn : 0 < n) (k : T) (v : ℚ) :
    (mk' n 0 : BQueue T).push k v = .ub := by
  have : (n != 0) = true := by simp; omega
  simp [push, mk', Outcome.require, Outcome.check, bucketIndex, this]

example : (0 : ℕ) < 1 := by norm_num

end Vox.Props
