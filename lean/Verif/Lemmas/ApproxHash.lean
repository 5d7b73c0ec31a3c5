/-
Helper lemmas about the approximate hash set.
-/
import Verif.Model.ApproxHash
import Mathlib.Tactic.Ring
import Mathlib.Tactic.Linarith

namespace Vox.ApproxHash

theorem and_mask (m h : ℕ) : h &&& bitMask m = h % 2 ^ m := by
  rw [bitMask, Nat.one_shiftLeft, Nat.and_two_pow_sub_one_eq_mod]

theorem mask_lt (m h : ℕ) : h &&& bitMask m < 2 ^ m := by
  rw [and_mask]; exact Nat.mod_lt _ (by positivity)

/-- The events after the last reset (most recent first). -/
def sinceReset (tr : List Ev) : List Ev := tr.takeWhile (· != .reset)

theorem offset_le {m thr : ℕ} {tr s w} (h : Exec m thr tr s w) : s.offset ≤ thr := by
  induction h with
  | init => simp [init]
  | query => assumption
  | loadHit => assumption
  | loadMiss => assumption
  | store t h _ _ hs ih =>
    unfold store at hs
    simp only [Outcome.require] at hs
    split at hs
    · simp only [Outcome.bind_ok, Outcome.pure_eq, Outcome.ok.injEq] at hs
      subst hs; exact ih
    · simp at hs
  | reset _ _ ih =>
    unfold reset
    split
    · simp
    · simp only; omega

theorem slot_lt {m thr : ℕ} {tr s w} (h : Exec m thr tr s w) (k : ℕ) :
    slotOf m s k < setSize m thr := by
  have h1 := offset_le h
  have h2 := mask_lt m k
  unfold slotOf setSize
  rw [Nat.one_shiftLeft]
  omega

theorem present_eq {m thr : ℕ} {tr s w} (h : Exec m thr tr s w) (k : ℕ) :
    present m thr s k = .ok (s.slots (slotOf m s k) == k) := by
  unfold present
  simp [Outcome.require, slot_lt h k]

theorem store_eq {m thr : ℕ} {tr s w} (h : Exec m thr tr s w) (k : ℕ) :
    store m thr s k =
      .ok { s with slots := fun j => if j = slotOf m s k then k else s.slots j } := by
  unfold store
  simp [Outcome.require, slot_lt h k]

/-- What a slot can contain. -/
def SlotOk (m : ℕ) (tr : List Ev) (s : HSet) (i : ℕ) : Prop :=
  s.slots i = clearedSlots i ∨
  ∃ j, j ≤ s.offset ∧ (s.slots i &&& bitMask m) + j = i ∧
    (j = s.offset → ∃ t, Ev.store t (s.slots i) ∈ sinceReset tr)

theorem slots_ok {m thr : ℕ} {tr s w} (h : Exec m thr tr s w) (i : ℕ) : SlotOk m tr s i := by
  induction h with
  | init => exact Or.inl rfl
  | @query tr s w k b _ _ ih =>
    rcases ih with h | ⟨j, h1, h2, h3⟩
    · exact Or.inl h
    · exact Or.inr ⟨j, h1, h2, fun e => (h3 e).imp fun t ht => by
        simp only [sinceReset, List.takeWhile_cons]; exact List.mem_cons_of_mem _ ht⟩
  | @loadHit tr s w t k _ _ _ ih =>
    rcases ih with h | ⟨j, h1, h2, h3⟩
    · exact Or.inl h
    · exact Or.inr ⟨j, h1, h2, fun e => (h3 e).imp fun t ht => by
        simp only [sinceReset, List.takeWhile_cons]; exact List.mem_cons_of_mem _ ht⟩
  | @loadMiss tr s w t k _ _ _ ih =>
    rcases ih with h | ⟨j, h1, h2, h3⟩
    · exact Or.inl h
    · exact Or.inr ⟨j, h1, h2, fun e => (h3 e).imp fun t ht => by
        simp only [sinceReset, List.takeWhile_cons]; exact List.mem_cons_of_mem _ ht⟩
  | @store tr s w s' t k he hw hs ih =>
    rw [store_eq he k, Outcome.ok.injEq] at hs
    subst hs
    by_cases hi : i = slotOf m s k
    · refine Or.inr ⟨s.offset, le_rfl, ?_, ?_⟩
      · simp only [hi, if_true]; rfl
      · intro _
        refine ⟨t, ?_⟩
        simp only [hi, if_true, sinceReset, List.takeWhile_cons]
        exact List.mem_cons_self ..
    · rcases ih with h | ⟨j, h1, h2, h3⟩
      · exact Or.inl (by simp only [hi, if_false]; exact h)
      · refine Or.inr ⟨j, h1, ?_, ?_⟩
        · simp only [hi, if_false]; exact h2
        · intro e
          simp only [hi, if_false]
          exact (h3 e).imp fun t ht => by
            simp only [sinceReset, List.takeWhile_cons]; exact List.mem_cons_of_mem _ ht
  | @reset tr s w he hw ih =>
    unfold ApproxHash.reset
    split
    · exact Or.inl rfl
    · rcases ih with h | ⟨j, h1, h2, _⟩
      · exact Or.inl h
      · exact Or.inr ⟨j, by simp only; omega, h2, by simp only; omega⟩

/-- A hash found in its slot stays there while no conflicting store and no reset happens. -/
theorem stays {m thr : ℕ} {k : ℕ} (tr' tr : List Ev) {s w}
    (h : Exec m thr (tr' ++ tr) s w)
    (base : ∀ s w, Exec m thr tr s w → s.slots (slotOf m s k) = k)
    (hno : Ev.reset ∉ tr')
    (hst : ∀ t k', Ev.store t k' ∈ tr' → k' % 2 ^ m = k % 2 ^ m → k' = k) :
    s.slots (slotOf m s k) = k := by
  induction tr' generalizing s w with
  | nil => exact base _ _ h
  | cons e tr' ih =>
    simp only [List.mem_cons, not_or] at hno
    have hst' : ∀ t k', Ev.store t k' ∈ tr' → k' % 2 ^ m = k % 2 ^ m → k' = k :=
      fun t k' hm => hst t k' (List.mem_cons_of_mem _ hm)
    cases h with
    | query k' b he _ => exact ih he hno.2 hst'
    | loadHit t k' he _ _ => exact ih he hno.2 hst'
    | loadMiss t k' he _ _ => exact ih he hno.2 hst'
    | store t k' he hw hs =>
      have := ih he hno.2 hst'
      rw [store_eq he k', Outcome.ok.injEq] at hs
      subst hs
      change (if slotOf m _ k = slotOf m _ k' then k' else _) = k
      split
      · rename_i hc
        unfold slotOf at hc
        have hc' : (k &&& bitMask m) = (k' &&& bitMask m) := by simp only at hc; omega
        rw [and_mask, and_mask] at hc'
        exact hst t k' (List.mem_cons_self ..) hc'.symm
      · exact this
    | reset he _ => exact absurd rfl hno.1

end Vox.ApproxHash
