/-
Properties C38 and C39: the approximate hash set and array.
-/
import Verif.Lemmas.ApproxHash

namespace Vox.Props
open Vox Vox.ApproxHash

/-! ## C38 a reported hash was inserted since the last reset -/

/-- Under every interleaving of any number of threads, a hash reported as present was stored after the
last reset. Missing to the full claim: hash 0 after a partial reset, and the all-ones hash in a set with
a single bin (`m = 0`). The unrestricted claim is false, see `C38_zero_hash_violated`. -/
theorem C38_no_false_positive_partial {m thr : ℕ} {tr : List Ev} {s : HSet} {w : ℕ → Option ℕ}
    (h : Exec m thr tr s w) {k : ℕ} (hk : k ≠ 0 ∨ s.offset = 0) (hm : 0 < m ∨ k ≠ sizeMax)
    (hp : present m thr s k = .ok true) :
    ∃ t, Ev.store t k ∈ tr.takeWhile (· != .reset) := by
  rw [present_eq h k] at hp
  simp only [Outcome.ok.injEq, beq_iff_eq] at hp
  rcases slots_ok h (slotOf m s k) with h1 | ⟨j, h1, h2, h3⟩
  · rw [h1] at hp
    unfold clearedSlots at hp
    split at hp
    · rename_i hz
      exfalso
      unfold slotOf at hz
      have h0 : k % 2 ^ m = 0 := by rw [← and_mask]; omega
      rw [← hp] at h0 hm
      rcases hm with hm | hm
      · have : (2 : ℕ) ∣ sizeMax :=
          (dvd_pow_self 2 (Nat.pos_iff_ne_zero.1 hm)).trans (Nat.dvd_of_mod_eq_zero h0)
        revert this; decide
      · exact hm rfl
    · rename_i hz
      exfalso
      unfold slotOf at hz
      rcases hk with hk | hk
      · exact hk hp.symm
      · apply hz
        rw [hk, ← hp, Nat.zero_and]
  · rw [hp] at h2 h3
    unfold slotOf at h2
    obtain ⟨t, ht⟩ := h3 (by omega)
    exact ⟨t, ht⟩

/-- An execution with two threads racing to insert into the same bin after a partial reset. -/
def raceTrace : List Ev :=
  [.query 6 false, .query 2 true, .store 1 2, .store 2 6, .load 2 6 false, .load 1 2 false, .reset,
   .query 2 true, .store 1 2, .load 1 2 false]

theorem raceTrace_exec : ∃ s w, Exec 2 3 raceTrace s w := by
  refine ⟨_, _, .query 6 false (.query 2 true (.store 1 2 (.store 2 6 (.loadMiss 2 6
    (.loadMiss 1 2 (.reset (.query 2 true (.store 1 2 (.loadMiss 1 2 .init rfl rfl) rfl rfl) rfl)
      ?_) rfl rfl) rfl rfl) rfl rfl) rfl rfl) rfl) rfl⟩
  intro t
  by_cases ht : t = 1 <;> simp [ht]

example : ∃ s w, Exec 2 3 raceTrace s w ∧ present 2 3 s 2 = .ok true ∧ (2 ≠ 0 ∨ s.offset = 0) := by
  obtain ⟨s, w, h⟩ := raceTrace_exec
  refine ⟨s, w, h, ?_, Or.inl (by decide)⟩
  cases h with
  | query _ _ h1 _ =>
    cases h1 with
    | query _ _ _ h2 => exact h2

/-- With a full reset every time (`full_reset_threshold ≤ 1`) there is no exception for hash 0. -/
theorem C38_full_resets_only {m thr : ℕ} (hthr : thr ≤ 1) (hm : 0 < m) {tr : List Ev} {s : HSet}
    {w : ℕ → Option ℕ} (h : Exec m thr tr s w) {k : ℕ} (hp : present m thr s k = .ok true) :
    ∃ t, Ev.store t k ∈ tr.takeWhile (· != .reset) := by
  refine C38_no_false_positive_partial h (Or.inr ?_) (Or.inl hm) hp
  clear hp
  induction h with
  | init => rfl
  | query => assumption
  | loadHit => assumption
  | loadMiss => assumption
  | store t k he hw hs ih =>
    rw [store_eq he k, Outcome.ok.injEq] at hs
    subst hs; exact ih
  | reset _ _ ih => simp [ApproxHash.reset, ih, hthr]

example : ∃ s w, Exec 4 1 [.query 0 true, .store 1 0, .load 1 0 false, .reset] s w ∧
    present 4 1 s 0 = .ok true :=
  ⟨_, _, .query 0 true (.store 1 0 (.loadMiss 1 0 (.reset .init (fun _ => rfl)) rfl rfl) rfl rfl) rfl,
    rfl⟩

/-- The claim is false: after a partial reset of a set into which nothing was ever inserted, hash 0 —
the hash of the voxel at the origin — is reported as present, whatever the table size. -/
theorem C38_zero_hash_violated {m thr : ℕ} (hthr : 2 ≤ thr) :
    ∃ s w, Exec m thr [.reset] s w ∧
      present m thr s (longIndexHash ⟨0, 0, 0⟩) = .ok true ∧
      replaceHash m thr s (longIndexHash ⟨0, 0, 0⟩) = .ok (s, false) := by
  have he : Exec m thr [.reset] (reset thr init) (fun _ => none) := .reset .init (fun _ => rfl)
  have hz : longIndexHash ⟨0, 0, 0⟩ = 0 := by decide +kernel
  have hp : present m thr (reset thr init) (longIndexHash ⟨0, 0, 0⟩) = .ok true := by
    rw [present_eq he, hz]
    have h2 : ¬ thr ≤ 1 := by omega
    simp [reset, init, h2, slotOf, clearedSlots]
  refine ⟨_, _, he, hp, ?_⟩
  unfold replaceHash
  rw [hp]
  rfl

/-- The sizes used by the fast integrator (voxblox/integrator/tsdf_integrator.h: 20 bits, 10000). -/
example : 2 ≤ 10000 := by norm_num

/-- The second exception is real too: in a set with a single bin the all-ones hash is reported as
present before anything was inserted. -/
theorem C38_single_bin_violated : present 0 1 init sizeMax = .ok true := by decide +kernel

/-! ## C39 accesses stay in the table; the last writer of a bin wins -/

/-- No access is out of range, whatever the interleaving: every query answers and every store
succeeds. -/
theorem C39_never_out_of_range {m thr : ℕ} {tr : List Ev} {s : HSet} {w : ℕ → Option ℕ}
    (h : Exec m thr tr s w) (k : ℕ) :
    (∃ b, present m thr s k = .ok b) ∧ (∃ s', ApproxHash.store m thr s k = .ok s') :=
  ⟨⟨_, present_eq h k⟩, ⟨_, store_eq h k⟩⟩

example : ∃ s w, Exec 2 3 raceTrace s w := raceTrace_exec

/-- After a completed insertion of `k` (its store, or a load that already found it) the query for `k`
answers true until a conflicting hash is stored or the set is reset. -/
theorem C39_present_after_insert {m thr : ℕ} {tr tr' : List Ev} {e : Ev} {k : ℕ} {s : HSet}
    {w : ℕ → Option ℕ} (h : Exec m thr (tr' ++ e :: tr) s w)
    (hd : (∃ t, e = .store t k) ∨ (∃ t, e = .load t k true)) (hno : Ev.reset ∉ tr')
    (hst : ∀ t k', Ev.store t k' ∈ tr' → k' % 2 ^ m = k % 2 ^ m → k' = k) :
    present m thr s k = .ok true := by
  rw [present_eq h k, stays tr' (e :: tr) h ?_ hno hst]
  · simp
  · intro s w he
    rcases hd with ⟨t, rfl⟩ | ⟨t, rfl⟩
    · cases he with
      | store _ _ he hw hs =>
        rw [store_eq he k, Outcome.ok.injEq] at hs
        subst hs
        simp [slotOf]
    · cases he with
      | loadHit _ _ he hw hp =>
        rw [present_eq he k] at hp
        simpa using hp

example : ∃ s w, Exec 2 3 ([.query 2 true] ++ .store 1 2 ::
    [.store 2 6, .load 2 6 false, .load 1 2 false, .reset, .query 2 true, .store 1 2,
      .load 1 2 false]) s w := by
  obtain ⟨s, w, h⟩ := raceTrace_exec
  cases h with
  | query _ _ h1 _ => exact ⟨_, _, h1⟩

/-- Uninterrupted, `replaceHash` returns true exactly when the query would have answered false, and
afterwards the query answers true. -/
theorem C39_replace_then_present {m thr : ℕ} {tr : List Ev} {s : HSet} {w : ℕ → Option ℕ}
    (h : Exec m thr tr s w) (hw : ∀ t, w t = none) (k : ℕ) :
    ∃ s' b, replaceHash m thr s k = .ok (s', b) ∧ present m thr s k = .ok (!b) ∧
      present m thr s' k = .ok true := by
  unfold replaceHash
  cases hb : (s.slots (slotOf m s k) == k) with
  | true =>
    have hp := present_eq h k
    rw [hb] at hp
    refine ⟨s, false, ?_, hp, hp⟩
    rw [hp]; rfl
  | false =>
    have hp := present_eq h k
    rw [hb] at hp
    have he : Exec m thr _ _ _ := .store 0 k (.loadMiss 0 k h (hw 0) hp) (by simp) (store_eq h k)
    refine ⟨{ s with slots := fun j => if j = slotOf m s k then k else s.slots j }, true, ?_, hp, ?_⟩
    · rw [hp]
      simp only [Outcome.bind_ok, Bool.false_eq_true, if_false, store_eq h k, Outcome.pure_eq]
    · exact C39_present_after_insert (tr' := []) he (Or.inl ⟨0, rfl⟩) (by simp) (by simp)

example : ∃ s w, Exec 2 3 [.reset] s w ∧ ∀ t, w t = none :=
  ⟨_, _, .reset .init (fun _ => rfl), fun _ => rfl⟩

/-- The hash array: every hash addresses an existing element, two hashes share an element iff their
masked values agree. -/
theorem C39_array_slot (m : ℕ) (h h' : ℕ) :
    ∃ i i', arrayGet m h = .ok i ∧ arrayGet m h' = .ok i' ∧ i < 2 ^ m ∧
      (i = i' ↔ h % 2 ^ m = h' % 2 ^ m) := by
  have key : ∀ h, arrayGet m h = .ok (h % 2 ^ m) := by
    intro h
    unfold arrayGet arraySize
    simp [Outcome.require, and_mask, Nat.mod_lt, Nat.one_shiftLeft]
  exact ⟨_, _, key h, key h', Nat.mod_lt _ (by positivity), Iff.rfl⟩

/-- The hash of an index fits 32 bits, so it is never the reserved value. -/
theorem C39_index_hash_range (i : Idx) : longIndexHash i < 2 ^ 32 ∧ longIndexHash i ≠ sizeMax := by
  have h : longIndexHash i < 2 ^ 32 := by
    unfold longIndexHash
    omega
  refine ⟨h, ?_⟩
  unfold sizeMax
  omega

/-- **C39**, separation: two different indices that are at most 8595 apart along x and y and 14 apart along z have different hashes, for both
hashes of indices. -/
theorem C39_hash_separates {i j : Idx} (hx : |i.x - j.x| ≤ 8595) (hy : |i.y - j.y| ≤ 8595) (hz : |i.z - j.z| ≤ 14) (hne : i ≠ j) :
    longIndexHash i ≠ longIndexHash j ∧ anyIndexHash i ≠ anyIndexHash j := by
  have hx := abs_le.1 hx
  have hy := abs_le.1 hy
  have hz := abs_le.1 hz
  have key : (i.x + i.y * 17191 + i.z * (17191 * 17191)) % 2 ^ 32 ≠ (j.x + j.y * 17191 + j.z * (17191 * 17191)) % 2 ^ 32 := by
    intro h
    apply hne
    obtain ⟨k, hk⟩ : ∃ k : ℤ, (i.x - j.x) + (i.y - j.y) * 17191 + (i.z - j.z) * (17191 * 17191) = 2 ^ 32 * k :=
      ⟨(i.x + i.y * 17191 + i.z * (17191 * 17191)) / 2 ^ 32 - (j.x + j.y * 17191 + j.z * (17191 * 17191)) / 2 ^ 32, by omega⟩
    have k0 : k = 0 := by omega
    have a : i.x = j.x := by
      have : (i.x - j.x) + 17191 * ((i.y - j.y) + (i.z - j.z) * 17191) = 0 := by rw [k0] at hk; linarith
      omega
    have b : i.y = j.y := by omega
    have c : i.z = j.z := by omega
    cases i; cases j
    simp_all
  unfold longIndexHash anyIndexHash
  omega

example : (⟨3, -2, 5⟩ : Idx) ≠ ⟨-8000, 8500, -9⟩ ∧ longIndexHash ⟨3, -2, 5⟩ = 1477618026 ∧ anyIndexHash ⟨-8000, 8500, -9⟩ = 1781308467 := by decide +kernel

/-- Indices further apart may share their hash: these two are one apart along y and 17191 along x. -/
theorem C39_hash_collides (i : Idx) : longIndexHash ⟨i.x + 17191, i.y, i.z⟩ = longIndexHash ⟨i.x, i.y + 1, i.z⟩ ∧
    anyIndexHash ⟨i.x + 17191, i.y, i.z⟩ = anyIndexHash ⟨i.x, i.y + 1, i.z⟩ := by
  unfold longIndexHash anyIndexHash
  constructor <;> · dsimp only; congr 1; omega

end Vox.Props
