/-
Property C32: concurrent allocation of blocks.
-/
import Verif.Lemmas.Alloc
import Mathlib.Data.List.Nodup

namespace Vox.Props
open Vox Vox.Alloc

/-- Under every interleaving, all workers asking for the same block index get the same block. -/
theorem C32_same_index_same_block {layer : List (Idx × Ptr)} {next : Ptr} {junk : ℕ → Idx}
    {s : AState} (h : AReach layer next junk s) {t t' : ℕ} {b : Idx} {p p' : Ptr}
    (ha : (t, b, p) ∈ s.answers) (ha' : (t', b, p') ∈ s.answers) : p = p' := by
  have hi := ainv_reach h
  have h1 := hi.answers _ ha
  have h2 := hi.answers _ ha'
  simp only at h1 h2
  rw [h1] at h2
  exact Option.some.inj h2

/-- Different block indices get different blocks (if that was so in the map before). -/
theorem C32_different_index_different_block {layer : List (Idx × Ptr)} {next : Ptr} {junk : ℕ → Idx}
    (hold : ∀ e ∈ layer, e.2 < next) (hinj : ∀ e ∈ layer, ∀ e' ∈ layer, e.2 = e'.2 → e.1 = e'.1)
    {s : AState} (h : AReach layer next junk s) {t t' : ℕ} {b b' : Idx} {p : Ptr}
    (ha : (t, b, p) ∈ s.answers) (ha' : (t', b', p) ∈ s.answers) : b = b' := by
  have hi := ainv_reach h
  have h1 := hi.answers _ ha
  have h2 := hi.answers _ ha'
  simp only [resolve, hi.layer] at h1 h2
  cases hb : layer.lookup b with
  | some q =>
    simp only [hb, Option.some.injEq] at h1
    cases hb' : layer.lookup b' with
    | some q' =>
      simp only [hb', Option.some.injEq] at h2
      exact hinj _ (lookup_mem hb) _ (lookup_mem hb') (h1.trans h2.symm)
    | none =>
      simp only [hb'] at h2
      have m1 : q < next := hold _ (lookup_mem hb)
      have m2 : next ≤ p := (hi.tempNew _ (lookup_mem h2)).2.1
      rw [h1] at m1
      exact absurd m1 (Nat.not_lt.2 m2)
  | none =>
    simp only [hb] at h1
    cases hb' : layer.lookup b' with
    | some q' =>
      simp only [hb', Option.some.injEq] at h2
      have m1 : q' < next := hold _ (lookup_mem hb')
      have m2 : next ≤ p := (hi.tempNew _ (lookup_mem h1)).2.1
      rw [h2] at m1
      exact absurd m1 (Nat.not_lt.2 m2)
    | none =>
      simp only [hb'] at h2
      have := List.inj_on_of_nodup_map hi.tempPtrs (lookup_mem h1) (lookup_mem h2) rfl
      exact (Prod.mk.inj this).1

/-- A block that is in the map is the one handed out; the map itself is not touched before the merge
step. -/
theorem C32_map_blocks_kept {layer : List (Idx × Ptr)} {next : Ptr} {junk : ℕ → Idx}
    {s : AState} (h : AReach layer next junk s) :
    s.layer = layer ∧ ∀ {t b p q}, (t, b, p) ∈ s.answers → layer.lookup b = some q → p = q := by
  have hi := ainv_reach h
  refine ⟨hi.layer, ?_⟩
  intro t b p q ha hq
  have := hi.answers _ ha
  simp only [resolve, hi.layer, hq] at this
  exact (Option.some.inj this).symm

/-- The final merge step never aborts, keeps the old blocks and adds exactly one block per requested new
index: the block that all workers asking for it have written to. -/
theorem C32_merge_result {layer : List (Idx × Ptr)} {next : Ptr} {junk : ℕ → Idx}
    {s : AState} (h : AReach layer next junk s) :
    ∃ s', updateLayerWithStoredBlocks s = .ok s' ∧ s'.temp = [] ∧
      ∀ b p, s'.layer.lookup b = some p ↔
        (layer.lookup b = some p ∨ (layer.lookup b = none ∧ ∃ t, (t, b, p) ∈ s.answers)) := by
  have hi := ainv_reach h
  obtain ⟨l, h1, h2⟩ := insertAll_ok s.temp s.layer hi.tempKeys
    (fun e he => by rw [hi.layer]; exact (hi.tempNew e he).1)
  refine ⟨{ s with layer := l, temp := [] }, ?_, rfl, ?_⟩
  · simp only [updateLayerWithStoredBlocks, h1, Outcome.bind_ok, Outcome.pure_eq]
  · intro b p
    simp only [h2, hi.layer]
    cases hl : layer.lookup b with
    | some q => simp
    | none =>
      simp only [true_and, reduceCtorEq, false_or]
      constructor
      · intro ht
        exact hi.tempAsked (b, p) (lookup_mem ht)
      · rintro ⟨t, ht⟩
        have := hi.answers _ ht
        simpa only [resolve, hi.layer, hl] using this

/-- A worker waiting for the mutex can always go on. -/
theorem C32_no_deadlock (s : AState) {t : ℕ} {b : Idx} (h : s.pc t = .wantLock b) :
    ∃ s', AStep s s' ∧ s'.pc t = .idle := by
  cases hl : s.temp.lookup b with
  | some p => exact ⟨_, .found t b p h hl, by simp⟩
  | none => exact ⟨_, .create t b h hl, by simp⟩

/-- Two workers race for the same new block `(1,0,0)` of a map that holds block `(0,0,0)`. -/
example : ∃ s, AReach [(⟨0, 0, 0⟩, 0)] 1 (fun _ => ⟨9, 9, 9⟩) s ∧
    (2, ⟨1, 0, 0⟩, 1) ∈ s.answers ∧ (1, ⟨1, 0, 0⟩, 1) ∈ s.answers ∧ (1, ⟨0, 0, 0⟩, 0) ∈ s.answers ∧
    (∀ e ∈ ([(⟨0, 0, 0⟩, 0)] : List (Idx × Ptr)), e.2 < 1) := by
  have r : AReach [(⟨0, 0, 0⟩, 0)] 1 (fun _ => ⟨9, 9, 9⟩) _ :=
    .step (.step (.step (.step (.step (.step .init
      (.inLayer 1 ⟨0, 0, 0⟩ 0 rfl (Or.inr rfl) rfl))
      (.miss 1 ⟨1, 0, 0⟩ rfl (Or.inl (by decide)) rfl))
      (.miss 2 ⟨1, 0, 0⟩ rfl (Or.inr rfl) rfl))
      (.create 1 ⟨1, 0, 0⟩ rfl rfl))
      (.found 2 ⟨1, 0, 0⟩ 1 rfl rfl))
      (.cached 2 ⟨1, 0, 0⟩ 1 rfl rfl)
  refine ⟨_, r, ?_, ?_, ?_, ?_⟩ <;> decide

end Vox.Props
