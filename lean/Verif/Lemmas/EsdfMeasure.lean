/-
A measure for label propagation: every update lowers a voxel or leaves it below the voxel that causes the update.
-/
import Verif.Model.Basic
import Mathlib.Data.Finset.Card
import Mathlib.Data.DFinsupp.WellFounded

namespace Vox.Esdf

/-- How many voxels of `S` and entries of the queue have height `t`. -/
def cnt (S : Finset Idx) (h : Idx → ℕ) (q : List Idx) (t : ℕ) : ℕ := (S.filter fun g => h g = t).card + q.countP fun g => h g = t

theorem cnt_perm {S : Finset Idx} {h : Idx → ℕ} {q q' : List Idx} (p : q.Perm q') (t : ℕ) : cnt S h q t = cnt S h q' t := by
  unfold cnt
  rw [p.countP_eq]

theorem cnt_cons (S : Finset Idx) (h : Idx → ℕ) (q : List Idx) (n : Idx) (t : ℕ) :
    cnt S h (n :: q) t = cnt S h q t + if h n = t then 1 else 0 := by
  unfold cnt
  rw [List.countP_cons]
  by_cases e : h n = t <;> simp [e, add_assoc]

theorem update_eq_iff {h : Idx → ℕ} {n : Idx} {k t : ℕ} (h1 : t ≠ h n) (h2 : t ≠ k) (g : Idx) :
    Function.update h n k g = t ↔ h g = t := by
  by_cases e : g = n
  · subst e
    rw [Function.update_self]
    exact ⟨fun a => absurd a.symm h2, fun a => absurd a.symm h1⟩
  · rw [Function.update_of_ne e]

theorem cnt_update_other {S : Finset Idx} {h : Idx → ℕ} {q : List Idx} {n : Idx} {k t : ℕ} (h1 : t ≠ h n) (h2 : t ≠ k) :
    cnt S (Function.update h n k) q t = cnt S h q t := by
  unfold cnt
  simp only [update_eq_iff h1 h2]

theorem cnt_update_lt {S : Finset Idx} {h : Idx → ℕ} {q : List Idx} {n : Idx} {k : ℕ} (hn : n ∈ S) (hk : k ≠ h n) :
    cnt S (Function.update h n k) q (h n) < cnt S h q (h n) := by
  unfold cnt
  have imp : ∀ g, Function.update h n k g = h n → h g = h n := by
    intro g hg
    by_cases e : g = n
    · rw [e]
    · rwa [Function.update_of_ne e] at hg
  refine Nat.add_lt_add_of_lt_of_le ?_ ?_
  · refine Finset.card_lt_card ⟨?_, ?_⟩
    · intro g hg
      rw [Finset.mem_filter] at hg ⊢
      exact ⟨hg.1, imp g hg.2⟩
    · intro hs
      have := hs (Finset.mem_filter.2 ⟨hn, rfl⟩)
      rw [Finset.mem_filter, Function.update_self] at this
      exact hk this.2
  · refine List.countP_mono_left ?_
    intro g _ hg
    simp only [decide_eq_true_eq] at hg ⊢
    exact imp g hg

/-- Counts below the old ones from the top, strictly at some level from `x` on. -/
def Below (x : ℕ) (M c : ℕ → ℕ) : Prop := ∃ t, x ≤ t ∧ c t < M t ∧ ∀ s, t < s → c s = M s

theorem Below.congr {x : ℕ} {M c c' : ℕ → ℕ} (h : Below x M c) (e : ∀ t, c' t = c t) : Below x M c' := by
  obtain ⟨t, h1, h2, h3⟩ := h
  exact ⟨t, h1, by rw [e]; exact h2, fun s hs => by rw [e]; exact h3 s hs⟩

/-- Taking the entry `g` out of the queue. -/
theorem below_pop (S : Finset Idx) (h : Idx → ℕ) (q : List Idx) (g : Idx) : Below (h g) (cnt S h (g :: q)) (cnt S h q) := by
  refine ⟨h g, le_refl _, by rw [cnt_cons]; simp, ?_⟩
  intro s hs
  rw [cnt_cons, if_neg (by omega), add_zero]

/-- An update that lowers the voxel `n` or leaves it below level `x`. -/
theorem below_update {S : Finset Idx} {h : Idx → ℕ} {q : List Idx} {M : ℕ → ℕ} {x k : ℕ} {n : Idx} (hn : n ∈ S)
    (hb : Below x M (cnt S h q)) (hk : k < h n ∨ k < x) : Below x M (cnt S (Function.update h n k) q) := by
  obtain ⟨t, h1, h2, h3⟩ := hb
  by_cases hlt : k < h n
  · by_cases ht : t < h n
    · refine ⟨h n, by omega, ?_, ?_⟩
      · rw [← h3 _ ht]
        exact cnt_update_lt hn (by omega)
      · intro s hs
        rw [cnt_update_other (by omega) (by omega), h3 s (by omega)]
    · refine ⟨t, h1, ?_, ?_⟩
      · rcases Nat.lt_or_ge (h n) t with e | e
        · rw [cnt_update_other (by omega) (by omega)]; exact h2
        · have e : t = h n := by omega
          rw [e] at h2 ⊢
          exact lt_trans (cnt_update_lt hn (by omega)) h2
      · intro s hs
        rw [cnt_update_other (by omega) (by omega), h3 s hs]
  · refine ⟨t, h1, ?_, ?_⟩
    · rw [cnt_update_other (by omega) (by omega)]; exact h2
    · intro s hs
      rw [cnt_update_other (by omega) (by omega), h3 s hs]

/-- An update as before, with the voxel pushed to the queue. -/
theorem below_push {S : Finset Idx} {h : Idx → ℕ} {q : List Idx} {M : ℕ → ℕ} {x k : ℕ} {n : Idx} (hn : n ∈ S)
    (hb : Below x M (cnt S h q)) (hk : k < h n ∨ k < x) : Below x M (cnt S (Function.update h n k) (n :: q)) := by
  obtain ⟨t, h1, h2, h3⟩ := hb
  have e : ∀ s, k ≠ s → cnt S (Function.update h n k) (n :: q) s = cnt S (Function.update h n k) q s := by
    intro s hs
    rw [cnt_cons, Function.update_self, if_neg hs, add_zero]
  by_cases hlt : k < h n
  · by_cases ht : t < h n
    · refine ⟨h n, by omega, ?_, ?_⟩
      · rw [← h3 _ ht, e _ (by omega)]
        exact cnt_update_lt hn (by omega)
      · intro s hs
        rw [e _ (by omega), cnt_update_other (by omega) (by omega), h3 s (by omega)]
    · refine ⟨t, h1, ?_, ?_⟩
      · rw [e _ (by omega)]
        rcases Nat.lt_or_ge (h n) t with e | e
        · rw [cnt_update_other (by omega) (by omega)]; exact h2
        · have e : t = h n := by omega
          rw [e] at h2 ⊢
          exact lt_trans (cnt_update_lt hn (by omega)) h2
      · intro s hs
        rw [e _ (by omega), cnt_update_other (by omega) (by omega), h3 s hs]
  · refine ⟨t, h1, ?_, ?_⟩
    · rw [e _ (by omega), cnt_update_other (by omega) (by omega)]; exact h2
    · intro s hs
      rw [e _ (by omega), cnt_update_other (by omega) (by omega), h3 s hs]

/-- The order on counts up to a bound. -/
def CountLt (K : ℕ) : (Fin (K + 1) → ℕ) → (Fin (K + 1) → ℕ) → Prop := Pi.Lex (· > ·) (· < ·)

theorem countLt_wf (K : ℕ) : WellFounded (CountLt K) := Pi.Lex.wellFounded _ fun _ => Nat.lt_wfRel.wf

theorem below_countLt {K x : ℕ} {M c : ℕ → ℕ} (hM : ∀ t, K < t → M t = 0) (h : Below x M c) :
    CountLt K (fun i => c i) (fun i => M i) := by
  obtain ⟨t, -, h2, h3⟩ := h
  have ht : t < K + 1 := by
    by_contra hc
    rw [hM t (by omega)] at h2
    omega
  exact ⟨⟨t, ht⟩, fun j hj => h3 _ hj, h2⟩

end Vox.Esdf
