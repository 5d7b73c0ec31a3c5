/-
Timers.
-/
import Verif.Model.Timing
import Verif.Spec.Timing
import Mathlib.Algebra.BigOperators.Group.List.Lemmas
import Mathlib.Data.List.GetD
import Mathlib.Tactic.Ring
import Mathlib.Tactic.Linarith
import Mathlib.Tactic.FieldSimp

namespace Vox.Timing

open TimingSpec

/-- Adding samples one by one. -/
def addAll (A : Arith) (n : ℕ) (a : Acc) (ss : List Fl) : Outcome Acc := ss.foldlM (fun a s => a.add A n s) a

/-- The accumulator after exact samples. -/
structure After (n : ℕ) (ss : List ℚ) (a : Acc) : Prop where
  window : a.windowSamples = ss.length
  total : a.totalSamples = ss.length
  sum : a.sum = .fin ss.sum
  windowSum : a.windowSum = .fin (latest n ss).sum
  min : ∃ m, a.min = .fin m ∧ (m = dblMax ∨ m ∈ ss) ∧ m ≤ dblMax ∧ ∀ s ∈ ss, m ≤ s
  max : ∃ m, a.max = .fin m ∧ (m = dblMin ∨ m ∈ ss) ∧ dblMin ≤ m ∧ ∀ s ∈ ss, s ≤ m
  length : a.samples.length = Min.min ss.length n
  cells : ∀ k, k < ss.length → ss.length ≤ k + n → a.samples[k % n]? = ss[k]?.map Fl.fin
  perm : a.samples.Perm ((latest n ss).map Fl.fin)

theorem after_new (n : ℕ) : After n [] Acc.new := by
  refine ⟨rfl, rfl, rfl, ?_, ⟨_, rfl, Or.inl rfl, le_refl _, by simp⟩, ⟨_, rfl, Or.inl rfl, le_refl _, by simp⟩, by simp [Acc.new], by simp, by simp [Acc.new, latest]⟩
  simp [latest, Acc.new]

theorem latest_short {n : ℕ} {ss : List ℚ} (h : ss.length ≤ n) : latest n ss = ss := by
  unfold latest
  rw [Nat.sub_eq_zero_of_le h, List.drop_zero]

theorem latest_snoc {n : ℕ} {ss : List ℚ} (h : n ≤ ss.length) (hn : 0 < n) (s : ℚ) :
    ∃ (hk : ss.length - n < ss.length) (W : List ℚ), latest n ss = ss[ss.length - n] :: W ∧ latest n (ss ++ [s]) = W ++ [s] := by
  have hk : ss.length - n < ss.length := by omega
  refine ⟨hk, ss.drop (ss.length - n + 1), ?_, ?_⟩
  · unfold latest
    exact List.drop_eq_getElem_cons hk
  · unfold latest
    rw [List.length_append, List.length_singleton, List.drop_append_of_le_length (by omega)]
    congr 2
    omega

theorem after_add {n : ℕ} (hn : 0 < n) (sq : ℚ → Fl) {ss : List ℚ} {a : Acc} (h : After n ss a) (s : ℚ) (hl : ss.length + 1 < 2 ^ 31) :
    ∃ b, a.add (Arith.exact sq) n (.fin s) = .ok b ∧ After n (ss ++ [s]) b := by
  refine ⟨_, if_pos ⟨by rw [h.window]; exact hl, by rw [h.total]; exact hl⟩, ?_⟩
  have hmin : ∃ m, (if Fl.lt (.fin s) a.min then .fin s else a.min) = .fin m ∧ (m = dblMax ∨ m ∈ ss ++ [s]) ∧ m ≤ dblMax ∧ ∀ x ∈ ss ++ [s], m ≤ x := by
    obtain ⟨m, e, h1, h2, h3⟩ := h.min
    rw [e]
    by_cases hs : s < m
    · refine ⟨s, if_pos (by simpa [Fl.lt] using hs), Or.inr (by simp), by linarith, ?_⟩
      intro x hx
      rcases List.mem_append.1 hx with hx | hx
      · have := h3 x hx; linarith
      · rw [List.mem_singleton.1 hx]
    · refine ⟨m, if_neg (by simpa [Fl.lt] using hs), h1.imp id (fun h => List.mem_append_left _ h), h2, ?_⟩
      intro x hx
      rcases List.mem_append.1 hx with hx | hx
      · exact h3 x hx
      · rw [List.mem_singleton.1 hx]; exact not_lt.1 hs
  have hmax : ∃ m, (if Fl.lt a.max (.fin s) then .fin s else a.max) = .fin m ∧ (m = dblMin ∨ m ∈ ss ++ [s]) ∧ dblMin ≤ m ∧ ∀ x ∈ ss ++ [s], x ≤ m := by
    obtain ⟨m, e, h1, h2, h3⟩ := h.max
    rw [e]
    by_cases hs : m < s
    · refine ⟨s, if_pos (by simpa [Fl.lt] using hs), Or.inr (by simp), by linarith, ?_⟩
      intro x hx
      rcases List.mem_append.1 hx with hx | hx
      · have := h3 x hx; linarith
      · rw [List.mem_singleton.1 hx]
    · refine ⟨m, if_neg (by simpa [Fl.lt] using hs), h1.imp id (fun h => List.mem_append_left _ h), h2, ?_⟩
      intro x hx
      rcases List.mem_append.1 hx with hx | hx
      · exact h3 x hx
      · rw [List.mem_singleton.1 hx]; exact not_lt.1 hs
  have hsum : (Arith.exact sq).add a.sum (.fin s) = .fin (ss ++ [s]).sum := by
    rw [h.sum, List.sum_append, List.sum_singleton]
    rfl
  have hlen := h.length
  unfold Acc.window
  rw [h.window]
  by_cases hw : ss.length < n
  · rw [if_pos hw]
    have e1 := latest_short (ss := ss) (n := n) hw.le
    have e2 := latest_short (ss := ss ++ [s]) (n := n) (by simp; omega)
    refine ⟨by simp, by simp [h.total], hsum, ?_, hmin, hmax, ?_, ?_, ?_⟩
    · show (Arith.exact sq).add a.windowSum (.fin s) = _
      rw [h.windowSum, e1, e2, List.sum_append, List.sum_singleton]
      rfl
    · show (a.samples ++ [Fl.fin s]).length = _
      simp only [List.length_append, List.length_singleton]
      omega
    · intro k hk hkn
      show (a.samples ++ [Fl.fin s])[k % n]? = _
      simp only [List.length_append, List.length_singleton] at hk hkn
      have hkn' : k % n = k := Nat.mod_eq_of_lt (by omega)
      rw [hkn']
      by_cases hkl : k < ss.length
      · rw [List.getElem?_append_left (by omega), List.getElem?_append_left hkl]
        have := h.cells k hkl (by omega)
        rwa [hkn'] at this
      · have : k = ss.length := by omega
        subst this
        have hl' : a.samples.length = ss.length := by omega
        rw [List.getElem?_append_right (by omega), List.getElem?_append_right (by omega), hl', Nat.sub_self]
        rfl
    · show (a.samples ++ [Fl.fin s]).Perm _
      rw [e2, List.map_append]
      have := h.perm
      rw [e1] at this
      exact this.append_right _
  · rw [if_neg hw]
    obtain ⟨hk, W, w1, w2⟩ := latest_snoc (ss := ss) (n := n) (by omega) hn s
    have hmod : (ss.length - n) % n = ss.length % n := by
      conv_rhs => rw [show ss.length = ss.length - n + n from by omega, Nat.add_mod_right]
    have hold := h.cells (ss.length - n) hk (by omega)
    rw [hmod, List.getElem?_eq_getElem hk, Option.map_some] at hold
    have hi : ss.length % n < a.samples.length := by
      have := Nat.mod_lt ss.length hn
      omega
    have hget : a.samples[ss.length % n] = .fin ss[ss.length - n] := by
      rw [List.getElem?_eq_getElem hi] at hold
      exact Option.some.inj hold
    refine ⟨by simp, by simp [h.total], hsum, ?_, hmin, hmax, ?_, ?_, ?_⟩
    · show (Arith.exact sq).add a.windowSum ((Arith.exact sq).sub (.fin s) (a.samples.getD (ss.length % n) .nan)) = _
      rw [List.getD_eq_getElem _ _ hi, hget, h.windowSum, w1, w2, List.sum_append, List.sum_singleton, List.sum_cons]
      show Fl.fin _ = .fin _
      congr 1
      ring
    · show (a.samples.set _ _).length = _
      rw [List.length_set, List.length_append, List.length_singleton]
      omega
    · intro k hk1 hkn
      show (a.samples.set (ss.length % n) (Fl.fin s))[k % n]? = _
      simp only [List.length_append, List.length_singleton] at hk1 hkn
      by_cases hkl : k < ss.length
      · have hne : ss.length % n ≠ k % n := by
          intro e
          have h1 : (ss.length - k) % n = 0 := Nat.sub_mod_eq_zero_of_mod_eq e
          rw [Nat.mod_eq_of_lt (by omega)] at h1
          omega
        rw [List.getElem?_set_ne hne, List.getElem?_append_left hkl]
        exact h.cells k hkl (by omega)
      · have : k = ss.length := by omega
        subst this
        rw [List.getElem?_set_self hi, List.getElem?_append_right (by omega), Nat.sub_self]
        rfl
    · show (a.samples.set (ss.length % n) (Fl.fin s)).Perm _
      have hp := h.perm
      rw [w1, List.map_cons] at hp
      have h1 : (Fl.fin ss[ss.length - n] :: a.samples.eraseIdx (ss.length % n)).Perm a.samples := by
        rw [← hget]
        exact List.getElem_cons_eraseIdx_perm hi
      have h2 := (h1.trans hp).cons_inv
      have h3 := List.set_perm_cons_eraseIdx hi (Fl.fin s)
      rw [w2, List.map_append]
      exact h3.trans ((h2.cons _).trans (List.perm_append_singleton _ _).symm)

theorem after_all {n : ℕ} (hn : 0 < n) (sq : ℚ → Fl) (ss : List ℚ) (hl : ss.length < 2 ^ 31) :
    ∃ a, addAll (Arith.exact sq) n Acc.new (ss.map Fl.fin) = .ok a ∧ After n ss a := by
  induction ss using List.reverseRecOn with
  | nil => exact ⟨Acc.new, rfl, after_new n⟩
  | append_singleton ss s ih =>
    rw [List.length_append, List.length_singleton] at hl
    obtain ⟨a, e, h⟩ := ih (by omega)
    obtain ⟨b, e', h'⟩ := after_add hn sq h s hl
    refine ⟨b, ?_, h'⟩
    unfold addAll at e ⊢
    rw [List.map_append, List.foldlM_append, e, Outcome.bind_ok]
    show (a.add (Arith.exact sq) n (.fin s) >>= fun b => pure b) = _
    rw [e']
    rfl

theorem foldl_exact (sq : ℚ → Fl) (m : ℚ) (L : List ℚ) : ∀ v : ℚ,
    (L.map Fl.fin).foldl (fun var s => (Arith.exact sq).add var ((Arith.exact sq).mul ((Arith.exact sq).sub s (.fin m)) ((Arith.exact sq).sub s (.fin m)))) (.fin v) =
      .fin (v + (L.map fun s => (s - m) ^ 2).sum) := by
  induction L with
  | nil => intro v; simp
  | cons s L ih =>
    intro v
    rw [List.map_cons, List.foldl_cons]
    have : (Arith.exact sq).add (.fin v) ((Arith.exact sq).mul ((Arith.exact sq).sub (.fin s) (.fin m)) ((Arith.exact sq).sub (.fin s) (.fin m))) =
        .fin (v + (s - m) ^ 2) := by
      show Fl.fin _ = .fin _
      congr 1
      ring
    rw [this, ih]
    congr 1
    rw [List.map_cons, List.sum_cons]
    ring

end Vox.Timing
