/-
Helper lemmas for the distribution of indices to threads.
-/
import Verif.Model.Dispatch
import Verif.Spec.Dispatch
import Mathlib.Data.List.Sort
import Mathlib.Data.Finset.Card
import Mathlib.Data.Finset.Range
import Mathlib.Order.Interval.Finset.Nat
import Mathlib.Data.List.Range
import Mathlib.Data.List.Perm.Subperm
import Mathlib.Algebra.BigOperators.Group.Finset.Basic
import Mathlib.Algebra.BigOperators.Group.Finset.Piecewise
import Mathlib.Tactic.Ring
import Mathlib.Tactic.Linarith

set_option linter.unusedSimpArgs false

namespace Vox.Dispatch

/-- Invariant of the dispatch loop. -/
structure DInv (threads n : ℕ) (impl : ℕ → Outcome ℕ) (s : DState) (seqs : List ℕ) : Prop where
  handed : s.handed.map (fun p => Outcome.ok p.2) = seqs.map impl
  workers : ∀ p ∈ s.handed, p.1 < threads
  nodup : seqs.Nodup
  lt : ∀ k ∈ seqs, k < n ∧ k < s.counter
  fresh : ∀ t < threads, ∀ k, s.st t = .fetched k → k < s.counter ∧ k ∉ seqs
  distinct : ∀ t < threads, ∀ t' < threads, ∀ k, s.st t = .fetched k → s.st t' = .fetched k → t = t'
  endedGe : ∀ t < threads, ∀ k, s.st t = .ended k → n ≤ k ∧ k < s.counter
  cover : ∀ k < s.counter, k ∈ seqs ∨ ∃ t < threads, s.st t = .fetched k ∨ s.st t = .ended k

theorem DInv.counter_le {threads n : ℕ} {impl} {s : DState} {seqs}
    (h : DInv threads n impl s seqs) : s.counter ≤ n + threads := by
  by_contra hc
  have hc : n + threads < s.counter := not_le.1 hc
  let val : ℕ → ℕ := fun t => match s.st t with
    | .fetched k => k
    | .ended k => k
    | _ => 0
  have hsub : (Finset.Ico n s.counter) ⊆ (Finset.range threads).image val := by
    intro k hk
    rw [Finset.mem_Ico] at hk
    rcases h.cover k hk.2 with hm | ⟨t, ht, hv⟩
    · have := (h.lt k hm).1; omega
    · refine Finset.mem_image.2 ⟨t, Finset.mem_range.2 ht, ?_⟩
      rcases hv with hv | hv <;> simp only [val, hv]
  have h1 := Finset.card_le_card hsub
  have h2 : ((Finset.range threads).image val).card ≤ (Finset.range threads).card :=
    Finset.card_image_le
  rw [Nat.card_Ico] at h1
  rw [Finset.card_range] at h2
  omega

theorem update_self_eq {s : ℕ → Status} {t : ℕ} {x y : Status} (h : Function.update s t x t = y) :
    x = y := by simpa using h

theorem dinv_step {threads n : ℕ} {impl : ℕ → Outcome ℕ} (hb : n + threads + 1 < 2 ^ 64)
    {s s' : DState} {seqs : List ℕ} (h : DInv threads n impl s seqs)
    (hs : DStep threads n impl s s') : ∃ seqs', DInv threads n impl s' seqs' := by
  have hcl := h.counter_le
  cases hs with
  | fetch t ht hc =>
    have hmod : (s.counter + 1) % 2 ^ 64 = s.counter + 1 := Nat.mod_eq_of_lt (by omega)
    refine ⟨seqs, ⟨h.handed, h.workers, h.nodup, ?_, ?_, ?_, ?_, ?_⟩⟩
    · intro k hk
      have := h.lt k hk
      simp only [hmod]; omega
    · intro u hu k hk
      simp only [hmod]
      by_cases hut : u = t
      · subst hut
        simp only [Function.update_self, Status.fetched.injEq] at hk
        subst hk
        exact ⟨by omega, fun hm => by have := (h.lt _ hm).2; omega⟩
      · simp only [Function.update_of_ne hut] at hk
        have := h.fresh u hu k hk
        exact ⟨by omega, this.2⟩
    · intro u hu u' hu' k hk hk'
      by_cases hut : u = t <;> by_cases hut' : u' = t
      · rw [hut, hut']
      · exfalso
        subst hut
        simp only [Function.update_self, Status.fetched.injEq] at hk
        simp only [Function.update_of_ne hut'] at hk'
        have := (h.fresh u' hu' k hk').1
        omega
      · exfalso
        subst hut'
        simp only [Function.update_self, Status.fetched.injEq] at hk'
        simp only [Function.update_of_ne hut] at hk
        have := (h.fresh u hu k hk).1
        omega
      · simp only [Function.update_of_ne hut'] at hk'
        simp only [Function.update_of_ne hut] at hk
        exact h.distinct u hu u' hu' k hk hk'
    · intro u hu k hk
      simp only [hmod]
      by_cases hut : u = t
      · subst hut
        simp at hk
      · simp only [Function.update_of_ne hut] at hk
        have := h.endedGe u hu k hk
        omega
    · intro k hk
      simp only [hmod] at hk
      by_cases hkc : k = s.counter
      · exact Or.inr ⟨t, ht, Or.inl (by simp [hkc])⟩
      · rcases h.cover k (by omega) with hm | ⟨u, hu, hv⟩
        · exact Or.inl hm
        · refine Or.inr ⟨u, hu, ?_⟩
          have hut : u ≠ t := by
            rintro rfl
            rcases hv with hv | hv <;> rw [hc] at hv <;> cases hv
          simpa only [Function.update_of_ne hut] using hv
  | give t k i ht hk hkn hi =>
    have hfr := h.fresh t ht k hk
    refine ⟨k :: seqs, ⟨?_, ?_, ?_, ?_, ?_, ?_, ?_, ?_⟩⟩
    · simp only [List.map_cons, hi, h.handed]
    · intro p hp
      rcases List.mem_cons.1 hp with rfl | hp
      · exact ht
      · exact h.workers p hp
    · exact List.nodup_cons.2 ⟨hfr.2, h.nodup⟩
    · intro j hj
      rcases List.mem_cons.1 hj with rfl | hj
      · exact ⟨hkn, hfr.1⟩
      · exact h.lt j hj
    · intro u hu j hj
      by_cases hut : u = t
      · subst hut; simp at hj
      · simp only [Function.update_of_ne hut] at hj
        have := h.fresh u hu j hj
        refine ⟨this.1, ?_⟩
        intro hm
        rcases List.mem_cons.1 hm with rfl | hm
        · exact hut (h.distinct u hu t ht _ hj hk)
        · exact this.2 hm
    · intro u hu u' hu' j hj hj'
      by_cases hut : u = t
      · subst hut; simp at hj
      · by_cases hut' : u' = t
        · subst hut'; simp at hj'
        · simp only [Function.update_of_ne hut'] at hj'
          simp only [Function.update_of_ne hut] at hj
          exact h.distinct u hu u' hu' j hj hj'
    · intro u hu j hj
      by_cases hut : u = t
      · subst hut; simp at hj
      · simp only [Function.update_of_ne hut] at hj
        exact h.endedGe u hu j hj
    · intro j hj
      by_cases hjk : j = k
      · exact Or.inl (by simp [hjk])
      · rcases h.cover j hj with hm | ⟨u, hu, hv⟩
        · exact Or.inl (List.mem_cons_of_mem _ hm)
        · refine Or.inr ⟨u, hu, ?_⟩
          have hut : u ≠ t := by
            rintro rfl
            rw [hk] at hv
            rcases hv with hv | hv
            · exact hjk (Status.fetched.inj hv).symm
            · cases hv
          simpa only [Function.update_of_ne hut] using hv
  | stop t k ht hk hkn =>
    refine ⟨seqs, ⟨h.handed, h.workers, h.nodup, h.lt, ?_, ?_, ?_, ?_⟩⟩
    · intro u hu j hj
      by_cases hut : u = t
      · subst hut; simp at hj
      · simp only [Function.update_of_ne hut] at hj
        exact h.fresh u hu j hj
    · intro u hu u' hu' j hj hj'
      by_cases hut : u = t
      · subst hut; simp at hj
      · by_cases hut' : u' = t
        · subst hut'; simp at hj'
        · simp only [Function.update_of_ne hut'] at hj'
          simp only [Function.update_of_ne hut] at hj
          exact h.distinct u hu u' hu' j hj hj'
    · intro u hu j hj
      by_cases hut : u = t
      · subst hut
        simp only [Function.update_self, Status.ended.injEq] at hj
        subst hj
        exact ⟨hkn, (h.fresh u hu k hk).1⟩
      · simp only [Function.update_of_ne hut] at hj
        exact h.endedGe u hu j hj
    · intro j hj
      rcases h.cover j hj with hm | ⟨u, hu, hv⟩
      · exact Or.inl hm
      · by_cases hut : u = t
        · subst hut
          rw [hk] at hv
          rcases hv with hv | hv
          · exact Or.inr ⟨u, hu, Or.inr (by simp [Status.fetched.inj hv])⟩
          · cases hv
        · exact Or.inr ⟨u, hu, by simpa only [Function.update_of_ne hut] using hv⟩
  | leave t ht hc =>
    refine ⟨seqs, ⟨h.handed, h.workers, h.nodup, h.lt, ?_, ?_, ?_, ?_⟩⟩
    · intro u hu j hj
      by_cases hut : u = t
      · subst hut; simp at hj
      · simp only [Function.update_of_ne hut] at hj
        exact h.fresh u hu j hj
    · intro u hu u' hu' j hj hj'
      by_cases hut : u = t
      · subst hut; simp at hj
      · by_cases hut' : u' = t
        · subst hut'; simp at hj'
        · simp only [Function.update_of_ne hut'] at hj'
          simp only [Function.update_of_ne hut] at hj
          exact h.distinct u hu u' hu' j hj hj'
    · intro u hu j hj
      by_cases hut : u = t
      · subst hut; simp at hj
      · simp only [Function.update_of_ne hut] at hj
        exact h.endedGe u hu j hj
    · intro j hj
      rcases h.cover j hj with hm | ⟨u, hu, hv⟩
      · exact Or.inl hm
      · have hut : u ≠ t := by
          rintro rfl
          rcases hv with hv | hv <;> rw [hc] at hv <;> cases hv
        exact Or.inr ⟨u, hu, by simpa only [Function.update_of_ne hut] using hv⟩

theorem dinv_init (threads n : ℕ) (impl) : DInv threads n impl DState.init [] :=
  ⟨rfl, by simp [DState.init], List.nodup_nil, by simp, by simp [DState.init], by simp [DState.init],
    by simp [DState.init], by simp [DState.init]⟩

theorem dinv_reach {threads n : ℕ} {impl : ℕ → Outcome ℕ} (hb : n + threads + 1 < 2 ^ 64) {len s}
    (h : DReach threads n impl len s) : ∃ seqs, DInv threads n impl s seqs := by
  induction h with
  | init => exact ⟨[], dinv_init threads n impl⟩
  | step _ hs ih =>
    obtain ⟨seqs, hi⟩ := ih
    exact dinv_step hb hi hs

/-! ### Bound on the number of steps -/

/-- Work left in a worker's status. -/
def weight : Status → ℕ
  | .calling => 1
  | .fetched _ => 2
  | .ended _ => 0
  | .left => 0

theorem weight_calling : weight .calling = 1 := rfl
theorem weight_fetched (k : ℕ) : weight (.fetched k) = 2 := rfl
theorem weight_ended (k : ℕ) : weight (.ended k) = 0 := rfl
theorem weight_left : weight .left = 0 := rfl

theorem sum_update (threads t : ℕ) (ht : t < threads) (st : ℕ → Status) (x : Status) :
    ∑ u ∈ Finset.range threads, weight (Function.update st t x u) + weight (st t) =
    ∑ u ∈ Finset.range threads, weight (st u) + weight x := by
  have hm : t ∈ Finset.range threads := Finset.mem_range.2 ht
  rw [← Finset.add_sum_erase _ _ hm, ← Finset.add_sum_erase _ (fun u => weight (st u)) hm]
  have : ∑ u ∈ (Finset.range threads).erase t, weight (Function.update st t x u) =
      ∑ u ∈ (Finset.range threads).erase t, weight (st u) := by
    apply Finset.sum_congr rfl
    intro u hu
    rw [Function.update_of_ne (Finset.ne_of_mem_erase hu)]
  rw [this, Function.update_self]
  ring

theorem len_bound {threads n : ℕ} {impl : ℕ → Outcome ℕ} (hb : n + threads + 1 < 2 ^ 64) {len s}
    (h : DReach threads n impl len s) :
    len + ∑ u ∈ Finset.range threads, weight (s.st u) ≤ threads + 2 * s.counter := by
  induction h with
  | init => simp [DState.init, weight]
  | @step len s s' hr hs ih =>
    obtain ⟨seqs, hi⟩ := dinv_reach hb hr
    have hcl := hi.counter_le
    cases hs with
    | fetch t ht hc =>
      have hmod : (s.counter + 1) % 2 ^ 64 = s.counter + 1 := Nat.mod_eq_of_lt (by omega)
      have := sum_update threads t ht s.st (.fetched s.counter)
      rw [hc] at this
      simp only [weight_calling, weight_fetched, hmod] at this ⊢
      omega
    | give t k i ht hk hkn hii =>
      have := sum_update threads t ht s.st .calling
      rw [hk] at this
      simp only [weight_calling, weight_fetched, weight_ended, weight_left] at this ⊢
      omega
    | stop t k ht hk hkn =>
      have := sum_update threads t ht s.st (.ended k)
      rw [hk] at this
      simp only [weight_calling, weight_fetched, weight_ended, weight_left] at this ⊢
      omega
    | leave t ht hc =>
      have := sum_update threads t ht s.st .left
      rw [hc] at this
      simp only [weight_calling, weight_fetched, weight_ended, weight_left] at this ⊢
      omega

/-! ### Visiting orders -/

theorem _root_.Vox.Spec.IsOrder.get {n : ℕ} {impl : ℕ → Outcome ℕ} (h : Spec.IsOrder n impl) :
    ∃ f : ℕ → ℕ, (∀ k < n, impl k = .ok (f k) ∧ f k < n) ∧
      ∀ i < n, ∀ j < n, f i = f j → i = j := by
  obtain ⟨l, h1, h2⟩ := h
  have hlen : l.length = n := by rw [h2.length_eq, List.length_range]
  refine ⟨fun k => (l[k]?).getD 0, ?_, ?_⟩
  · intro k hk
    have hkl : k < l.length := by omega
    have e1 : ((List.range n).map impl)[k]? = (l.map Outcome.ok)[k]? := by rw [h1]
    simp only [List.getElem?_map, List.getElem?_range hk, List.getElem?_eq_getElem hkl,
      Option.map_some, Option.some.injEq] at e1
    refine ⟨?_, ?_⟩
    · rw [e1]; simp [List.getElem?_eq_getElem hkl]
    · simp only [List.getElem?_eq_getElem hkl, Option.getD_some]
      exact List.mem_range.1 (h2.mem_iff.1 (List.getElem_mem hkl))
  · intro i hi j hj hij
    have hil : i < l.length := by omega
    have hjl : j < l.length := by omega
    simp only [List.getElem?_eq_getElem hil, List.getElem?_eq_getElem hjl, Option.getD_some] at hij
    exact (h2.nodup_iff.2 List.nodup_range).getElem_inj_iff.1 hij

/-- Insertion sort is a possible `std::sort`, so the hypothesis is satisfiable. -/
theorem insertionSort_isStdSort :
    IsStdSort (List.insertionSort fun a b : ℕ × Fl => Fl.lt b.2 a.2 = false) := by
  intro v hv
  refine ⟨List.perm_insertionSort _ v, ?_⟩
  rcases hv with hv | hv
  · match v, hv with
    | [], _ => simp
    | [a], _ => simp
  · have key : ∀ l : List (ℕ × Fl), (∀ p ∈ l, p.2 ≠ .nan) →
        (List.insertionSort (fun a b : ℕ × Fl => Fl.lt b.2 a.2 = false) l).Pairwise
          (fun a b => Fl.lt b.2 a.2 = false) := by
      have tr : ∀ a b c : Fl, b ≠ .nan → Fl.lt b a = false → Fl.lt c b = false →
          Fl.lt c a = false := by
        intro a b c hb h1 h2
        cases a <;> cases b <;> cases c <;> simp_all [Fl.lt]
        exact h1.trans h2
      have tot : ∀ a b : Fl, Fl.lt b a ≠ false → Fl.lt a b = false := by
        intro a b h
        cases a <;> cases b <;> simp_all [Fl.lt]
        exact h.le
      have ins : ∀ (a : ℕ × Fl) (l : List (ℕ × Fl)), (∀ p ∈ l, p.2 ≠ .nan) →
          l.Pairwise (fun a b => Fl.lt b.2 a.2 = false) →
          (List.orderedInsert (fun a b : ℕ × Fl => Fl.lt b.2 a.2 = false) a l).Pairwise
            (fun a b => Fl.lt b.2 a.2 = false) := by
        intro a l hnn hl
        induction l with
        | nil => simp
        | cons b l ih =>
          rw [List.pairwise_cons] at hl
          rw [List.orderedInsert_cons]
          split
          · rename_i hab
            refine List.pairwise_cons.2 ⟨?_, List.pairwise_cons.2 hl⟩
            intro c hc
            rcases List.mem_cons.1 hc with rfl | hc
            · exact hab
            · exact tr _ _ _ (hnn b (List.mem_cons_self ..)) hab (hl.1 c hc)
          · rename_i hab
            refine List.pairwise_cons.2 ⟨?_, ih (fun p hp => hnn p (List.mem_cons_of_mem _ hp)) hl.2⟩
            intro c hc
            rcases (List.mem_orderedInsert _).1 hc with rfl | hc
            · exact tot _ _ hab
            · exact hl.1 c hc
      intro l hl
      induction l with
      | nil => simp
      | cons a l ih =>
        refine ins a _ ?_ (ih fun p hp => hl p (List.mem_cons_of_mem _ hp))
        intro p hp
        exact hl p (List.mem_cons_of_mem _ ((List.mem_insertionSort _).1 hp))
    exact key v hv

/-! ### Bundles -/

open Classical in
/-- Splitting a list by a partition of its elements and concatenating the parts is a permutation. -/
theorem flatMap_filter_perm {α β : Type} (l : List α) (ts : List β) (hts : ts.Nodup)
    (p : β → α → Bool) (hp : ∀ a ∈ l, ∃! t, t ∈ ts ∧ p t a = true) :
    (ts.flatMap fun t => l.filter (p t)).Perm l := by
  induction l with
  | nil => simp
  | cons a l ih =>
    obtain ⟨t, ⟨ht, hta⟩, huniq⟩ := hp a (List.mem_cons_self ..)
    refine List.Perm.trans ?_ ((ih fun b hb => hp b (List.mem_cons_of_mem _ hb)).cons a)
    obtain ⟨l1, l2, rfl⟩ := List.append_of_mem ht
    have hnot : ∀ u ∈ l1 ++ l2, p u a = false := by
      intro u hu
      by_contra hc
      have hc : p u a = true := by simpa using hc
      have hut := huniq u ⟨by
        rcases List.mem_append.1 hu with h | h
        · exact List.mem_append_left _ h
        · exact List.mem_append_right _ (List.mem_cons_of_mem _ h), hc⟩
      subst hut
      have := List.nodup_middle.1 hts
      exact (List.nodup_cons.1 this).1 hu
    have hpart : ∀ us : List β, (∀ u ∈ us, p u a = false) →
        us.flatMap (fun t => (a :: l).filter (p t)) = us.flatMap (fun t => l.filter (p t)) := by
      intro us hus
      induction us with
      | nil => rfl
      | cons u us ih2 =>
        simp only [List.flatMap_cons, List.filter_cons, hus u (List.mem_cons_self ..),
          Bool.false_eq_true, if_false]
        have := ih2 fun v hv => hus v (List.mem_cons_of_mem _ hv)
        simp only [List.filter_cons] at this
        rw [this]
    rw [List.flatMap_append, List.flatMap_append, List.flatMap_cons, List.flatMap_cons,
      hpart l1 (fun u hu => hnot u (List.mem_append_left _ hu)),
      hpart l2 (fun u hu => hnot u (List.mem_append_right _ hu))]
    simp only [List.filter_cons, hta, if_true, List.cons_append]
    exact List.perm_middle

theorem pushBack_flat (m : BundleMap) (k : Idx) (i : ℕ) :
    ((m.pushBack k i).flatMap (·.2)).Perm (i :: m.flatMap (·.2)) := by
  induction m with
  | nil => simp [BundleMap.pushBack]
  | cons e m ih =>
    unfold BundleMap.pushBack
    split
    · simp only [List.flatMap_cons, List.append_assoc, List.singleton_append]
      exact List.perm_middle
    · simp only [List.flatMap_cons]
      exact (List.Perm.append_left _ ih).trans List.perm_middle

theorem pushBack_keys (m : BundleMap) (k : Idx) (i : ℕ) :
    (m.pushBack k i).map (·.1) = if k ∈ m.map (·.1) then m.map (·.1) else m.map (·.1) ++ [k] := by
  induction m with
  | nil => simp [BundleMap.pushBack]
  | cons e m ih =>
    unfold BundleMap.pushBack
    by_cases hk : e.1 = k
    · simp [hk]
    · have hk' : ¬ k = e.1 := fun h => hk h.symm
      simp only [if_neg hk, List.map_cons, ih, List.mem_cons, hk', false_or]
      split <;> simp

theorem pushBack_mem (m : BundleMap) (k : Idx) (i : ℕ) (key : ℕ → Idx) (hk : key i = k)
    (hm : ∀ e ∈ m, ∀ j ∈ e.2, key j = e.1) :
    ∀ e ∈ m.pushBack k i, ∀ j ∈ e.2, key j = e.1 := by
  induction m with
  | nil => simp [BundleMap.pushBack, hk]
  | cons e m ih =>
    have hm' : ∀ e ∈ m, ∀ j ∈ e.2, key j = e.1 := fun e he => hm e (List.mem_cons_of_mem _ he)
    unfold BundleMap.pushBack
    split
    · rename_i hek
      intro f hf j hj
      rcases List.mem_cons.1 hf with rfl | hf
      · rcases List.mem_append.1 hj with h | h
        · exact hm e (List.mem_cons_self ..) j h
        · rw [List.mem_singleton.1 h, hk]; exact hek.symm
      · exact hm' f hf j hj
    · intro f hf j hj
      rcases List.mem_cons.1 hf with rfl | hf
      · exact hm e (List.mem_cons_self ..) j hj
      · exact ih hm' f hf j hj

end Vox.Dispatch
