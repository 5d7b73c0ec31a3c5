/-
Properties C28-C31: distribution of points to threads, visiting orders, bundles of the merged
integrator.
-/
import Verif.Lemmas.Dispatch
import Mathlib.Data.List.Sort

namespace Vox.Props
open Vox Vox.Spec Vox.Dispatch

/-! ## C28 every index goes to exactly one worker -/

/-- At any moment under any scheduling, no index has been handed out twice and none is out of range. -/
theorem C28_no_duplicates {threads n : ℕ} {impl : ℕ → Outcome ℕ} (hb : n + threads + 1 < 2 ^ 64)
    (ho : IsOrder n impl) {len : ℕ} {s : DState} (h : DReach threads n impl len s) :
    (s.handed.map (·.2)).Nodup ∧ ∀ p ∈ s.handed, p.2 < n ∧ p.1 < threads := by
  obtain ⟨seqs, hi⟩ := dinv_reach hb h
  obtain ⟨f, hf, hinj⟩ := ho.get
  have hmap : s.handed.map (·.2) = seqs.map f := by
    have h1 : s.handed.map (fun p => Outcome.ok p.2) = seqs.map (fun k => Outcome.ok (f k)) := by
      rw [hi.handed]
      exact List.map_congr_left fun k hk => (hf k (hi.lt k hk).1).1
    have h2 := congrArg (List.map fun (o : Outcome ℕ) => match o with | .ok a => a | _ => 0) h1
    simpa [List.map_map, Function.comp_def] using h2
  refine ⟨?_, ?_⟩
  · rw [hmap]
    refine (List.nodup_map_iff_inj_on hi.nodup).2 ?_
    intro a ha b hb' hab
    exact hinj a (hi.lt a ha).1 b (hi.lt b hb').1 hab
  · intro p hp
    refine ⟨?_, hi.workers p hp⟩
    have : p.2 ∈ s.handed.map (·.2) := List.mem_map.2 ⟨p, hp, rfl⟩
    rw [hmap] at this
    obtain ⟨k, hk, he⟩ := List.mem_map.1 this
    rw [← he]
    exact (hf k (hi.lt k hk).1).2

/-- When the workers are through (at least one received the end signal, none is in the middle of a
call), every index has been handed out exactly once. -/
theorem C28_complete {threads n : ℕ} {impl : ℕ → Outcome ℕ} (hb : n + threads + 1 < 2 ^ 64)
    (ho : IsOrder n impl) {len : ℕ} {s : DState} (h : DReach threads n impl len s)
    (hend : ∃ t < threads, ∃ k, s.st t = .ended k) (hnone : ∀ t < threads, ∀ k, s.st t ≠ .fetched k) :
    (s.handed.map (·.2)).Perm (List.range n) := by
  obtain ⟨hnd, hlt⟩ := C28_no_duplicates hb ho h
  obtain ⟨seqs, hi⟩ := dinv_reach hb h
  obtain ⟨t, ht, k, hk⟩ := hend
  have hkc := hi.endedGe t ht k hk
  have hsub : List.range n ⊆ seqs := by
    intro j hj
    have hj := List.mem_range.1 hj
    rcases hi.cover j (by omega) with hm | ⟨u, hu, hv | hv⟩
    · exact hm
    · exact absurd hv (hnone u hu j)
    · have := (hi.endedGe u hu j hv).1; omega
  have hlen1 : n ≤ seqs.length := by
    have := (List.nodup_range (n := n)).subperm hsub |>.length_le
    simpa using this
  have hlen2 : (s.handed.map (·.2)).length = seqs.length := by
    have := congrArg List.length hi.handed
    simpa using this
  have hsub2 : (s.handed.map (·.2)) ⊆ List.range n := by
    intro i hi'
    obtain ⟨p, hp, rfl⟩ := List.mem_map.1 hi'
    exact List.mem_range.2 (hlt p hp).1
  refine (hnd.subperm hsub2).perm_of_length_le ?_
  rw [List.length_range, hlen2]
  exact hlen1

/-- No worker can get stuck: as long as a worker has neither received the end signal nor left, some
action is possible for it. -/
theorem C28_no_deadlock {threads n : ℕ} {impl : ℕ → Outcome ℕ} (ho : IsOrder n impl) {s : DState}
    {t : ℕ} (ht : t < threads) (hrun : ∀ k, s.st t ≠ .ended k) (hl : s.st t ≠ .left) :
    ∃ s', DStep threads n impl s s' := by
  cases hs : s.st t with
  | calling => exact ⟨_, .fetch t ht hs⟩
  | fetched k =>
    by_cases hk : k < n
    · obtain ⟨f, hf, _⟩ := ho.get
      exact ⟨_, .give t k (f k) ht hs hk (hf k hk).1⟩
    · exact ⟨_, .stop t k ht hs (not_lt.1 hk)⟩
  | ended k => exact absurd hs (hrun k)
  | left => exact absurd hs hl

/-- Every schedule ends after at most `2 n + 3 threads` actions, so (with `C28_no_deadlock`) every
worker receives the end signal whatever the scheduling. -/
theorem C28_terminates {threads n : ℕ} {impl : ℕ → Outcome ℕ} (hb : n + threads + 1 < 2 ^ 64)
    {len : ℕ} {s : DState} (h : DReach threads n impl len s) : len ≤ 2 * n + 3 * threads := by
  have h1 := len_bound hb h
  obtain ⟨seqs, hi⟩ := dinv_reach hb h
  have h2 := hi.counter_le
  omega

/-- Two workers, two points, interleaved. -/
example : ∃ len s, DReach 2 2 (mixedImpl 2) len s ∧ (∃ t < 2, ∃ k, s.st t = .ended k) ∧
    (∀ t < 2, ∀ k, s.st t ≠ .fetched k) := by
  have r : DReach 2 2 (mixedImpl 2) _ _ :=
    .step (.step (.step (.step (.step (.step (.step (.step .init
      (.fetch 0 (by decide) rfl)) (.fetch 1 (by decide) rfl)) (.give 1 1 1 (by decide) rfl (by decide)
        rfl)) (.fetch 1 (by decide) rfl)) (.stop 1 2 (by decide) rfl (by decide)))
          (.give 0 0 0 (by decide) rfl (by decide) rfl)) (.fetch 0 (by decide) rfl))
            (.stop 0 3 (by decide) rfl (by decide))
  refine ⟨_, _, r, ⟨0, by decide, 3, rfl⟩, ?_⟩
  intro t ht k
  match t with
  | 0 => intro h; cases h
  | 1 => intro h; cases h
  | t + 2 => omega

/-! ## C29 the mixed order is a permutation -/

theorem C29_mixed_order (n : ℕ) : IsOrder n (mixedImpl n) := by
  let g := n / stepSize
  let f : ℕ → ℕ := fun k => if g * stepSize ≤ k then k else k % g * stepSize + k / g
  have hS : stepSize = 1024 := rfl
  have hgn : g * stepSize ≤ n := Nat.div_mul_le_self n stepSize
  have himpl : ∀ k < n, mixedImpl n k = .ok (f k) := by
    intro k _
    unfold mixedImpl
    by_cases hk : g * stepSize ≤ k
    · simp only [f, g] at hk ⊢
      rw [if_pos hk, if_pos hk, Outcome.pure_eq]
    · have hg0 : g ≠ 0 := by rintro h0; rw [h0] at hk; omega
      have : (n / stepSize != 0) = true := by simpa [g] using hg0
      simp only [f, g] at hk ⊢
      simp only [if_neg hk, Outcome.require, this, if_true, Outcome.bind_ok, Outcome.pure_eq]
  have hsmall : ∀ k, k < g * stepSize → k % g < g ∧ k / g < stepSize := by
    intro k hk
    have hg0 : 0 < g := by
      rcases Nat.eq_zero_or_pos g with h0 | h0
      · rw [h0] at hk; omega
      · exact h0
    exact ⟨Nat.mod_lt _ hg0, by rw [Nat.div_lt_iff_lt_mul hg0, Nat.mul_comm]; exact hk⟩
  have hlt : ∀ k < n, f k < n := by
    intro k hk
    simp only [f]
    split
    · exact hk
    · rename_i hc
      obtain ⟨h1, h2⟩ := hsmall k (not_le.1 hc)
      rw [hS] at h2 hgn ⊢
      have : k % g * 1024 + k / g < g * 1024 := by omega
      omega
  have hinj : ∀ i < n, ∀ j < n, f i = f j → i = j := by
    intro i hi j hj hij
    simp only [f] at hij
    split at hij <;> split at hij
    · exact hij
    · rename_i h1 h2
      obtain ⟨h3, h4⟩ := hsmall j (not_le.1 h2)
      rw [hS] at h1 h4 hij
      omega
    · rename_i h1 h2
      obtain ⟨h3, h4⟩ := hsmall i (not_le.1 h1)
      rw [hS] at h2 h4 hij
      omega
    · rename_i h1 h2
      obtain ⟨h3, h4⟩ := hsmall i (not_le.1 h1)
      obtain ⟨h5, h6⟩ := hsmall j (not_le.1 h2)
      rw [hS] at h4 h6 hij
      have e : i % g = j % g ∧ i / g = j / g := by
        generalize i % g = a at *
        generalize j % g = b at *
        generalize i / g = c at *
        generalize j / g = d at *
        omega
      obtain ⟨e1, e2⟩ := e
      rw [← Nat.mod_add_div i g, ← Nat.mod_add_div j g, e1, e2]
  refine ⟨(List.range n).map f, ?_, ?_⟩
  · rw [List.map_map]
    exact List.map_congr_left fun k hk => himpl k (List.mem_range.1 hk)
  · have hnd : ((List.range n).map f).Nodup := by
      refine (List.nodup_map_iff_inj_on List.nodup_range).2 ?_
      intro a ha b hb hab
      exact hinj a (List.mem_range.1 ha) b (List.mem_range.1 hb) hab
    refine (hnd.subperm ?_).perm_of_length_le (by simp)
    intro x hx
    obtain ⟨k, hk, rfl⟩ := List.mem_map.1 hx
    exact List.mem_range.2 (hlt k (List.mem_range.1 hk))

/-- The order really is mixed for a cloud of 2500 points: the second point visited is number 1024. -/
example : mixedImpl 2500 1 = .ok 1024 ∧ mixedImpl 2500 2 = .ok 1 ∧ mixedImpl 2500 2047 = .ok 2047 ∧
    mixedImpl 2500 2100 = .ok 2100 := by decide +kernel

/-! ## C30 the sorted order -/

/-- For a cloud without NaN norms the sorted mode enumerates every point once, in order of
non-decreasing squared norm, for every implementation of `std::sort` that meets the standard. -/
theorem C30_sorted_order {sort : List (ℕ × Fl) → List (ℕ × Fl)} (hs : IsStdSort sort)
    (norms : List Fl) (hn : norms.length ≤ 1 ∨ Fl.nan ∉ norms) :
    ∃ g, factory sort "sorted" norms = .ok g ∧ IsOrder norms.length g.impl ∧
      ∀ i j a b, i < j → g.impl i = .ok a → g.impl j = .ok b →
        ∃ na nb, norms[a]? = some na ∧ norms[b]? = some nb ∧ Fl.lt nb na = false := by
  let v := norms.zipIdx.map fun p => (p.2, p.1)
  have hv : v.length ≤ 1 ∨ ∀ p ∈ v, p.2 ≠ .nan := by
    rcases hn with hn | hn
    · left; simpa [v] using hn
    · right
      intro p hp
      obtain ⟨q, hq, rfl⟩ := List.mem_map.1 hp
      intro hc
      apply hn
      rw [← hc]
      exact List.fst_mem_of_mem_zipIdx hq
  obtain ⟨hperm, hsorted⟩ := hs v hv
  have hreq : (decide (norms.length ≤ 1) || !norms.contains .nan) = true := by
    rcases hn with hn | hn <;> simp [hn]
  have hfac : factory sort "sorted" norms = .ok (.sorted (sort v)) := by
    simp only [factory, sortedCtor, Outcome.require, hreq, if_true, Outcome.bind_ok,
      Outcome.pure_eq, v]
    rfl
  have hlen : (sort v).length = norms.length := by rw [hperm.length_eq]; simp [v]
  have himpl : ∀ k (hk : k < (sort v).length), sortedImpl (sort v) k = .ok ((sort v)[k].1) := by
    intro k hk; simp [sortedImpl, List.getElem?_eq_getElem hk]
  have hnorm : ∀ p ∈ sort v, norms[p.1]? = some p.2 := by
    intro p hp
    have := hperm.mem_iff.1 hp
    obtain ⟨q, hq, rfl⟩ := List.mem_map.1 this
    exact List.mem_zipIdx_iff_getElem?.1 hq
  refine ⟨_, hfac, ⟨(sort v).map (·.1), ?_, ?_⟩, ?_⟩
  · apply List.ext_getElem
    · simp [hlen]
    · intro k h1 h2
      have hk : k < (sort v).length := by simpa using h2
      simp only [List.getElem_map, List.getElem_range]
      exact himpl k hk
  · refine (hperm.map _).trans ?_
    have : v.map (·.1) = List.range norms.length := by
      simp [v, List.map_map, Function.comp_def, List.zipIdx_map_snd, List.range_eq_range']
    rw [this]
  · intro i j a b hij ha hb
    simp only [Getter.impl] at ha hb
    have hi : i < (sort v).length := by
      by_contra hc; simp [sortedImpl, List.getElem?_eq_none (not_lt.1 hc)] at ha
    have hj : j < (sort v).length := by
      by_contra hc; simp [sortedImpl, List.getElem?_eq_none (not_lt.1 hc)] at hb
    rw [himpl i hi, Outcome.ok.injEq] at ha
    rw [himpl j hj, Outcome.ok.injEq] at hb
    subst ha; subst hb
    exact ⟨_, _, hnorm _ (List.getElem_mem hi), hnorm _ (List.getElem_mem hj),
      List.pairwise_iff_getElem.1 hsorted i j hi hj hij⟩

/-- Insertion sort is a possible `std::sort`, so the hypothesis is satisfiable. -/
example : IsStdSort (List.insertionSort fun a b : ℕ × Fl => Fl.lt b.2 a.2 = false) :=
  insertionSort_isStdSort

example : ([.fin 4, .pinf, .fin 1] : List Fl).length ≤ 1 ∨ Fl.nan ∉ [Fl.fin 4, .pinf, .fin 1] := by
  decide

/-- A NaN point in a cloud of two or more makes the sorted mode undefined. -/
theorem C30_nan_undefined (sort : List (ℕ × Fl) → List (ℕ × Fl)) (norms : List Fl)
    (h2 : 2 ≤ norms.length) (hn : Fl.nan ∈ norms) : factory sort "sorted" norms = .ub := by
  have : (decide (norms.length ≤ 1) || !norms.contains .nan) = false := by
    simp [hn]; omega
  simp only [factory, sortedCtor, Outcome.require, this, Bool.false_eq_true, if_false,
    Outcome.bind_ub]
  rfl

example : 2 ≤ ([.nan, .fin 1] : List Fl).length ∧ Fl.nan ∈ [Fl.nan, .fin 1] := by decide

/-- Any other mode string is refused by a fatal error. -/
theorem C30_unknown_mode_refused (sort : List (ℕ × Fl) → List (ℕ × Fl)) (mode : String)
    (norms : List Fl) (h1 : mode ≠ "mixed") (h2 : mode ≠ "sorted") :
    factory sort mode norms = .fatal := by
  simp [factory, h1, h2]

example : "Mixed" ≠ "mixed" ∧ "Mixed" ≠ "sorted" := by decide

/-- With either mode the workers together receive each point of the cloud exactly once. -/
theorem C30_any_mode_dispatch {sort : List (ℕ × Fl) → List (ℕ × Fl)} (hs : IsStdSort sort)
    {mode : String} {norms : List Fl} (hn : Fl.nan ∉ norms) {g : Getter}
    (hg : factory sort mode norms = .ok g) {threads : ℕ}
    (hb : norms.length + threads + 1 < 2 ^ 64) {len : ℕ} {s : DState}
    (h : DReach threads norms.length g.impl len s)
    (hend : ∃ t < threads, ∃ k, s.st t = .ended k) (hnone : ∀ t < threads, ∀ k, s.st t ≠ .fetched k) :
    (s.handed.map (·.2)).Perm (List.range norms.length) := by
  refine C28_complete hb ?_ h hend hnone
  by_cases h1 : mode = "mixed"
  · subst h1
    simp only [factory, if_true, Outcome.ok.injEq] at hg
    subst hg
    exact C29_mixed_order _
  · by_cases h2 : mode = "sorted"
    · subst h2
      obtain ⟨g', hg', ho, _⟩ := C30_sorted_order hs norms (Or.inr hn)
      rw [hg', Outcome.ok.injEq] at hg
      subst hg
      exact ho
    · rw [C30_unknown_mode_refused sort mode norms h1 h2] at hg
      cases hg

example (sort : List (ℕ × Fl) → List (ℕ × Fl)) :
    factory sort "mixed" [.fin 1, .pinf] = .ok (.mixed 2) ∧ 2 + 4 + 1 < 2 ^ 64 :=
  ⟨rfl, by norm_num⟩

/-! ## C31 bundles of the merged integrator -/

/-- Every position of the bundle map is processed by exactly one thread. -/
theorem C31_one_thread_per_position {threads : ℕ} (h : 0 < threads) (i : ℕ) :
    ∃! t, t ∈ threadIds threads ∧ processes threads t i = true := by
  have hmem : ∀ t, t ∈ threadIds threads ↔ t < threads := by
    intro t
    unfold threadIds
    split
    · rename_i h1; simp [h1]
    · simp
  refine ⟨threads - 1 - i % threads, ⟨(hmem _).2 (by omega), ?_⟩, ?_⟩
  · have hlt := Nat.mod_lt i h
    have e : i + (threads - 1 - i % threads) + 1 = threads * (i / threads) + threads := by
      have := Nat.div_add_mod i threads
      omega
    simp only [processes, e, beq_iff_eq, Nat.mul_add_mod, Nat.mod_self]
  · rintro t ⟨ht, hp⟩
    have ht := (hmem t).1 ht
    simp only [processes, beq_iff_eq] at hp
    have hlt := Nat.mod_lt i h
    have e : i + t + 1 = (i % threads + t + 1) + threads * (i / threads) := by
      have := Nat.div_add_mod i threads
      omega
    rw [e, Nat.add_mul_mod_self_left] at hp
    have hdvd := Nat.dvd_of_mod_eq_zero hp
    obtain ⟨c, hc⟩ := hdvd
    have hc1 : c = 1 := by
      rcases Nat.lt_trichotomy c 1 with h1 | h1 | h1
      · have : c = 0 := by omega
        rw [this] at hc; omega
      · exact h1
      · exfalso
        have : threads * 2 ≤ threads * c := Nat.mul_le_mul_left _ h1
        omega
    rw [hc1] at hc
    omega

example : 0 < 3 ∧ processes 3 1 7 = true := by decide

/-- All threads together process each bundle exactly once, for every configured thread count (zero is
replaced by one), provided all threads iterate over the map in the same order. (The map is copied for
each thread; libstdc++ copies keep the iteration order, the C++ standard does not promise it.) -/
theorem C31_each_bundle_once {β : Type} (configured : ℕ) (bundles : List β) :
    ((threadIds (effectiveThreads configured)).flatMap fun t =>
      integrateVoxels (effectiveThreads configured) t bundles).Perm bundles := by
  have hpos : 0 < effectiveThreads configured := by unfold effectiveThreads; split <;> omega
  have hnd : (threadIds (effectiveThreads configured)).Nodup := by
    unfold threadIds; split
    · simp
    · exact List.nodup_range
  have h1 := flatMap_filter_perm bundles.zipIdx (threadIds (effectiveThreads configured)) hnd
    (fun t p => processes (effectiveThreads configured) t p.2)
    (fun a _ => C31_one_thread_per_position hpos a.2)
  have h2 := h1.map (·.1)
  rw [List.map_flatMap, List.zipIdx_map_fst] at h2
  exact h2

example : integrateVoxels 2 0 ["a", "b", "c"] = ["b"] ∧
    integrateVoxels 2 1 ["a", "b", "c"] = ["a", "c"] := by decide

/-- Without the same-order assumption the claim fails: two threads whose map copies iterate in opposite
order process one bundle twice and the other never. -/
theorem C31_needs_same_order :
    ∃ o0 o1 : List ℕ, o0.Perm o1 ∧
      ¬ (integrateVoxels 2 0 o0 ++ integrateVoxels 2 1 o1).Perm o0 :=
  ⟨[1, 2], [2, 1], by decide, by decide⟩

/-- Bundling: the points of the normal bundles are exactly the accepted non-clearing points, those of
the clearing bundles exactly the accepted clearing points, each once; a bundle's points share the
bundle's voxel and no voxel has two bundles in the same map. -/
theorem C31_bundles_partition (valid : ℕ → Option Bool) (key : ℕ → Idx) (order : List ℕ) :
    let r := bundleRays valid key order ([], [])
    (r.1.flatMap (·.2)).Perm (order.filter fun i => valid i == some false) ∧
    (r.2.flatMap (·.2)).Perm (order.filter fun i => valid i == some true) ∧
    (∀ e ∈ r.1, ∀ i ∈ e.2, key i = e.1) ∧ (∀ e ∈ r.2, ∀ i ∈ e.2, key i = e.1) ∧
    (r.1.map (·.1)).Nodup ∧ (r.2.map (·.1)).Nodup := by
  have nodupStep : ∀ (m : BundleMap) (k : Idx) (i : ℕ), (m.map (·.1)).Nodup →
      ((m.pushBack k i).map (·.1)).Nodup := by
    intro m k i h
    rw [pushBack_keys]
    split
    · exact h
    · rename_i hk
      refine List.Nodup.append h (by simp) ?_
      simpa using hk
  have gen : ∀ (order : List ℕ) (vm cm : BundleMap),
      (∀ e ∈ vm, ∀ i ∈ e.2, key i = e.1) → (∀ e ∈ cm, ∀ i ∈ e.2, key i = e.1) →
      (vm.map (·.1)).Nodup → (cm.map (·.1)).Nodup →
      let r := bundleRays valid key order (vm, cm)
      (r.1.flatMap (·.2)).Perm ((order.filter fun i => valid i == some false) ++ vm.flatMap (·.2)) ∧
      (r.2.flatMap (·.2)).Perm ((order.filter fun i => valid i == some true) ++ cm.flatMap (·.2)) ∧
      (∀ e ∈ r.1, ∀ i ∈ e.2, key i = e.1) ∧ (∀ e ∈ r.2, ∀ i ∈ e.2, key i = e.1) ∧
      (r.1.map (·.1)).Nodup ∧ (r.2.map (·.1)).Nodup := by
    intro order
    induction order with
    | nil =>
      intro vm cm h1 h2 h3 h4
      exact ⟨by simp [bundleRays], by simp [bundleRays], h1, h2, h3, h4⟩
    | cons i order ih =>
      intro vm cm h1 h2 h3 h4
      cases hv : valid i with
      | none =>
        have := ih vm cm h1 h2 h3 h4
        simpa [bundleRays, hv] using this
      | some c =>
        cases c with
        | false =>
          obtain ⟨a1, a2, a3, a4, a5, a6⟩ := ih (vm.pushBack (key i) i) cm
            (pushBack_mem vm (key i) i key rfl h1) h2 (nodupStep _ _ _ h3) h4
          simp only [bundleRays, hv]
          refine ⟨a1.trans ?_, ?_, a3, a4, a5, a6⟩
          · simp only [List.filter_cons, hv, beq_self_eq_true, if_true]
            exact ((pushBack_flat vm (key i) i).append_left _).trans List.perm_middle
          · simpa [hv] using a2
        | true =>
          obtain ⟨a1, a2, a3, a4, a5, a6⟩ := ih vm (cm.pushBack (key i) i)
            h1 (pushBack_mem cm (key i) i key rfl h2) h3 (nodupStep _ _ _ h4)
          simp only [bundleRays, hv]
          refine ⟨?_, a2.trans ?_, a3, a4, a5, a6⟩
          · simpa [hv] using a1
          · simp only [List.filter_cons, hv, beq_self_eq_true, if_true]
            exact ((pushBack_flat cm (key i) i).append_left _).trans List.perm_middle
  have := gen order [] [] (by simp) (by simp) (by simp) (by simp)
  simpa using this

example : bundleRays (fun i => if i = 2 then none else some (i == 3)) (fun i => ⟨i / 2, 0, 0⟩)
    [1, 0, 2, 3] ([], []) = ([(⟨0, 0, 0⟩, [1, 0])], [(⟨1, 0, 0⟩, [3])]) := by decide

end Vox.Props
