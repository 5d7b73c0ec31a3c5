/-
Calls of the fast integrator one after the other.
-/
import Verif.Model.FastCalls
import Verif.Spec.FastCalls
import Verif.Props.TsdfFast

namespace Vox.TsdfScan

open Layer Grid Tsdf Ray Spec

theorem present_iff {h : ApproxHash.HSet} {a : ℕ} : Present h a ↔ ApproxHash.slotOf maskedBits h a < ApproxHash.setSize maskedBits fullReset ∧
    h.slots (ApproxHash.slotOf maskedBits h a) = a := by
  unfold Present ApproxHash.present Outcome.require
  by_cases hi : ApproxHash.slotOf maskedBits h a < ApproxHash.setSize maskedBits fullReset
  · simp [hi]
  · simp [hi]

theorem store_present {h h' : ApproxHash.HSet} {a b : ℕ} (hs : ApproxHash.store maskedBits fullReset h a = .ok h')
    (hc : a % 2 ^ 20 = b % 2 ^ 20 → a = b) (hb : b = a ∨ Present h b) : Present h' b := by
  unfold ApproxHash.store Outcome.require at hs
  by_cases hi : ApproxHash.slotOf maskedBits h a < ApproxHash.setSize maskedBits fullReset
  · simp only [hi, decide_true, if_true] at hs
    have hs' := Outcome.ok.inj hs
    subst hs'
    have em : ∀ x, x &&& ApproxHash.bitMask maskedBits = x % 2 ^ 20 := fun x => by
      unfold ApproxHash.bitMask maskedBits
      rw [Nat.one_shiftLeft, Nat.and_two_pow_sub_one_eq_mod]
    rcases hb with rfl | hb
    · exact present_iff.2 ⟨hi, if_pos rfl⟩
    · obtain ⟨h1, h2⟩ := present_iff.1 hb
      refine present_iff.2 ⟨h1, ?_⟩
      show (if ApproxHash.slotOf maskedBits h b = ApproxHash.slotOf maskedBits h a then a else h.slots (ApproxHash.slotOf maskedBits h b)) = b
      split_ifs with e
      · refine hc ?_
        unfold ApproxHash.slotOf at e
        rw [em, em] at e
        omega
      · exact h2
  · simp [hi] at hs

/-- The points taken so far: their start voxels are in the set, or a worker is about to put them there; unless somebody has run out of time. -/
structure Taken (n : ℕ) (js : List FastJob) (s : FastPool) : Prop where
  todo : ∀ j ∈ s.todo, j ∈ js
  starting : ∀ t g ws, s.stage t = .starting g ws → (.ok (some (g, ws)) : FastJob) ∈ js
  taken : (∃ t < n, s.stage t = .left) ∨ ∀ g ws, (.ok (some (g, ws)) : FastJob) ∈ js → (.ok (some (g, ws)) : FastJob) ∈ s.todo ∨
    Present s.start (ApproxHash.longIndexHash g) ∨ ∃ t < n, ∃ ws', s.stage t = .starting g ws'

theorem stage_cases {f : ℕ → Stage} {t : ℕ} {x : Stage} (u : ℕ) : Function.update f t x u = if u = t then x else f u := by
  by_cases h : u = t
  · subst h; simp
  · simp [h]

theorem Taken.move {n : ℕ} {js : List FastJob} {s s' : FastPool} (h : Taken n js s) {t : ℕ} {x : Stage} (ht : s'.todo = s.todo) (hst : s'.start = s.start)
    (hs : s'.stage = Function.update s.stage t x) (h1 : s.stage t ≠ .left) (h2 : ∀ g ws, s.stage t ≠ .starting g ws) (h3 : ∀ g ws, x ≠ .starting g ws) : Taken n js s' := by
  refine ⟨by rw [ht]; exact h.todo, fun u g ws e => ?_, ?_⟩
  · rw [hs, stage_cases] at e
    split_ifs at e with hu
    · exact absurd e (h3 g ws)
    · exact h.starting u g ws e
  · rcases h.taken with ⟨u, hu, e⟩ | h4
    · refine Or.inl ⟨u, hu, ?_⟩
      rw [hs, stage_cases, if_neg, e]
      rintro rfl
      exact h1 e
    · refine Or.inr fun g ws hj => ?_
      rw [ht, hst]
      refine (h4 g ws hj).imp id (Or.imp id ?_)
      rintro ⟨u, hu, ws', e⟩
      refine ⟨u, hu, ws', ?_⟩
      rw [hs, stage_cases, if_neg, e]
      rintro rfl
      exact h2 g ws' e

theorem Taken.act {A : Arith} {P : Params} {n : ℕ} {js : List FastJob} (hn : NoClash js) {s s' : FastPool} (h : Taken n js s) (ha : FastAct A P n s s') :
    Taken n js s' := by
  cases ha with
  | reject t rest ht hi hj =>
    refine ⟨fun j hm => h.todo j (by rw [hj]; exact List.mem_cons_of_mem _ hm), h.starting, h.taken.imp id fun h4 g ws hg => ?_⟩
    rcases h4 g ws hg with h5 | h5
    · rw [hj] at h5
      rcases List.mem_cons.1 h5 with e | h5
      · cases e
      · exact Or.inl h5
    · exact Or.inr h5
  | known t g₀ ws₀ rest ht hi hj hp =>
    refine ⟨fun j hm => h.todo j (by rw [hj]; exact List.mem_cons_of_mem _ hm), h.starting, h.taken.imp id fun h4 g ws hg => ?_⟩
    rcases h4 g ws hg with h5 | h5
    · rw [hj] at h5
      rcases List.mem_cons.1 h5 with e | h5
      · have e1 := Option.some.inj (Outcome.ok.inj e)
        obtain ⟨rfl, rfl⟩ := Prod.mk.inj e1
        exact Or.inr (Or.inl hp)
      · exact Or.inl h5
    · exact Or.inr h5
  | start t g₀ ws₀ rest ht hi hj hp =>
    refine ⟨fun j hm => h.todo j (by rw [hj]; exact List.mem_cons_of_mem _ hm), fun u g ws e => ?_, ?_⟩
    · have e : Function.update s.stage t (.starting g₀ ws₀) u = .starting g ws := e
      rw [stage_cases] at e
      split_ifs at e with hu
      · obtain ⟨rfl, rfl⟩ := Stage.starting.inj e
        exact h.todo _ (by rw [hj]; exact List.mem_cons_self)
      · exact h.starting u g ws e
    · rcases h.taken with ⟨u, hu, e⟩ | h4
      · refine Or.inl ⟨u, hu, ?_⟩
        show Function.update s.stage t _ u = _
        rw [stage_cases, if_neg, e]
        rintro rfl
        rw [hi] at e
        cases e
      · refine Or.inr fun g ws hg => ?_
        rcases h4 g ws hg with h5 | h5 | ⟨u, hu, ws', e⟩
        · rw [hj] at h5
          rcases List.mem_cons.1 h5 with e | h5
          · have e1 := Option.some.inj (Outcome.ok.inj e)
            obtain ⟨rfl, rfl⟩ := Prod.mk.inj e1
            refine Or.inr (Or.inr ⟨t, ht, ws, ?_⟩)
            show Function.update s.stage t _ t = _
            rw [stage_cases, if_pos rfl]
          · exact Or.inl h5
        · exact Or.inr (Or.inl h5)
        · refine Or.inr (Or.inr ⟨u, hu, ws', ?_⟩)
          show Function.update s.stage t _ u = _
          rw [stage_cases, if_neg, e]
          rintro rfl
          rw [hi] at e
          cases e
  | begin t g₀ ws₀ x ht hi hst =>
    refine ⟨h.todo, fun u g ws e => ?_, ?_⟩
    · have e : Function.update s.stage t (.casting ws₀ 0) u = .starting g ws := e
      rw [stage_cases] at e
      split_ifs at e with hu
      exact h.starting u g ws e
    · rcases h.taken with ⟨u, hu, e⟩ | h4
      · refine Or.inl ⟨u, hu, ?_⟩
        show Function.update s.stage t _ u = _
        rw [stage_cases, if_neg, e]
        rintro rfl
        rw [hi] at e
        cases e
      · refine Or.inr fun g ws hg => ?_
        have hc := hn g₀ ws₀ g ws (h.starting t g₀ ws₀ hi) hg
        rcases h4 g ws hg with h5 | h5 | ⟨u, hu, ws', e⟩
        · exact Or.inl h5
        · exact Or.inr (Or.inl (store_present hst hc (Or.inr h5)))
        · by_cases hut : u = t
          · subst hut
            rw [hi] at e
            obtain ⟨rfl, -⟩ := Stage.starting.inj e
            exact Or.inr (Or.inl (store_present hst (fun _ => rfl) (Or.inl rfl)))
          · refine Or.inr (Or.inr ⟨u, hu, ws', ?_⟩)
            show Function.update s.stage t _ u = _
            rw [stage_cases, if_neg hut, e]
  | hit t w ws k ht hi hp =>
    exact h.move rfl rfl rfl (by rw [hi]; simp) (by rw [hi]; simp) (by unfold afterCheck; split_ifs <;> simp)
  | miss t w ws k ht hi hp => exact h.move rfl rfl rfl (by rw [hi]; simp) (by rw [hi]; simp) (by simp)
  | mark t w ws x ht hi hp =>
    exact h.move rfl rfl rfl (by rw [hi]; simp) (by rw [hi]; simp) (by unfold afterCheck; split_ifs <;> simp)
  | update t w ws k st ht hi hv => exact h.move rfl rfl rfl (by rw [hi]; simp) (by rw [hi]; simp) (by simp)
  | finish t k ht hi => exact h.move rfl rfl rfl (by rw [hi]; simp) (by rw [hi]; simp) (by simp)
  | leave t j rest ht hi hj =>
    refine ⟨fun j hm => h.todo j (by rw [hj]; exact List.mem_cons_of_mem _ hm), fun u g ws e => ?_, Or.inl ⟨t, ht, ?_⟩⟩
    · have e : Function.update s.stage t .left u = .starting g ws := e
      rw [stage_cases] at e
      split_ifs at e with hu
      exact h.starting u g ws e
    · show Function.update s.stage t _ t = _
      rw [stage_cases, if_pos rfl]

theorem taken_runs {A : Arith} {P : Params} {n : ℕ} {js : List FastJob} (hn : NoClash js) {s s' : FastPool} (h : Taken n js s) (hr : FastRuns A P n s s') :
    Taken n js s' := by
  induction hr with
  | refl => exact h
  | step _ ha ih => exact ih.act hn ha

/-- Nobody casts a ray. -/
structure Resting (n : ℕ) (s₀ s : FastPool) : Prop where
  store : s.store = s₀.store
  start : s.start = s₀.start
  todo : ∀ j ∈ s.todo, j ∈ s₀.todo
  stage : ∀ t < n, s.stage t = .idle ∨ s.stage t = .left

theorem Resting.act {A : Arith} {P : Params} {n : ℕ} {s₀ s s' : FastPool} (hk : ∀ g ws, (.ok (some (g, ws)) : FastJob) ∈ s₀.todo →
    Present s₀.start (ApproxHash.longIndexHash g)) (h : Resting n s₀ s) (ha : FastAct A P n s s') : Resting n s₀ s' := by
  have no : ∀ t < n, ∀ x, s.stage t = x → x = .idle ∨ x = .left := fun t ht x e => e ▸ h.stage t ht
  cases ha with
  | reject t rest ht hi hj => exact ⟨h.store, h.start, fun j hm => h.todo j (by rw [hj]; exact List.mem_cons_of_mem _ hm), h.stage⟩
  | known t g ws rest ht hi hj hp => exact ⟨h.store, h.start, fun j hm => h.todo j (by rw [hj]; exact List.mem_cons_of_mem _ hm), h.stage⟩
  | start t g ws rest ht hi hj hp =>
    have := hk g ws (h.todo _ (by rw [hj]; exact List.mem_cons_self))
    rw [← h.start] at this
    unfold Present at this
    rw [hp] at this
    cases this
  | begin t g ws x ht hi hst => rcases no t ht _ hi with e | e <;> cases e
  | hit t w ws k ht hi hp => rcases no t ht _ hi with e | e <;> cases e
  | miss t w ws k ht hi hp => rcases no t ht _ hi with e | e <;> cases e
  | mark t w ws x ht hi hp => rcases no t ht _ hi with e | e <;> cases e
  | update t w ws k st ht hi hv => rcases no t ht _ hi with e | e <;> cases e
  | finish t k ht hi => rcases no t ht _ hi with e | e <;> cases e
  | leave t j rest ht hi hj =>
    refine ⟨h.store, h.start, fun j hm => h.todo j (by rw [hj]; exact List.mem_cons_of_mem _ hm), fun u hu => ?_⟩
    show Function.update s.stage t .left u = _ ∨ Function.update s.stage t .left u = _
    rw [stage_cases]
    split_ifs
    · exact Or.inr rfl
    · exact h.stage u hu

theorem resting_runs {A : Arith} {P : Params} {n : ℕ} {s₀ s : FastPool} (hk : ∀ g ws, (.ok (some (g, ws)) : FastJob) ∈ s₀.todo →
    Present s₀.start (ApproxHash.longIndexHash g)) (h0 : ∀ t, s₀.stage t = .idle) (hr : FastRuns A P n s₀ s) : Resting n s₀ s := by
  induction hr with
  | refl => exact ⟨rfl, rfl, fun _ h => h, fun t _ => Or.inl (h0 t)⟩
  | step _ ha ih => exact ih.act hk ha

end Vox.TsdfScan
