/-
Runs of the threads of the alignment: invariants over all schedules.
-/
import Verif.Props.IcpMatch
import Verif.Props.Icp

namespace Vox.Icp

open Geo Layer Grid Spec

/-! ### One action and many -/

theorem act_cases {L : Lib ℚ} {c : Config} {l : VLayer (TsdfVoxel ℚ)} {points : List Pt} {s s' : State} {k : ℕ}
    (h : act L c l points s k = .ok s') :
    (s.threads[k]? = none ∧ s' = s) ∨
    ∃ ph r, s.threads[k]? = some ph ∧ advance L c l points s.shared ph = .ok r ∧ s' = ⟨r.1, s.threads.set k r.2⟩ := by
  unfold act at h
  split at h
  · rename_i e
    exact .inl ⟨e, (Outcome.ok.inj h).symm⟩
  · rename_i ph e
    obtain ⟨r, hr, h⟩ := Outcome.bind_eq_ok.1 h
    exact .inr ⟨ph, r, e, hr, (Outcome.ok.inj h).symm⟩

theorem run_induct {L : Lib ℚ} {c : Config} {l : VLayer (TsdfVoxel ℚ)} {points : List Pt} (P : State → Prop)
    (hstep : ∀ s k s', P s → act L c l points s k = .ok s' → P s') {ks : List ℕ} :
    ∀ {s s' : State}, P s → run L c l points ks s = .ok s' → P s' := by
  induction ks with
  | nil => intro s s' hp h; rw [← Outcome.ok.inj h]; exact hp
  | cons k ks ih =>
    intro s s' hp h
    obtain ⟨s1, h1, h2⟩ := Outcome.bind_eq_ok.1 h
    exact ih (hstep s k s1 hp h1) h2

theorem run_append {L : Lib ℚ} {c : Config} {l : VLayer (TsdfVoxel ℚ)} {points : List Pt} (ks ks' : List ℕ) (s : State) :
    run L c l points (ks ++ ks') s = run L c l points ks s >>= run L c l points ks' := by
  induction ks generalizing s with
  | nil => rfl
  | cons k ks ih =>
    show (act L c l points s k >>= fun s' => run L c l points (ks ++ ks') s') = (act L c l points s k >>= fun s' => run L c l points ks s') >>= _
    cases h : act L c l points s k with
    | ok s1 => exact ih s1
    | fatal => rfl
    | ub => rfl

/-- What an action of a thread can do to the shared data. -/
theorem advance_cases {L : Lib ℚ} {c : Config} {l : VLayer (TsdfVoxel ℚ)} {points : List Pt} {s : Shared} {ph : Phase} {r : Shared × Phase}
    (h : advance L c l points s ph = .ok r) :
    (ph = .fresh ∧ r = (s, .idle s.pose)) ∨
    (∃ p, ph = .idle p ∧ beyond c points s.next = true ∧ r = ({ s with next := s.next + c.batch }, .done)) ∨
    (∃ p, ph = .idle p ∧ beyond c points s.next = false ∧
      r = ({ s with next := s.next + c.batch, taken := s.taken ++ [s.next] }, .busy p s.next)) ∨
    (∃ p st, ph = .busy p st ∧ stepICP L c l points st p = .ok none ∧ r = (s, .idle p)) ∨
    (∃ p st delta est, ph = .busy p st ∧ stepICP L c l points st p = .ok (some (delta, est)) ∧
      r = ({ s with pose := fuse L s.info est s.pose delta, info := s.info.add est, updates := s.updates + 1 },
        .idle (fuse L s.info est s.pose delta))) ∨
    (ph = .done ∧ r = (s, .done)) := by
  cases ph with
  | fresh => exact .inl ⟨rfl, (Outcome.ok.inj h).symm⟩
  | idle p =>
    have e := Outcome.ok.inj h
    unfold take at e
    dsimp only at e
    cases hb : beyond c points s.next with
    | true =>
      rw [hb, if_pos rfl] at e
      exact .inr (.inl ⟨p, rfl, rfl, e.symm⟩)
    | false =>
      rw [hb, if_neg (by decide)] at e
      exact .inr (.inr (.inl ⟨p, rfl, rfl, e.symm⟩))
  | busy p st =>
    obtain ⟨o, ho, h⟩ := Outcome.bind_eq_ok.1 h
    have e := (Outcome.ok.inj h).symm
    cases o with
    | none => exact .inr (.inr (.inr (.inl ⟨p, st, rfl, ho, e⟩)))
    | some x => exact .inr (.inr (.inr (.inr (.inl ⟨p, st, x.1, x.2, rfl, ho, e⟩))))
  | done => exact .inr (.inr (.inr (.inr (.inr ⟨rfl, (Outcome.ok.inj h).symm⟩))))

/-- An invariant of the shared data that every action of a thread keeps. -/
theorem shared_induct {L : Lib ℚ} {c : Config} {l : VLayer (TsdfVoxel ℚ)} {points : List Pt} (P : Shared → Prop)
    (hnext : ∀ s n t, P s → P { s with next := n, taken := t })
    (hfuse : ∀ s p st delta est, P s → stepICP L c l points st p = .ok (some (delta, est)) →
      P { s with pose := fuse L s.info est s.pose delta, info := s.info.add est, updates := s.updates + 1 })
    {ks : List ℕ} {s s' : State} (h0 : P s.shared) (h : run L c l points ks s = .ok s') : P s'.shared := by
  refine run_induct (fun s => P s.shared) ?_ h0 h
  intro s k s' hp ha
  rcases act_cases ha with ⟨-, rfl⟩ | ⟨ph, r, -, hr, rfl⟩
  · exact hp
  · rcases advance_cases hr with ⟨-, rfl⟩ | ⟨p, -, -, rfl⟩ | ⟨p, -, -, rfl⟩ | ⟨p, st, -, -, rfl⟩ | ⟨p, st, d, e, -, hs, rfl⟩ | ⟨-, rfl⟩
    · exact hp
    · exact hnext s.shared _ s.shared.taken hp
    · exact hnext s.shared _ _ hp
    · exact hp
    · exact hfuse s.shared p st d e hp hs
    · exact hp

/-! ### The batches -/

theorem beyond_iff (c : Config) (points : List Pt) (st : ℕ) : beyond c points st = true ↔ c.keepRatio * points.length < st := by
  unfold beyond; exact decide_eq_true_iff

theorem beyond_mono {c : Config} {points : List Pt} {a b : ℕ} (h : a ≤ b) (ha : beyond c points a = true) : beyond c points b = true := by
  rw [beyond_iff] at *
  have : (a : ℚ) ≤ b := by exact_mod_cast h
  linarith

/-- Which batches have been taken so far. -/
structure Taken (c : Config) (points : List Pt) (s : State) (k : ℕ) : Prop where
  taken : s.shared.taken = (List.range k).map (· * c.batch)
  within : ∀ j < k, beyond c points (j * c.batch) = false
  next : s.shared.next = k * c.batch ∨ (beyond c points (k * c.batch) = true ∧ k * c.batch ≤ s.shared.next)
  done : Phase.done ∈ s.threads → beyond c points (k * c.batch) = true

theorem taken_act {L : Lib ℚ} {c : Config} {l : VLayer (TsdfVoxel ℚ)} {points : List Pt} {s s' : State} {k i : ℕ} (hi : Taken c points s k)
    (h : act L c l points s i = .ok s') : ∃ k', Taken c points s' k' := by
  rcases act_cases h with ⟨-, rfl⟩ | ⟨ph, r, hph, hr, rfl⟩
  · exact ⟨k, hi⟩
  have dn : ∀ q, q ≠ Phase.done → Phase.done ∈ s.threads.set i q → Phase.done ∈ s.threads := by
    intro q hq hm
    rcases List.mem_or_eq_of_mem_set hm with h | h
    · exact h
    · exact (hq h.symm).elim
  rcases advance_cases hr with ⟨-, rfl⟩ | ⟨p, -, hb, rfl⟩ | ⟨p, -, hb, rfl⟩ | ⟨p, st, -, -, rfl⟩ | ⟨p, st, d, e, -, hs, rfl⟩ | ⟨hd, rfl⟩
  · exact ⟨k, hi.taken, hi.within, hi.next, fun hm => hi.done (dn _ (by simp) hm)⟩
  · have bk : beyond c points (k * c.batch) = true := by
      rcases hi.next with e | ⟨e, -⟩
      · rw [← e]; exact hb
      · exact e
    refine ⟨k, hi.taken, hi.within, .inr ⟨bk, ?_⟩, fun _ => bk⟩
    show k * c.batch ≤ s.shared.next + c.batch
    rcases hi.next with e | ⟨-, e⟩ <;> omega
  · have en : s.shared.next = k * c.batch := by
      rcases hi.next with e | ⟨e1, e2⟩
      · exact e
      · rw [beyond_mono e2 e1] at hb; cases hb
    have nd : Phase.done ∉ s.threads := fun hm => by
      have := hi.done hm
      rw [← en, hb] at this; cases this
    refine ⟨k + 1, ?_, ?_, ?_, ?_⟩
    · show s.shared.taken ++ [s.shared.next] = _
      rw [hi.taken, List.range_succ, List.map_append, en]
      rfl
    · intro j hj
      rcases Nat.lt_succ_iff_lt_or_eq.1 hj with h | rfl
      · exact hi.within j h
      · rw [← en]; exact hb
    · left
      show s.shared.next + c.batch = _
      rw [en]; ring
    · intro hm
      exact (nd (dn _ (by simp) hm)).elim
  · exact ⟨k, hi.taken, hi.within, hi.next, fun hm => hi.done (dn _ (by simp) hm)⟩
  · exact ⟨k, hi.taken, hi.within, hi.next, fun hm => hi.done (dn _ (by simp) hm)⟩
  · subst hd
    refine ⟨k, hi.taken, hi.within, hi.next, fun _ => hi.done ?_⟩
    exact List.mem_of_getElem? hph

theorem taken_run {L : Lib ℚ} {c : Config} {l : VLayer (TsdfVoxel ℚ)} {points : List Pt} {initial : Pose ℚ} {ks : List ℕ} {s : State}
    (h : run L c l points ks (start c initial) = .ok s) : ∃ k, Taken c points s k := by
  refine run_induct (fun s => ∃ k, Taken c points s k) (fun s k s' ⟨j, hj⟩ ha => taken_act hj ha) ?_ h
  refine ⟨0, rfl, fun j hj => by omega, .inl (by simp [start]), fun hm => ?_⟩
  have := List.eq_of_mem_replicate hm
  cases this

theorem threads_length {L : Lib ℚ} {c : Config} {l : VLayer (TsdfVoxel ℚ)} {points : List Pt} {ks : List ℕ} {s s' : State}
    (h : run L c l points ks s = .ok s') : s'.threads.length = s.threads.length := by
  refine run_induct (fun t => t.threads.length = s.threads.length) ?_ rfl h
  intro a k b ha hb
  rcases act_cases hb with ⟨-, rfl⟩ | ⟨ph, r, -, -, rfl⟩
  · exact ha
  · rw [List.length_set]; exact ha

/-- The batches one after the other are a piece of the points. -/
theorem batches_flatten {α : Type} (points : List α) (b k : ℕ) :
    (((List.range k).map (· * b)).map fun st => (points.drop st).take b).flatten = points.take (k * b) := by
  induction k with
  | zero => simp
  | succ k ih =>
    rw [List.range_succ, List.map_append, List.map_append, List.flatten_append, ih]
    simp only [List.map_cons, List.map_nil, List.flatten_cons, List.flatten_nil, List.append_nil]
    rw [Nat.succ_mul, List.take_add]

/-! ### Termination -/

/-- How many actions a thread has left, batches yet to be taken aside. -/
def left : Phase → ℕ
  | .fresh => 2
  | .idle _ => 1
  | .busy _ _ => 2
  | .done => 0

/-- How many actions are left if there are `K` batches. -/
def measure (K : ℕ) (s : State) : ℕ := 2 * (K - s.shared.taken.length) + (s.threads.map left).sum

theorem sum_set {α : Type} (w : α → ℕ) : ∀ (l : List α) (k : ℕ) (x a : α), l[k]? = some x →
    ((l.set k a).map w).sum + w x = (l.map w).sum + w a := by
  intro l
  induction l with
  | nil => intro k x a h; simp at h
  | cons y l ih =>
    intro k x a h
    cases k with
    | zero =>
      simp only [List.getElem?_cons_zero, Option.some.injEq] at h
      subst h
      simp only [List.set_cons_zero, List.map_cons, List.sum_cons]
      omega
    | succ k =>
      rw [List.getElem?_cons_succ] at h
      have := ih k x a h
      simp only [List.set_cons_succ, List.map_cons, List.sum_cons]
      omega

theorem measure_act {L : Lib ℚ} {c : Config} {l : VLayer (TsdfVoxel ℚ)} {points : List Pt} {s s' : State} {k i K : ℕ} (hi : Taken c points s k)
    (hK : beyond c points (K * c.batch) = true) (h : act L c l points s i = .ok s') :
    measure K s' ≤ measure K s ∧ (∀ ph, s.threads[i]? = some ph → ph ≠ .done → measure K s' < measure K s) ∧
      ∀ j, j ≠ i → s'.threads[j]? = s.threads[j]? := by
  rcases act_cases h with ⟨e, rfl⟩ | ⟨ph, r, hph, hr, rfl⟩
  · exact ⟨le_rfl, fun ph hp => by rw [e] at hp; (cases hp), fun _ _ => rfl⟩
  have st := fun a => sum_set left s.threads i ph a hph
  have other : ∀ q : Phase, ∀ j, j ≠ i → (s.threads.set i q)[j]? = s.threads[j]? := fun q j hj => List.getElem?_set_ne (Ne.symm hj)
  have key : measure K ⟨r.1, s.threads.set i r.2⟩ < measure K s ∨
      (ph = .done ∧ measure K ⟨r.1, s.threads.set i r.2⟩ = measure K s) := by
    rcases advance_cases hr with ⟨rfl, rfl⟩ | ⟨p, rfl, hb, rfl⟩ | ⟨p, rfl, hb, rfl⟩ | ⟨p, t, rfl, -, rfl⟩ | ⟨p, t, d, e, rfl, hs, rfl⟩ | ⟨rfl, rfl⟩
    · left; have := st (.idle s.shared.pose); simp only [measure, left] at *; omega
    · left; have := st .done; simp only [measure, left] at *; omega
    · left
      have hk : k < K := by
        by_contra hle
        have en : s.shared.next = k * c.batch := by
          rcases hi.next with e | ⟨e1, e2⟩
          · exact e
          · rw [beyond_mono e2 e1] at hb; cases hb
        have := beyond_mono (Nat.mul_le_mul_right c.batch (Nat.le_of_not_lt hle)) hK
        rw [← en, hb] at this
        cases this
      have tl : s.shared.taken.length = k := by rw [hi.taken]; simp
      have := st (.busy p s.shared.next)
      simp only [measure, left, List.length_append, List.length_cons, List.length_nil] at *
      omega
    · left; have := st (.idle p); simp only [measure, left] at *; omega
    · left; have := st (.idle (fuse L s.shared.info e s.shared.pose d)); simp only [measure, left] at *; omega
    · right; have := st .done; simp only [measure, left] at *; exact ⟨trivial, by omega⟩
  refine ⟨?_, ?_, other r.2⟩
  · rcases key with h | ⟨-, h⟩
    · exact h.le
    · exact h.le
  · intro ph' hp' hne
    rw [hph] at hp'
    cases hp'
    rcases key with h | ⟨h, -⟩
    · exact h
    · exact (hne h).elim

theorem measure_run {L : Lib ℚ} {c : Config} {l : VLayer (TsdfVoxel ℚ)} {points : List Pt} {K : ℕ}
    (hK : beyond c points (K * c.batch) = true) {ks : List ℕ} :
    ∀ {s s' : State}, (∃ k, Taken c points s k) → run L c l points ks s = .ok s' → measure K s' ≤ measure K s ∧
      ∀ i ∈ ks, ∀ ph, s.threads[i]? = some ph → ph ≠ .done → measure K s' < measure K s := by
  induction ks with
  | nil =>
    intro s s' _ h
    rw [← Outcome.ok.inj h]
    exact ⟨le_rfl, fun i hi => by simp at hi⟩
  | cons j ks ih =>
    intro s s' ⟨k, hk⟩ h
    obtain ⟨s1, h1, h2⟩ := Outcome.bind_eq_ok.1 h
    obtain ⟨a1, a2, a3⟩ := measure_act hk hK h1
    obtain ⟨b1, b2⟩ := ih (taken_act hk h1) h2
    refine ⟨b1.trans a1, ?_⟩
    intro i hi ph hph hne
    by_cases e : i = j
    · subst e
      exact b1.trans_lt (a2 ph hph hne)
    · have hi' : i ∈ ks := by
        rcases List.mem_cons.1 hi with h | h
        · exact (e h).elim
        · exact h
      exact (b2 i hi' ph (by rw [a3 i e]; exact hph) hne).trans_le a1

theorem measure_zero {K : ℕ} {s : State} (h : measure K s = 0) : s.finished := by
  intro ph hm
  have : left ph = 0 := by
    have hs : (s.threads.map left).sum = 0 := by unfold measure at h; omega
    exact List.sum_eq_zero_iff.1 hs _ (List.mem_map_of_mem hm)
  cases ph <;> simp [left] at this ⊢

theorem act_finished {L : Lib ℚ} {c : Config} {l : VLayer (TsdfVoxel ℚ)} {points : List Pt} {s s' : State} {k : ℕ} (hf : s.finished)
    (h : act L c l points s k = .ok s') : s' = s := by
  rcases act_cases h with ⟨-, rfl⟩ | ⟨ph, r, hph, hr, rfl⟩
  · rfl
  · have := hf ph (List.mem_of_getElem? hph)
    subst this
    have e : r = (s.shared, .done) := (Outcome.ok.inj hr).symm
    subst e
    have : s.threads.set k Phase.done = s.threads := by
      apply List.ext_getElem?
      intro i
      by_cases e : i = k
      · subst e
        rw [List.getElem?_set_self', hph]; rfl
      · rw [List.getElem?_set_ne (Ne.symm e)]
    rw [this]

theorem run_finished {L : Lib ℚ} {c : Config} {l : VLayer (TsdfVoxel ℚ)} {points : List Pt} {ks : List ℕ} {s s' : State} (hf : s.finished)
    (h : run L c l points ks s = .ok s') : s' = s := by
  refine run_induct (fun t => t = s) ?_ rfl h
  rintro t k t' rfl ha
  exact act_finished hf ha

/-- Rounds in which every thread acts. -/
theorem rounds {L : Lib ℚ} {c : Config} {l : VLayer (TsdfVoxel ℚ)} {points : List Pt} {K : ℕ}
    (hK : beyond c points (K * c.batch) = true) (rs : List (List ℕ)) :
    ∀ {s s' : State}, (∃ k, Taken c points s k) → (∀ r ∈ rs, ∀ k < s.threads.length, k ∈ r) → run L c l points rs.flatten s = .ok s' →
      s'.finished ∨ measure K s' + rs.length ≤ measure K s := by
  induction rs with
  | nil =>
    intro s s' _ _ h
    rw [← Outcome.ok.inj h]
    right; simp
  | cons r rs ih =>
    intro s s' hk hr h
    rw [List.flatten_cons, run_append] at h
    obtain ⟨s1, h1, h2⟩ := Outcome.bind_eq_ok.1 h
    obtain ⟨m1, m2⟩ := measure_run hK hk h1
    have k1 : ∃ k, Taken c points s1 k := run_induct (fun s => ∃ k, Taken c points s k) (fun s k s' ⟨j, hj⟩ ha => taken_act hj ha) hk h1
    have ln := threads_length h1
    by_cases hf : s.finished
    · have := run_finished hf h1
      subst this
      left
      rw [run_finished hf h2]
      exact hf
    · unfold State.finished at hf
      push Not at hf
      obtain ⟨ph, hm, hne⟩ := hf
      obtain ⟨i, hi⟩ := List.mem_iff_getElem?.1 hm
      have il : i < s.threads.length := (List.getElem?_eq_some_iff.1 hi).1
      have lt := m2 i (hr r List.mem_cons_self i il) ph hi hne
      rcases ih k1 (fun r' hr' k hk => hr r' (List.mem_cons_of_mem _ hr') k (by omega)) h2 with h | h
      · exact .inl h
      · right; rw [List.length_cons]; omega

end Vox.Icp
