/-
C79: timers and their statistics.
-/
import Verif.Lemmas.Timing
import Mathlib.Algebra.Order.BigOperators.Group.List

namespace Vox.Timing

open TimingSpec

/-- The number in a finite float. -/
def number : Fl → ℚ
  | .fin q => q
  | _ => 0

/-- Without rounding the statistics are those of the samples: count, sum, mean over all, mean and variance over the last `n`, the minimum if no sample
exceeds the largest float, and the maximum if a sample is at least the smallest positive normal float. -/
theorem C79_statistics {n : ℕ} (hn : 0 < n) (sq : ℚ → Fl) {ss : List ℚ} (hl : ss.length < 2 ^ 31) (h0 : ss ≠ []) :
    ∃ a, addAll (Arith.exact sq) n Acc.new (ss.map Fl.fin) = .ok a ∧ a.totalSamples = ss.length ∧ a.sum = .fin ss.sum ∧
      a.mean (Arith.exact sq) = .fin (average ss) ∧
      a.rollingMean (Arith.exact sq) n = .fin (average (latest n ss)) ∧
      a.lazyVariance (Arith.exact sq) n = .fin (variance (latest n ss)) ∧
      ((∀ s ∈ ss, s ≤ dblMax) → ∃ m ∈ ss, a.min = .fin m ∧ ∀ s ∈ ss, m ≤ s) ∧
      ((∃ s ∈ ss, dblMin ≤ s) → ∃ m ∈ ss, a.max = .fin m ∧ ∀ s ∈ ss, s ≤ m) := by
  obtain ⟨a, e, h⟩ := after_all hn sq ss hl
  have hp : 0 < ss.length := List.length_pos_of_ne_nil h0
  have hlat : (latest n ss).length = Min.min ss.length n := by
    unfold latest
    rw [List.length_drop]
    omega
  have hroll : a.rollingMean (Arith.exact sq) n = .fin (average (latest n ss)) := by
    unfold Acc.rollingMean average
    rw [h.windowSum, h.window, hlat]
    show (if _ then _ else _) = _
    rw [if_neg]
    · rfl
    · have : Min.min ss.length n ≠ 0 := by omega
      exact_mod_cast this
  refine ⟨a, e, h.total, h.sum, ?_, hroll, ?_, ?_, ?_⟩
  · unfold Acc.mean average
    rw [h.sum, h.total]
    show (if _ then _ else _) = _
    rw [if_neg]
    · rfl
    · exact_mod_cast hp.ne'
  · unfold Acc.lazyVariance
    rw [if_neg (by rw [h.window]; omega), hroll]
    have hL : (a.samples.map number).map Fl.fin = a.samples := by
      rw [List.map_map]
      conv_rhs => rw [← List.map_id a.samples]
      refine List.map_congr_left fun x hx => ?_
      obtain ⟨q, -, rfl⟩ := List.mem_map.1 (h.perm.mem_iff.1 hx)
      rfl
    have hperm : (a.samples.map number).Perm (latest n ss) := by
      have := h.perm.map number
      rw [List.map_map] at this
      have e : (latest n ss).map (number ∘ Fl.fin) = latest n ss := by
        conv_rhs => rw [← List.map_id (latest n ss)]
        rfl
      rwa [e] at this
    rw [← hL, foldl_exact, zero_add, (hperm.map _).sum_eq, h.window, ← hlat]
    unfold variance
    show (if _ then _ else _) = _
    rw [if_neg]
    · rfl
    · have : (latest n ss).length ≠ 0 := by omega
      exact_mod_cast this
  · intro hs
    obtain ⟨m, e1, h1, h2, h3⟩ := h.min
    rcases h1 with rfl | h1
    · obtain ⟨s, hs'⟩ := List.exists_mem_of_ne_nil _ h0
      have : s = dblMax := le_antisymm (hs s hs') (h3 s hs')
      subst this
      exact ⟨_, hs', e1, h3⟩
    · exact ⟨m, h1, e1, h3⟩
  · rintro ⟨s, hs, hd⟩
    obtain ⟨m, e1, h1, h2, h3⟩ := h.max
    rcases h1 with rfl | h1
    · have : s = dblMin := le_antisymm (h3 s hs) hd
      subst this
      exact ⟨_, hs, e1, h3⟩
    · exact ⟨m, h1, e1, h3⟩

example : ([1, 2, 4] : List ℚ).length < 2 ^ 31 ∧ ([1, 2, 4] : List ℚ) ≠ [] ∧ (∃ s ∈ ([1, 2, 4] : List ℚ), dblMin ≤ s) := by
  refine ⟨by norm_num, by simp, 1, by simp, by decide +kernel⟩

example : (match addAll (Arith.exact fun _ => .nan) 2 Acc.new [.fin 1, .fin 2, .fin 4] with
    | .ok a => decide (a.rollingMean (Arith.exact fun _ => .nan) 2 = .fin 3 ∧ a.lazyVariance (Arith.exact fun _ => .nan) 2 = .fin 1 ∧ a.min = .fin 1 ∧ a.max = .fin 4 ∧
        a.samples = [.fin 4, .fin 2])
    | _ => false) = true := by decide +kernel

/-- When all samples are below the smallest positive normal float (as with a clock that does not advance or is set back) the reported maximum is
none of them. -/
theorem C79_max_violated : ∀ ss : List ℚ, (∀ s ∈ ss, s ≤ 0) → ss.length < 2 ^ 31 →
    ∃ a, addAll (Arith.exact fun _ => .nan) kWindow Acc.new (ss.map Fl.fin) = .ok a ∧ ∃ m, a.max = .fin m ∧ m ∉ ss ∧ 0 < m := by
  intro ss hs hl
  obtain ⟨a, e, h⟩ := after_all (n := kWindow) (by decide) (fun _ => .nan) ss hl
  obtain ⟨m, e1, -, h2, -⟩ := h.max
  have : 0 < m := lt_of_lt_of_le (by decide +kernel) h2
  exact ⟨a, e, m, e1, fun hm => absurd (hs m hm) (not_le.2 this), this⟩

example : ∀ s ∈ ([0, 0, -1] : List ℚ), s ≤ 0 := by
  intro s hs
  simp only [List.mem_cons, List.not_mem_nil, or_false] at hs
  rcases hs with rfl | rfl | rfl <;> norm_num

/-! ### The registry -/

/-- What happens at the registry. -/
def step (A : Arith) (r : Registry) : Event → Outcome Registry
  | .lookup tag => .ok (r.getHandle tag).2
  | .record h s => r.addTime A h s
  | .forget => .ok r.reset

/-- A history. -/
def run (A : Arith) (es : List Event) : Outcome Registry := es.foldlM (step A) Registry.new

/-- The tags are different, and so are their handles, which belong to timers. -/
structure Sound (r : Registry) : Prop where
  keys : (r.tags.map (·.1)).Nodup
  handles : (r.tags.map (·.2)).Nodup
  valid : ∀ e ∈ r.tags, e.2 < r.timers.length

theorem lookup_none {tags : List (String × ℕ)} {tag : String} (h : tags.lookup tag = none) : tag ∉ tags.map (·.1) := by
  induction tags with
  | nil => simp
  | cons e es ih =>
    rw [List.lookup_cons] at h
    cases hb : tag == e.1 with
    | true => rw [hb] at h; cases h
    | false =>
      rw [hb] at h
      rw [List.map_cons, List.mem_cons, not_or]
      exact ⟨fun e' => by rw [e'] at hb; simp at hb, ih h⟩

theorem lookup_some {tags : List (String × ℕ)} {tag : String} {h : ℕ} (e : tags.lookup tag = some h) : (tag, h) ∈ tags := by
  induction tags with
  | nil => cases e
  | cons x xs ih =>
    rw [List.lookup_cons] at e
    cases hb : tag == x.1 with
    | true =>
      rw [hb] at e
      have := Option.some.inj e
      rw [beq_iff_eq] at hb
      rw [hb, ← this]
      exact List.mem_cons_self
    | false =>
      rw [hb] at e
      exact List.mem_cons_of_mem _ (ih e)

theorem lookup_mem {tags : List (String × ℕ)} {tag : String} {h : ℕ} (hk : (tags.map (·.1)).Nodup) (e : (tag, h) ∈ tags) : tags.lookup tag = some h := by
  cases hl : tags.lookup tag with
  | none => exact absurd (List.mem_map_of_mem (f := (·.1)) e) (lookup_none hl)
  | some k =>
    have := List.inj_on_of_nodup_map hk (lookup_some hl) e rfl
    rw [Prod.mk.injEq] at this
    rw [this.2]

theorem getHandle_found {r : Registry} {tag : String} {h : ℕ} (e : r.tags.lookup tag = some h) : r.getHandle tag = (h, r) := by
  unfold Registry.getHandle
  rw [e]

theorem getHandle_keeps {r : Registry} {e : String × ℕ} (h : e ∈ r.tags) (tag : String) : e ∈ (r.getHandle tag).2.tags := by
  unfold Registry.getHandle
  split
  · exact h
  · exact List.mem_cons_of_mem _ h

theorem sound_handle {r : Registry} (h : Sound r) (tag : String) :
    Sound (r.getHandle tag).2 ∧ (tag, (r.getHandle tag).1) ∈ (r.getHandle tag).2.tags ∧ r.timers.length ≤ (r.getHandle tag).2.timers.length := by
  unfold Registry.getHandle
  cases e : r.tags.lookup tag with
  | some k => exact ⟨h, lookup_some e, le_refl _⟩
  | none =>
    dsimp only
    refine ⟨⟨?_, ?_, ?_⟩, List.mem_cons_self, by simp⟩
    · rw [List.map_cons, List.nodup_cons]
      exact ⟨lookup_none e, h.keys⟩
    · rw [List.map_cons, List.nodup_cons]
      refine ⟨?_, h.handles⟩
      intro hm
      obtain ⟨x, hx, hx'⟩ := List.mem_map.1 hm
      have := h.valid x hx
      omega
    · intro x hx
      rw [List.length_append, List.length_singleton]
      rcases List.mem_cons.1 hx with rfl | hx
      · exact Nat.lt_succ_self _
      · have := h.valid x hx
        omega

theorem addTime_ok {A : Arith} {r r' : Registry} {h : ℕ} {s : Fl} (e : r.addTime A h s = .ok r') :
    ∃ (hl : h < r.timers.length) (a : Acc), (r.timers[h]).add A kWindow s = .ok a ∧ r' = { r with timers := r.timers.set h a } := by
  unfold Registry.addTime at e
  rw [Outcome.bind_eq_ok] at e
  obtain ⟨a, e1, e⟩ := e
  rw [Outcome.bind_eq_ok] at e
  obtain ⟨b, e2, e⟩ := e
  unfold Registry.timer at e1
  have hl : h < r.timers.length := by
    by_contra hc
    rw [List.getElem?_eq_none (not_lt.1 hc)] at e1
    cases e1
  rw [List.getElem?_eq_getElem hl] at e1
  cases e1
  exact ⟨hl, b, e2, (Outcome.ok.inj e).symm⟩

theorem step_sound {A : Arith} {r r' : Registry} {e : Event} (h : Sound r) (hs : step A r e = .ok r') : Sound r' ∧ r.timers.length ≤ r'.timers.length := by
  cases e with
  | lookup tag =>
    cases hs
    have := sound_handle h tag
    exact ⟨this.1, this.2.2⟩
  | record k s =>
    obtain ⟨hl, a, -, rfl⟩ := addTime_ok hs
    exact ⟨⟨h.keys, h.handles, fun x hx => by rw [List.length_set]; exact h.valid x hx⟩, by rw [List.length_set]⟩
  | forget =>
    cases hs
    exact ⟨⟨by simp [Registry.reset], by simp [Registry.reset], by simp [Registry.reset]⟩, le_refl _⟩

theorem run_snoc {A : Arith} {es : List Event} {e : Event} {r : Registry} (h : run A (es ++ [e]) = .ok r) :
    ∃ r', run A es = .ok r' ∧ step A r' e = .ok r := by
  unfold run at h ⊢
  rw [List.foldlM_append, Outcome.bind_eq_ok] at h
  obtain ⟨r', h1, h2⟩ := h
  refine ⟨r', h1, ?_⟩
  rw [List.foldlM_cons, Outcome.bind_eq_ok] at h2
  obtain ⟨x, h2, h3⟩ := h2
  cases h3
  exact h2

theorem run_sound {A : Arith} {es : List Event} : ∀ {r : Registry}, run A es = .ok r → Sound r := by
  induction es using List.reverseRecOn with
  | nil =>
    intro r h
    cases h
    exact ⟨List.nodup_nil, List.nodup_nil, by simp [Registry.new]⟩
  | append_singleton es e ih =>
    intro r h
    obtain ⟨r', h1, h2⟩ := run_snoc h
    exact (step_sound (ih h1) h2).1

/-- After any history, the handle of a tag is stable, is a valid timer, leads back to the tag, and is no other tag's handle. -/
theorem C79_handles {A : Arith} {es : List Event} {r : Registry} (h : run A es = .ok r) (tag other : String) :
    ((r.getHandle tag).2.getHandle tag).1 = (r.getHandle tag).1 ∧ ((r.getHandle tag).2.getHandle tag).2 = (r.getHandle tag).2 ∧
    (r.getHandle tag).1 < (r.getHandle tag).2.timers.length ∧ (r.getHandle tag).2.getTag (r.getHandle tag).1 = tag ∧
    (other ≠ tag → ((r.getHandle tag).2.getHandle other).1 ≠ (r.getHandle tag).1) := by
  obtain ⟨hs, hm, -⟩ := sound_handle (run_sound h) tag
  have hl := lookup_mem hs.keys hm
  have hr : (r.getHandle tag).2.getHandle tag = ((r.getHandle tag).1, (r.getHandle tag).2) := getHandle_found hl
  refine ⟨by rw [hr], by rw [hr], hs.valid _ hm, ?_, ?_⟩
  · unfold Registry.getTag
    have : ((r.getHandle tag).2.tags.find? fun e => e.2 = (r.getHandle tag).1) = some (tag, (r.getHandle tag).1) := by
      have hex : ((r.getHandle tag).2.tags.find? fun e => e.2 = (r.getHandle tag).1).isSome := by
        rw [List.find?_isSome]
        exact ⟨_, hm, by simp⟩
      obtain ⟨x, hx⟩ := Option.isSome_iff_exists.1 hex
      have h1 := List.mem_of_find?_eq_some hx
      have h2 : x.2 = (r.getHandle tag).1 := by simpa using List.find?_some hx
      rw [hx, List.inj_on_of_nodup_map hs.handles h1 hm h2]
    rw [this]
  · intro hne e
    obtain ⟨hs', hm', -⟩ := sound_handle hs other
    have hk : (tag, (r.getHandle tag).1) ∈ ((r.getHandle tag).2.getHandle other).2.tags := getHandle_keeps hm other
    have := List.inj_on_of_nodup_map hs'.handles hm' hk e
    rw [Prod.mk.injEq] at this
    exact hne this.1

/-- Handles given out before a reset are not given out again: what old timers record does not reach the new ones. -/
theorem C79_fresh {A : Arith} {es : List Event} {r : Registry} (h : run A es = .ok r) (tag : String) :
    (∀ old, r.tags.lookup old ≠ some (r.reset.getHandle tag).1) ∧ (∀ k < r.timers.length, (r.reset.getHandle tag).2.timers[k]? = r.timers[k]?) ∧
    (r.reset.getHandle tag).2.numSamples (r.reset.getHandle tag).1 = .ok 0 := by
  unfold Registry.reset Registry.getHandle
  refine ⟨fun old e => ?_, fun k hk => ?_, ?_⟩
  · have := (run_sound h).valid _ (lookup_some e)
    exact absurd this (lt_irrefl _)
  swap
  · unfold Registry.numSamples Registry.timer
    simp [Acc.new]
  show (r.timers ++ [Acc.new])[k]? = _
  rw [List.getElem?_append_left hk]

/-- After any history every timer holds exactly the samples recorded for its handle. -/
theorem C79_recorded {A : Arith} {es : List Event} : ∀ {r : Registry}, run A es = .ok r → ∀ (k : ℕ) (hk : k < r.timers.length),
    addAll A kWindow Acc.new (recorded es k) = .ok r.timers[k] ∧ ∀ j, r.timers.length ≤ j → recorded es j = [] := by
  have hr : ∀ {es : List Event} {r : Registry}, run A es = .ok r → (∀ (k : ℕ) (hk : k < r.timers.length),
      addAll A kWindow Acc.new (recorded es k) = .ok r.timers[k]) ∧ ∀ j, r.timers.length ≤ j → recorded es j = [] := by
    intro es
    induction es using List.reverseRecOn with
    | nil =>
      intro r h
      cases h
      exact ⟨fun k hk => absurd hk (by simp [Registry.new]), fun _ _ => rfl⟩
    | append_singleton es e ih =>
      intro r h
      obtain ⟨r', h1, h2⟩ := run_snoc h
      obtain ⟨i1, i2⟩ := ih h1
      cases e with
      | lookup tag =>
        cases h2
        have hrec : ∀ j, recorded (es ++ [.lookup tag]) j = recorded es j := by
          intro j
          simp [recorded]
        unfold Registry.getHandle
        split
        · exact ⟨fun k hk => by rw [hrec]; exact i1 k hk, fun j hj => by rw [hrec]; exact i2 j hj⟩
        · refine ⟨fun k hk => ?_, fun j hj => ?_⟩
          · rw [hrec]
            dsimp only
            by_cases hk' : k < r'.timers.length
            · rw [List.getElem_append_left hk']
              exact i1 k hk'
            · have : k = r'.timers.length := by
                simp only [List.length_append, List.length_singleton] at hk
                omega
              subst this
              rw [i2 _ (le_refl _), List.getElem_append_right (le_refl _)]
              simp [addAll]
          · simp only [List.length_append, List.length_singleton] at hj
            rw [hrec]
            exact i2 j (by omega)
      | forget =>
        cases h2
        have hrec : ∀ j, recorded (es ++ [.forget]) j = recorded es j := by
          intro j
          simp [recorded]
        exact ⟨fun k hk => by rw [hrec]; exact i1 k hk, fun j hj => by rw [hrec]; exact i2 j hj⟩
      | record q s =>
        obtain ⟨hl, a, ha, rfl⟩ := addTime_ok h2
        refine ⟨fun k hk => ?_, fun j hj => ?_⟩
        · simp only [List.length_set] at hk
          simp only [List.getElem_set]
          by_cases hkh : q = k
          · subst hkh
            rw [if_pos rfl]
            have : recorded (es ++ [.record q s]) q = recorded es q ++ [s] := by simp [recorded]
            rw [this]
            have i := i1 q hk
            unfold addAll at i ⊢
            rw [List.foldlM_append, i, Outcome.bind_ok, List.foldlM_cons, ha]
            rfl
          · rw [if_neg hkh]
            have : recorded (es ++ [.record q s]) k = recorded es k := by simp [recorded, hkh]
            rw [this]
            exact i1 k hk
        · simp only [List.length_set] at hj
          have : recorded (es ++ [.record q s]) j = recorded es j := by
            have : q ≠ j := by omega
            simp [recorded, this]
          rw [this]
          exact i2 j hj
  intro r h k hk
  exact ⟨(hr h).1 k hk, (hr h).2⟩

/-- A history with two tags and a reset between. -/
def history : List Event := [.lookup "a", .lookup "b", .record 1 (.fin 2), .record 0 (.fin 3), .forget, .lookup "b", .record 1 (.fin 5), .record 2 (.fin 7)]

example : (match run (Arith.exact fun _ => .nan) history with
    | .ok r => decide (r.timers.map (·.sum) = [.fin 3, .fin 7, .fin 7] ∧ r.tags = [("b", 2)])
    | _ => false) = true := by decide +kernel

/-- Asking about an unknown tag creates it. -/
theorem C79_query_creates (r : Registry) (tag : String) (h : r.tags.lookup tag = none) :
    (r.getHandle tag).2.tags = (tag, r.timers.length) :: r.tags ∧ (r.getHandle tag).2.numSamples (r.getHandle tag).1 = .ok 0 := by
  have e : r.getHandle tag = (r.timers.length, ⟨r.timers ++ [Acc.new], (tag, r.timers.length) :: r.tags, Max.max r.maxTagLength tag.utf8ByteSize⟩) := by
    unfold Registry.getHandle
    rw [h]
  rw [e]
  refine ⟨rfl, ?_⟩
  unfold Registry.numSamples Registry.timer
  simp [Acc.new]

example : Registry.new.tags.lookup "a" = none := rfl

/-- The frequency of an unused tag is not reported: the process ends, whatever the arithmetic. -/
theorem C79_hz_unused_violated (A : Arith) (r : Registry) (tag : String) (h : r.tags.lookup tag = none) :
    (r.getHandle tag).2.hz A (r.getHandle tag).1 = .fatal := by
  have e : r.getHandle tag = (r.timers.length, ⟨r.timers ++ [Acc.new], (tag, r.timers.length) :: r.tags, Max.max r.maxTagLength tag.utf8ByteSize⟩) := by
    unfold Registry.getHandle
    rw [h]
  rw [e]
  unfold Registry.hz Registry.timer
  simp [Acc.new, Acc.rollingMean, Arith.div, Fl.infOfSign, Outcome.check, Fl.lt]

/-- Without rounding the frequency is the inverse of the mean of the last fifty samples. -/
theorem C79_hz (sq : ℚ → Fl) {ss : List ℚ} (hl : ss.length < 2 ^ 31) (h0 : ss ≠ []) (hp : ∀ s ∈ ss, 0 < s) {es : List Event} {r : Registry}
    (h : run (Arith.exact sq) es = .ok r) {k : ℕ} (hk : k < r.timers.length) (hr : recorded es k = ss.map Fl.fin) :
    r.hz (Arith.exact sq) k = .ok (.fin (1 / average (latest kWindow ss))) := by
  obtain ⟨a, e, -, -, -, hroll, -⟩ := C79_statistics (n := kWindow) (by decide) sq hl h0
  have := (C79_recorded h k hk).1
  rw [hr, e] at this
  have ha : r.timers[k] = a := (Outcome.ok.inj this).symm
  have hlat : latest kWindow ss ≠ [] := by
    unfold latest
    intro e
    have := congrArg List.length e
    rw [List.length_drop, List.length_nil] at this
    have := List.length_pos_of_ne_nil h0
    have : kWindow = 50 := rfl
    omega
  have hpos : 0 < average (latest kWindow ss) := by
    unfold average
    have h1 : 0 < (latest kWindow ss).sum := List.sum_pos _ (fun s hs => hp s (List.mem_of_mem_drop hs)) hlat
    have h2 : (0 : ℚ) < (latest kWindow ss).length := by
      have := List.length_pos_of_ne_nil hlat
      exact_mod_cast this
    exact div_pos h1 h2
  unfold Registry.hz Registry.timer
  rw [List.getElem?_eq_getElem hk, ha]
  show (Outcome.check (Fl.lt (.fin 0) (a.rollingMean (Arith.exact sq) kWindow)) >>= fun _ => _) = _
  rw [hroll]
  unfold Outcome.check
  rw [if_pos (by simpa [Fl.lt] using hpos), Outcome.bind_ok]
  show Outcome.ok (if _ then _ else _) = _
  rw [if_neg hpos.ne']
  rfl

example : (match run (Arith.exact fun _ => .nan) history with
    | .ok r => decide (r.hz (Arith.exact fun _ => .nan) 1 = .ok (.fin (2 / 7)))
    | _ => false) = true := by decide +kernel

/-! ### Timers -/

/-- A timer that starts when it is made and is destroyed later adds one sample: the time between. -/
theorem C79_scope (A : Arith) (r : Registry) (h : ℕ) (t0 t1 : ℤ) :
    (Timer.new h false t0).destroy A r t1 = r.addTime A h (seconds A (t1 - t0)) ∧
    (Timer.new h true t0).destroy A r t1 = .ok r := by
  refine ⟨?_, rfl⟩
  unfold Timer.destroy Timer.new Timer.start
  simp only [Bool.false_eq_true, if_false, if_true]
  unfold Timer.stop
  dsimp only
  cases r.addTime A h (seconds A (t1 - t0)) <;> rfl

/-- Stopping again before the end of the scope adds no sample at the end. -/
theorem C79_stopped (A : Arith) (r r' : Registry) (t t' : Timer) (now later : ℤ) (h : t.stop A r now = .ok (r', t')) :
    t'.destroy A r' later = .ok r' := by
  unfold Timer.stop at h
  rw [Outcome.bind_eq_ok] at h
  obtain ⟨x, -, h⟩ := h
  have := Outcome.ok.inj h
  rw [Prod.mk.injEq] at this
  rw [← this.2]
  rfl

example : (match (Timer.new 0 false 5).stop Ieee.float64 ((Registry.new.getHandle "a").2) 1000000005 with
    | .ok (r, t) => decide (t.timing = false ∧ r.totalSeconds 0 = .ok (.fin 1))
    | _ => false) = true := by decide +kernel

/-- Stopping a timer that does not run adds a sample nevertheless: the time since 1970 for one never started, the time since the last start otherwise. -/
theorem C79_stop_violated (A : Arith) (r : Registry) (h : ℕ) (t0 t1 t2 : ℤ) :
    ((Timer.new h true t0).stop A r t1 = (r.addTime A h (seconds A t1) >>= fun r => .ok (r, Timer.new h true t0))) ∧
    ∀ r' t', (Timer.new h false t0).stop A r t1 = .ok (r', t') → t'.timing = false ∧
      t'.stop A r' t2 = (r'.addTime A h (seconds A (t2 - t0)) >>= fun r => .ok (r, t')) := by
  refine ⟨?_, ?_⟩
  · unfold Timer.stop Timer.new
    simp only [if_true, sub_zero]
    rfl
  · intro r' t' hs
    unfold Timer.stop at hs
    rw [Outcome.bind_eq_ok] at hs
    obtain ⟨x, -, hs⟩ := hs
    have := Outcome.ok.inj hs
    rw [Prod.mk.injEq] at this
    rw [← this.2]
    exact ⟨rfl, rfl⟩

/-- In double precision the running sum of the window loses short samples next to a long one, and never recovers: after a stop without a start and
fifty intervals of 50 ns the window holds only positive samples, but its mean is zero, and asking for the frequency ends the process. -/
theorem C79_hz_violated : ∃ r : Registry, run Ieee.float64 (.lookup "a" :: .record 0 (seconds Ieee.float64 1700000000000000000) ::
      List.replicate 50 (.record 0 (seconds Ieee.float64 50))) = .ok r ∧ (∀ a ∈ r.timers, ∀ s ∈ a.samples, s = seconds Ieee.float64 50 ∧ Fl.lt (.fin 0) s = true) ∧
    r.hz Ieee.float64 0 = .fatal := by
  refine ⟨_, rfl, ?_, ?_⟩ <;> decide +kernel

/-- A handle that was never given out is outside the list of timers. -/
theorem C79_unknown_handle (A : Arith) (r : Registry) (h : ℕ) (hh : r.timers.length ≤ h) (s : Fl) :
    r.addTime A h s = .ub ∧ r.totalSeconds h = .ub ∧ r.hz A h = .ub := by
  have : r.timer h = .ub := by
    unfold Registry.timer
    rw [List.getElem?_eq_none hh]
  unfold Registry.addTime Registry.totalSeconds Registry.hz
  rw [this]
  exact ⟨rfl, rfl, rfl⟩

example : (Registry.new.getHandle "a").2.timers.length ≤ 1 := by decide +kernel

end Vox.Timing
