/-
Lemmas for the mesh displays: names of objects, the invariant of the scene, what is shown.
-/
import Verif.Spec.MeshDisplay
import Verif.Lemmas.MeshSync
import Verif.Lemmas.PlyNumber
import Mathlib.Data.List.Nodup

namespace Vox.MeshDisplay

open MC MeshMsg MeshInt

/-! ### Names -/

theorem space_natText (n : ℕ) : ' ' ∉ Ply.natText n := by
  obtain ⟨ds, h, -, h3, -⟩ := Ply.natText_eq n
  rw [h]
  exact Ply.not_mem_chars h3 Ply.digit_space

theorem natText_inj {a b : ℕ} (h : Ply.natText a = Ply.natText b) : a = b := by
  have := Ply.natOf_natText a
  rw [h, Ply.natOf_natText] at this
  exact (Option.some.inj this).symm

theorem minus_natText (n : ℕ) : '-' ∉ Ply.natText n := by
  obtain ⟨ds, h, -, h3, -⟩ := Ply.natText_eq n
  rw [h]
  exact Ply.not_mem_chars h3 rfl

theorem space_intText (z : ℤ) : ' ' ∉ intText z := by
  unfold intText
  split_ifs
  · intro h
    rcases List.mem_cons.1 h with h | h
    · cases h
    · exact space_natText _ h
  · exact space_natText _

theorem intText_inj {a b : ℤ} (h : intText a = intText b) : a = b := by
  unfold intText at h
  split_ifs at h with h1 h2 h2
  · have := natText_inj (List.cons.inj h).2
    omega
  · exact absurd (h ▸ List.mem_cons_self) (minus_natText _)
  · exact absurd (h ▸ List.mem_cons_self) (minus_natText _)
  · have := natText_inj h
    omega

theorem split_space : ∀ {a b s t : List Char}, ' ' ∉ a → ' ' ∉ b → a ++ ' ' :: s = b ++ ' ' :: t → a = b ∧ s = t
  | [], [], _, _, _, _, h => ⟨rfl, (List.cons.inj h).2⟩
  | [], y :: _, _, _, _, hb, h => absurd ((List.cons.inj h).1 ▸ List.mem_cons_self) hb
  | x :: _, [], _, _, ha, _, h => absurd ((List.cons.inj h).1 ▸ List.mem_cons_self) ha
  | x :: a, y :: b, s, t, ha, hb, h => by
    have h' := List.cons.inj h
    have := split_space (fun m => ha (List.mem_cons_of_mem _ m)) (fun m => hb (List.mem_cons_of_mem _ m)) h'.2
    exact ⟨by rw [h'.1, this.1], this.2⟩

theorem objectName_inj {i j : Idx} {m n : ℕ} (h : objectName i m = objectName j n) : i = j ∧ m = n := by
  unfold objectName at h
  obtain ⟨h1, h⟩ := split_space (space_intText _) (space_intText _) h
  obtain ⟨h2, h⟩ := split_space (space_intText _) (space_intText _) h
  obtain ⟨h3, h⟩ := split_space (space_intText _) (space_intText _) h
  refine ⟨?_, natText_inj h⟩
  have e1 := intText_inj h1
  have e2 := intText_inj h2
  have e3 := intText_inj h3
  cases i
  cases j
  simp only at e1 e2 e3
  subst e1 e2 e3
  rfl

/-! ### One visual -/

/-- The indices that have an object. -/
def keys (d : Display) : List Idx := d.map (·.1)

theorem lookup_keys {d : Display} {i : Idx} : (∃ m, d.lookup i = some m) ↔ i ∈ keys d := by
  unfold keys
  induction d with
  | nil => simp
  | cons e d ih =>
    rw [List.lookup_cons]
    by_cases h : i = e.1
    · simp [h]
    · have : (i == e.1) = false := by simpa using h
      simp only [this, List.map_cons, List.mem_cons, h, false_or]
      exact ih

/-- The names in the scene are those of the others and those of the objects of this visual. -/
structure Named (others : List Char → Prop) (n : ℕ) (s : List (List Char) × Display) : Prop where
  nodup : s.1.Nodup
  keys : (keys s.2).Nodup
  mem : ∀ c, c ∈ s.1 ↔ others c ∨ ∃ i ∈ MeshDisplay.keys s.2, c = objectName i n

theorem showBlock_named {others : List Char → Prop} {n : ℕ} (ho : ∀ i, ¬ others (objectName i n)) {edge : Fl} {b : MeshBlock}
    (hb : ∃ x, drawn edge b = .ok x) {s : List (List Char) × Display} (h : Named others n s) :
    ∃ s', showBlock edge n s b = .ok s' ∧ Named others n s' := by
  obtain ⟨x, hx⟩ := hb
  unfold showBlock receiveBlock
  rw [hx]
  rcases hl : s.2.lookup b.index with _ | m
  · have hk : b.index ∉ keys s.2 := fun hk => by
      obtain ⟨m, hm⟩ := lookup_keys.2 hk
      rw [hl] at hm
      cases hm
    have hn : objectName b.index n ∉ s.1 := fun hm => by
      rcases (h.mem _).1 hm with h1 | ⟨i, hi, he⟩
      · exact ho _ h1
      · exact hk ((objectName_inj he).1 ▸ hi)
    refine ⟨(objectName b.index n :: s.1, (b.index, x) :: s.2), ?_, ?_, ?_, ?_⟩
    · simp only [Outcome.bind_ok]
      rw [show decide (objectName b.index n ∉ s.1) = true from decide_eq_true hn]
      rfl
    · exact List.nodup_cons.2 ⟨hn, h.nodup⟩
    · exact List.nodup_cons.2 ⟨hk, h.keys⟩
    · intro c
      simp only [List.mem_cons, h.mem c, keys, List.map_cons]
      constructor
      · rintro (rfl | h1 | ⟨i, hi, rfl⟩)
        · exact Or.inr ⟨_, Or.inl rfl, rfl⟩
        · exact Or.inl h1
        · exact Or.inr ⟨i, Or.inr hi, rfl⟩
      · rintro (h1 | ⟨i, rfl | hi, rfl⟩)
        · exact Or.inr (Or.inl h1)
        · exact Or.inl rfl
        · exact Or.inr (Or.inr ⟨i, hi, rfl⟩)
  · by_cases he : b.x.isEmpty = true
    · refine ⟨(s.1.erase (objectName b.index n), s.2.filter fun e => e.1 ≠ b.index), ?_, ?_, ?_, ?_⟩
      · simp only [Outcome.bind_ok, he, if_true]
        rfl
      · exact h.nodup.erase _
      · exact h.keys.sublist (List.filter_sublist.map _)
      · intro c
        rw [List.Nodup.mem_erase_iff h.nodup, h.mem c]
        have hf : ∀ i, i ∈ keys (s.2.filter fun e => e.1 ≠ b.index) ↔ i ∈ keys s.2 ∧ i ≠ b.index := by
          intro i
          unfold keys
          simp only [List.mem_map, List.mem_filter, decide_eq_true_eq]
          constructor
          · rintro ⟨e, ⟨h1, h2⟩, rfl⟩
            exact ⟨⟨e, h1, rfl⟩, h2⟩
          · rintro ⟨⟨e, h1, rfl⟩, h2⟩
            exact ⟨e, ⟨h1, h2⟩, rfl⟩
        constructor
        · rintro ⟨h1, h2 | ⟨i, hi, rfl⟩⟩
          · exact Or.inl h2
          · exact Or.inr ⟨i, (hf i).2 ⟨hi, fun e => h1 (by rw [e])⟩, rfl⟩
        · rintro (h1 | ⟨i, hi, rfl⟩)
          · exact ⟨fun e => ho _ (e ▸ h1), Or.inl h1⟩
          · have := (hf i).1 hi
            exact ⟨fun e => this.2 (objectName_inj e).1, Or.inr ⟨i, this.1, rfl⟩⟩
    · refine ⟨(s.1, setMesh s.2 b.index x), ?_, h.nodup, ?_, ?_⟩
      · simp only [Outcome.bind_ok, he]
        rfl
      · unfold keys
        rw [keys_setMesh]
        exact h.keys
      · intro c
        unfold keys
        rw [keys_setMesh]
        exact h.mem c

theorem showBlocks_named {others : List Char → Prop} {n : ℕ} (ho : ∀ i, ¬ others (objectName i n)) {edge : Fl} :
    ∀ {bs : List MeshBlock}, (∀ b ∈ bs, ∃ x, drawn edge b = .ok x) → ∀ {s : List (List Char) × Display}, Named others n s →
    ∃ s', bs.foldlM (showBlock edge n) s = .ok s' ∧ Named others n s'
  | [], _, s, h => ⟨s, rfl, h⟩
  | b :: bs, hb, s, h => by
    obtain ⟨s1, h1, n1⟩ := showBlock_named ho (hb b (by simp)) h
    obtain ⟨s2, h2, n2⟩ := showBlocks_named ho (bs := bs) (fun b hm => hb b (List.mem_cons_of_mem _ hm)) n1
    exact ⟨s2, by rw [List.foldlM_cons, h1]; exact h2, n2⟩

/-- The objects change as in `MeshMsg`. -/
theorem showBlock_snd {edge : Fl} {n : ℕ} {s s' : List (List Char) × Display} {b : MeshBlock} (h : showBlock edge n s b = .ok s') :
    receiveBlock edge s.2 b = .ok s'.2 := by
  unfold showBlock at h
  obtain ⟨d, hd, h⟩ := Outcome.bind_eq_ok.1 h
  rw [hd]
  split at h
  · obtain rfl := Outcome.ok.inj h
    rfl
  · obtain ⟨u, hu, h⟩ := Outcome.bind_eq_ok.1 h
    obtain rfl := Outcome.ok.inj h
    rfl

theorem showBlocks_visible {edge : Fl} {n : ℕ} (i : Idx) : ∀ {bs : List MeshBlock} {s s' : List (List Char) × Display},
    bs.foldlM (showBlock edge n) s = .ok s' →
    Outcome.ok (Spec.visible s'.2 i) = match (bs.filter fun b => b.index = i).getLast? with
      | some b => drawn edge b
      | none => .ok (Spec.visible s.2 i)
  | [], s, s', h => by
    obtain rfl := Outcome.ok.inj h
    rfl
  | b :: bs, s, s', h => by
    rw [List.foldlM_cons] at h
    obtain ⟨s1, h1, h⟩ := Outcome.bind_eq_ok.1 h
    have ih := showBlocks_visible i h
    obtain ⟨m, hm, hv⟩ := receiveBlock_ok (showBlock_snd h1)
    rw [ih, List.filter_cons]
    by_cases e : b.index = i
    · rw [if_pos (by simpa using e), List.getLast?_cons]
      generalize List.getLast? (List.filter _ bs) = o
      cases o with
      | none => simp [hm, hv, e]
      | some c => simp
    · rw [if_neg (by simpa using e)]
      generalize List.getLast? (List.filter _ bs) = o
      cases o with
      | none => simp [hv, Ne.symm e]
      | some c => simp

/-! ### The scene -/

/-- The invariant of the scene after at most `n` visuals. -/
structure Tidy {P : Type} (n : ℕ) (s : Scene P) : Prop where
  counter : s.counter ≤ n
  old : ∀ k v, s.visuals k = some v → v.number < s.counter
  apart : ∀ k l v w, s.visuals k = some v → s.visuals l = some w → v.number = w.number → k = l
  keys : ∀ k v, s.visuals k = some v → (keys v.shown).Nodup
  nodup : s.names.Nodup
  mem : ∀ c, c ∈ s.names ↔ ∃ k v i, s.visuals k = some v ∧ i ∈ MeshDisplay.keys v.shown ∧ c = objectName i v.number

theorem start_tidy (P : Type) : Tidy 0 (Scene.start P) := by
  refine ⟨le_rfl, ?_, ?_, ?_, List.nodup_nil, ?_⟩ <;> simp [Scene.start]

theorem message_tidy {P : Type} {origin : P} {n : ℕ} (hn : n + 1 < 2 ^ 32) {s : Scene P} (h : Tidy n s) (k : ℕ) (p : Option P) {msg : Msg}
    (hd : p.isSome → ∀ b ∈ msg.blocks, ∃ x, drawn msg.edge b = .ok x) :
    ∃ s', message origin s k p msg = .ok s' ∧ Tidy (n + 1) s' := by
  rcases p with _ | p
  · exact ⟨s, rfl, { h with counter := h.counter.trans (Nat.le_succ n) }⟩
  have hd := hd rfl
  unfold message
  generalize hc : s.visual origin k = c
  have key : c.2.visuals = s.visuals ∧ c.2.names = s.names ∧ s.counter ≤ c.2.counter ∧ c.2.counter ≤ n + 1 ∧ c.1.number < c.2.counter ∧
      (MeshDisplay.keys c.1.shown).Nodup ∧ (∀ l w, l ≠ k → s.visuals l = some w → w.number ≠ c.1.number) ∧
      (∀ v, s.visuals k = some v → v = c.1) ∧ (s.visuals k = none → c.1.shown = []) := by
    have hcn := h.counter
    unfold Scene.visual at hc
    rcases hv : s.visuals k with _ | v
    · rw [hv] at hc
      subst hc
      have hm : (s.counter + 1) % 2 ^ 32 = s.counter + 1 := Nat.mod_eq_of_lt (by omega)
      refine ⟨rfl, rfl, ?_, ?_, ?_, List.nodup_nil, ?_, by simp, fun _ => rfl⟩
      · simp only [Scene.create, hm]; omega
      · simp only [Scene.create, hm]; omega
      · simp only [Scene.create, hm]; omega
      · intro l w _ hw
        have := h.old l w hw
        simp only [Scene.create]
        omega
    · rw [hv] at hc
      subst hc
      refine ⟨rfl, rfl, le_rfl, by simp only; omega, h.old k v hv, h.keys k v hv, ?_, ?_, by simp⟩
      · intro l w hl hw he
        exact hl (h.apart l k w v hw hv he)
      · intro v' e
        exact (Option.some.inj e).symm
  obtain ⟨k1, k2, k3, k4, k5, k6, k7, k8, k9⟩ := key
  let others : List Char → Prop := fun c => ∃ l v i, l ≠ k ∧ s.visuals l = some v ∧ i ∈ MeshDisplay.keys v.shown ∧ c = objectName i v.number
  have ho : ∀ i, ¬ others (objectName i c.1.number) := by
    rintro i ⟨l, v, j, hl, hv, -, he⟩
    exact k7 l v hl hv (objectName_inj he).2.symm
  have h0 : Named others c.1.number (c.2.names, c.1.shown) := by
    refine ⟨by rw [k2]; exact h.nodup, k6, fun x => ?_⟩
    simp only [k2, h.mem x]
    constructor
    · rintro ⟨l, v, i, hv, hi, rfl⟩
      by_cases hl : l = k
      · subst hl
        have := k8 v hv
        subst this
        exact Or.inr ⟨i, hi, rfl⟩
      · exact Or.inl ⟨l, v, i, hl, hv, hi, rfl⟩
    · rintro (⟨l, v, i, -, hv, hi, rfl⟩ | ⟨i, hi, rfl⟩)
      · exact ⟨l, v, i, hv, hi, rfl⟩
      · rcases hv : s.visuals k with _ | v
        · rw [k9 hv] at hi
          cases hi
        · have := k8 v hv
          subst this
          exact ⟨k, _, i, hv, hi, rfl⟩
  obtain ⟨r, hr, nr⟩ := showBlocks_named ho hd h0
  refine ⟨{ c.2 with names := r.1, visuals := Function.update c.2.visuals k (some { c.1 with shown := r.2, pose := p }) }, ?_, k4, ?_, ?_, ?_, nr.nodup, ?_⟩
  · simp only [hr, Outcome.bind_ok]
    rfl
  · intro l v hv
    by_cases hl : l = k
    · subst hl
      simp only [Function.update_self, Option.some.injEq] at hv
      subst hv
      exact k5
    · simp only [Function.update_of_ne hl, k1] at hv
      exact (h.old l v hv).trans_le k3
  · intro l l' v w hv hw he
    simp only [k1] at hv hw
    by_cases hl : l = k <;> by_cases hl' : l' = k
    · rw [hl, hl']
    · subst hl
      rw [Function.update_self, Option.some.injEq] at hv
      rw [Function.update_of_ne hl'] at hw
      subst hv
      exact absurd he.symm (k7 l' w hl' hw)
    · subst hl'
      rw [Function.update_self, Option.some.injEq] at hw
      rw [Function.update_of_ne hl] at hv
      subst hw
      exact absurd he (k7 l v hl hv)
    · rw [Function.update_of_ne hl] at hv
      rw [Function.update_of_ne hl'] at hw
      exact h.apart l l' v w hv hw he
  · intro l v hv
    by_cases hl : l = k
    · subst hl
      simp only [Function.update_self, Option.some.injEq] at hv
      subst hv
      exact nr.keys
    · simp only [Function.update_of_ne hl, k1] at hv
      exact h.keys l v hv
  · intro x
    simp only [nr.mem x, k1]
    constructor
    · rintro (⟨l, v, i, hl, hv, hi, rfl⟩ | ⟨i, hi, rfl⟩)
      · exact ⟨l, v, i, by rw [Function.update_of_ne hl]; exact hv, hi, rfl⟩
      · exact ⟨k, _, i, Function.update_self .., hi, rfl⟩
    · rintro ⟨l, v, i, hv, hi, rfl⟩
      by_cases hl : l = k
      · subst hl
        rw [Function.update_self, Option.some.injEq] at hv
        subst hv
        exact Or.inr ⟨i, hi, rfl⟩
      · rw [Function.update_of_ne hl] at hv
        exact Or.inl ⟨l, v, i, hl, hv, hi, rfl⟩

theorem erase_all {n : ℕ} : ∀ (d : Display) (ns : List (List Char)), ns.Nodup →
    (d.foldl (fun ns e => ns.erase (objectName e.1 n)) ns).Nodup ∧
    ∀ c, c ∈ d.foldl (fun ns e => ns.erase (objectName e.1 n)) ns ↔ c ∈ ns ∧ ∀ i ∈ keys d, c ≠ objectName i n
  | [], ns, h => ⟨h, fun c => by simp [keys]⟩
  | e :: d, ns, h => by
    obtain ⟨h1, h2⟩ := erase_all d (ns.erase (objectName e.1 n)) (h.erase _)
    refine ⟨h1, fun c => ?_⟩
    rw [List.foldl_cons, h2, h.mem_erase_iff]
    simp only [keys, List.map_cons, List.mem_cons, forall_eq_or_imp]
    tauto

theorem reset_tidy {P : Type} {n : ℕ} {s : Scene P} (h : Tidy n s) (k : ℕ) : Tidy n (reset s k) := by
  unfold reset
  rcases hv : s.visuals k with _ | v
  · exact h
  obtain ⟨e1, e2⟩ := erase_all (n := v.number) v.shown s.names h.nodup
  have hu : ∀ {l w}, Function.update s.visuals k none l = some w → l ≠ k ∧ s.visuals l = some w := by
    intro l w hw
    by_cases hl : l = k
    · subst hl
      rw [Function.update_self] at hw
      cases hw
    · rw [Function.update_of_ne hl] at hw
      exact ⟨hl, hw⟩
  refine ⟨h.counter, fun l w hw => h.old l w (hu hw).2, fun l l' w w' hw hw' he => h.apart l l' w w' (hu hw).2 (hu hw').2 he,
    fun l w hw => h.keys l w (hu hw).2, e1, fun c => ?_⟩
  simp only [e2, h.mem c]
  constructor
  · rintro ⟨⟨l, w, i, hw, hi, rfl⟩, hne⟩
    by_cases hl : l = k
    · subst hl
      rw [hv, Option.some.injEq] at hw
      subst hw
      exact absurd rfl (hne i hi)
    · exact ⟨l, w, i, by rw [Function.update_of_ne hl]; exact hw, hi, rfl⟩
  · rintro ⟨l, w, i, hw, hi, rfl⟩
    obtain ⟨hl, hw⟩ := hu hw
    refine ⟨⟨l, w, i, hw, hi, rfl⟩, fun j hj he => hl ?_⟩
    exact h.apart l k w v hw hv (objectName_inj he).2

theorem steps_tidy {P : Type} {origin : P} : ∀ {es : List (Event P)} {n : ℕ}, n + es.length < 2 ^ 32 → Drawable es → ∀ {s : Scene P}, Tidy n s →
    ∃ s', es.foldlM (step origin) s = .ok s' ∧ Tidy (n + es.length) s'
  | [], _, _, _, s, h => ⟨s, rfl, h⟩
  | e :: es, n, hn, hd, s, h => by
    have hlen : n + (e :: es).length = n + 1 + es.length := by simp; omega
    have : ∃ s1, step origin s e = .ok s1 ∧ Tidy (n + 1) s1 := by
      cases e with
      | message k p msg =>
        refine message_tidy (by omega) h k p fun hp b hb => ?_
        obtain ⟨q, rfl⟩ := Option.isSome_iff_exists.1 hp
        exact hd k q msg (by simp) b hb
      | reset k => exact ⟨_, rfl, { reset_tidy h k with counter := (reset_tidy h k).counter.trans (Nat.le_succ n) }⟩
    obtain ⟨s1, h1, t1⟩ := this
    obtain ⟨s2, h2, t2⟩ := steps_tidy (es := es) (n := n + 1) (by omega) (fun k p m hm => hd k p m (List.mem_cons_of_mem _ hm)) t1
    exact ⟨s2, by rw [List.foldlM_cons, h1]; exact h2, by rw [hlen]; exact t2⟩

/-! ### What is shown -/

/-- Display `k` shows the messages `h` (the last one first). -/
def Showing {P : Type} (s : Scene P) (k : ℕ) (h : List (P × Msg)) : Prop :=
  match s.visuals k, h with
  | none, h => h = []
  | some v, h => (∃ m t, h = (v.pose, m) :: t) ∧ ∀ i, lastPicture i h = .ok (Spec.visible v.shown i)

/-- One event in the list of messages heard. -/
def hear {P : Type} (k : ℕ) (h : List (P × Msg)) (e : Event P) : List (P × Msg) :=
  match e with
  | .message j (some p) m => if j = k then (p, m) :: h else h
  | .message _ none _ => h
  | .reset j => if j = k then [] else h

theorem heard_eq {P : Type} (k : ℕ) (es : List (Event P)) : heard k es = es.foldl (hear k) [] := rfl

theorem step_showing {P : Type} {origin : P} {s s' : Scene P} {e : Event P} (hs : step origin s e = .ok s') {k : ℕ} {h : List (P × Msg)}
    (hh : Showing s k h) : Showing s' k (hear k h e) := by
  cases e with
  | message j p m =>
    rcases p with _ | p
    · obtain rfl := Outcome.ok.inj hs
      exact hh
    change message origin s j (some p) m = .ok s' at hs
    unfold message at hs
    obtain ⟨r, hr, hs⟩ := Outcome.bind_eq_ok.1 hs
    obtain rfl := Outcome.ok.inj hs
    have hvis : (s.visual origin j).2.visuals = s.visuals := by
      unfold Scene.visual
      split <;> rfl
    unfold Showing hear
    simp only [hvis]
    by_cases e : j = k
    · subst e
      simp only [Function.update_self, if_true]
      refine ⟨⟨_, _, rfl⟩, fun i => ?_⟩
      have hv := showBlocks_visible i hr
      unfold lastPicture
      rw [hv]
      generalize List.getLast? (List.filter _ m.blocks) = o
      cases o with
      | none =>
        simp only
        unfold Showing at hh
        unfold Scene.visual
        rcases hk : s.visuals j with _ | v
        · rw [hk] at hh
          simp only at hh
          rw [hh]
          rfl
        · rw [hk] at hh
          exact hh.2 i
      | some b => rfl
    · rw [Function.update_of_ne (Ne.symm e), if_neg e]
      exact hh
  | reset j =>
    obtain rfl := Outcome.ok.inj hs
    unfold hear reset
    simp only
    by_cases e : j = k
    · subst e
      rw [if_pos rfl]
      unfold Showing
      rcases hv : s.visuals j with _ | v
      · simp [hv]
      · simp
    · rw [if_neg e]
      unfold Showing
      rcases hv : s.visuals j with _ | v
      · exact hh
      · simp only [Function.update_of_ne (Ne.symm e)]
        exact hh

theorem steps_showing {P : Type} {origin : P} {k : ℕ} : ∀ {es : List (Event P)} {s s' : Scene P}, es.foldlM (step origin) s = .ok s' →
    ∀ {h : List (P × Msg)}, Showing s k h → Showing s' k (es.foldl (hear k) h)
  | [], _, _, hs, _, hh => by
    obtain rfl := Outcome.ok.inj hs
    exact hh
  | e :: es, s, s', hs, h, hh => by
    rw [List.foldlM_cons] at hs
    obtain ⟨s1, h1, hs⟩ := Outcome.bind_eq_ok.1 hs
    exact steps_showing hs (step_showing h1 hh)

/-! ### A sender and its display -/

/-- The objects of display `k`. -/
def shownAt {P : Type} (s : Scene P) (k : ℕ) : Display :=
  match s.visuals k with
  | some v => v.shown
  | none => []

theorem showBlocks_receive {edge : Fl} {n : ℕ} : ∀ {bs : List MeshBlock} {s s' : List (List Char) × Display},
    bs.foldlM (showBlock edge n) s = .ok s' → bs.foldlM (receiveBlock edge) s.2 = .ok s'.2
  | [], _, _, h => by
    obtain rfl := Outcome.ok.inj h
    rfl
  | b :: bs, s, s', h => by
    rw [List.foldlM_cons] at h
    obtain ⟨s1, h1, h⟩ := Outcome.bind_eq_ok.1 h
    rw [List.foldlM_cons, showBlock_snd h1]
    exact showBlocks_receive h

theorem message_shown {P : Type} {origin : P} {s s' : Scene P} {k : ℕ} {p : P} {msg : Msg} (h : message origin s k (some p) msg = .ok s') :
    receive (shownAt s k) msg = .ok (shownAt s' k) ∧ ∃ v, s'.visuals k = some v ∧ v.pose = p := by
  unfold message at h
  obtain ⟨r, hr, h⟩ := Outcome.bind_eq_ok.1 h
  obtain rfl := Outcome.ok.inj h
  have h1 := showBlocks_receive hr
  have h2 : (s.visual origin k).1.shown = shownAt s k := by
    unfold Scene.visual shownAt
    cases s.visuals k <;> simp [Scene.create]
  refine ⟨?_, _, Function.update_self .., rfl⟩
  unfold receive
  rw [← h2, h1]
  simp [shownAt]

theorem step_elsewhere {P : Type} {origin : P} {s s' : Scene P} {k : ℕ} {e : Event P} (h : step origin s e = .ok s') (he : e.display ≠ k) :
    s'.visuals k = s.visuals k := by
  cases e with
  | message j p m =>
    rcases p with _ | p
    · obtain rfl := Outcome.ok.inj h
      rfl
    · change message origin s j (some p) m = .ok s' at h
      unfold message at h
      obtain ⟨r, hr, h⟩ := Outcome.bind_eq_ok.1 h
      obtain rfl := Outcome.ok.inj h
      have hvis : (s.visual origin j).2.visuals = s.visuals := by
        unfold Scene.visual
        split <;> rfl
      simp only [hvis]
      exact Function.update_of_ne (fun e => he e.symm) ..
  | reset j =>
    obtain rfl := Outcome.ok.inj h
    unfold reset
    split
    · rfl
    · exact Function.update_of_ne (fun e => he e.symm) ..

theorem joint_here {P : Type} {edge inv : Fl} {mode : ColorMode} {origin : P} {k : ℕ} {st st' : MeshMap × Scene P} {e : Spec.MeshEvent} {p : P}
    (h : joint edge inv mode origin k st (.here e p) = .ok st') :
    Spec.meshEvent edge inv mode (st.1, shownAt st.2 k) e = .ok (st'.1, shownAt st'.2 k) := by
  cases e with
  | send =>
    unfold joint at h
    obtain ⟨r, hr, h⟩ := Outcome.bind_eq_ok.1 h
    obtain ⟨s, hs, h⟩ := Outcome.bind_eq_ok.1 h
    obtain rfl := Outcome.ok.inj h
    unfold Spec.meshEvent
    simp only [hr, Outcome.bind_ok, (message_shown hs).1]
    rfl
  | store i m =>
    obtain rfl := Outcome.ok.inj h
    rfl
  | clear i =>
    obtain rfl := Outcome.ok.inj h
    rfl
  | allocate i =>
    obtain rfl := Outcome.ok.inj h
    rfl

theorem joint_other {P : Type} {edge inv : Fl} {mode : ColorMode} {origin : P} {k : ℕ} {st st' : MeshMap × Scene P} {e : Event P}
    (h : joint edge inv mode origin k st (.other e) = .ok st') (he : e.display ≠ k) : st'.1 = st.1 ∧ shownAt st'.2 k = shownAt st.2 k := by
  unfold joint at h
  obtain ⟨s, hs, h⟩ := Outcome.bind_eq_ok.1 h
  obtain rfl := Outcome.ok.inj h
  refine ⟨rfl, ?_⟩
  unfold shownAt
  rw [step_elsewhere hs he]

theorem joints {P : Type} {edge inv : Fl} {mode : ColorMode} {origin : P} {k : ℕ} : ∀ {es : List (Joint P)} {st st' : MeshMap × Scene P},
    es.foldlM (joint edge inv mode origin k) st = .ok st' → (∀ e, Joint.other e ∈ es → e.display ≠ k) →
    ∃ ms : List Spec.MeshEvent, ms.foldlM (Spec.meshEvent edge inv mode) (st.1, shownAt st.2 k) = .ok (st'.1, shownAt st'.2 k)
  | [], st, st', h, _ => by
    obtain rfl := Outcome.ok.inj h
    exact ⟨[], rfl⟩
  | e :: es, st, st', h, ho => by
    rw [List.foldlM_cons] at h
    obtain ⟨s1, h1, h⟩ := Outcome.bind_eq_ok.1 h
    obtain ⟨ms, hms⟩ := joints h fun e he => ho e (List.mem_cons_of_mem _ he)
    cases e with
    | here e p => exact ⟨e :: ms, by rw [List.foldlM_cons, joint_here h1]; exact hms⟩
    | other e =>
      obtain ⟨a, b⟩ := joint_other h1 (ho e (by simp))
      rw [a, b] at hms
      exact ⟨ms, hms⟩

/-! ### Nodes and the counter -/

/-- A display that is reset after every message. -/
def rounds {P : Type} (k : ℕ) (p : P) (msg : Msg) : ℕ → List (Event P)
  | 0 => []
  | n + 1 => rounds k p msg n ++ [.message k (some p) msg, .reset k]

theorem rounds_run {P : Type} (origin p : P) (k : ℕ) (edge : Fl) (s : Scene P) (hk : s.visuals k = none) (hc : s.counter < 2 ^ 32) : ∀ n,
    (rounds k p ⟨edge, []⟩ n).foldlM (step origin) s =
      .ok { s with counter := (s.counter + n) % 2 ^ 32, nodes := s.nodes + n }
  | 0 => by
    rw [Nat.add_zero, Nat.add_zero, Nat.mod_eq_of_lt hc]
    rfl
  | n + 1 => by
    rw [rounds, List.foldlM_append, rounds_run origin p k edge s hk hc n]
    simp only [Outcome.bind_ok, List.foldlM_cons, List.foldlM_nil, step, message, Scene.visual, hk, Scene.create]
    simp only [pure, Outcome.bind_ok, reset, Function.update_self, List.foldl_nil, Function.update_idem]
    congr 1
    rw [Nat.mod_add_mod, ← hk, Function.update_eq_self, Nat.add_assoc, Nat.add_assoc]

end Vox.MeshDisplay
