/-
Invariant of the concurrent block allocation.
-/
import Verif.Model.Alloc
import Mathlib.Logic.Function.Basic
import Mathlib.Tactic.Common

namespace Vox.Alloc

/-- The block a worker must get for index `b`. -/
def resolve (s : AState) (b : Idx) : Option Ptr :=
  match s.layer.lookup b with
  | some p => some p
  | none => s.temp.lookup b

structure AInv (L : List (Idx × Ptr)) (next : Ptr) (s : AState) : Prop where
  layer : s.layer = L
  tempNew : ∀ e ∈ s.temp, L.lookup e.1 = none ∧ next ≤ e.2 ∧ e.2 < s.next
  tempKeys : (s.temp.map (·.1)).Nodup
  tempPtrs : (s.temp.map (·.2)).Nodup
  tempAsked : ∀ e ∈ s.temp, ∃ t, (t, e.1, e.2) ∈ s.answers
  nextLe : next ≤ s.next
  cache : ∀ t b p, s.cache t = (b, some p) → resolve s b = some p
  pc : ∀ t b, s.pc t = .wantLock b → L.lookup b = none
  answers : ∀ a ∈ s.answers, resolve s a.2.1 = some a.2.2

theorem lookup_mem {l : List (Idx × Ptr)} {b : Idx} {p : Ptr} (h : l.lookup b = some p) :
    (b, p) ∈ l := by
  induction l with
  | nil => simp at h
  | cons e l ih =>
    obtain ⟨k, v⟩ := e
    rw [List.lookup_cons] at h
    split at h
    · rename_i hk
      have hk : b = k := by simpa using hk
      simp only [Option.some.injEq] at h
      subst hk; subst h
      exact List.mem_cons_self ..
    · exact List.mem_cons_of_mem _ (ih h)

theorem lookup_none {l : List (Idx × Ptr)} {b : Idx} (h : l.lookup b = none) :
    b ∉ l.map (·.1) := by
  induction l with
  | nil => simp
  | cons e l ih =>
    obtain ⟨k, v⟩ := e
    rw [List.lookup_cons] at h
    split at h
    · cases h
    · rename_i hk
      have hk : ¬ b = k := by simpa using hk
      simp only [List.map_cons, List.mem_cons, not_or]
      exact ⟨hk, ih h⟩

theorem lookup_of_mem {l : List (Idx × Ptr)} (hn : (l.map (·.1)).Nodup) {b : Idx} {p : Ptr}
    (h : (b, p) ∈ l) : l.lookup b = some p := by
  induction l with
  | nil => cases h
  | cons e l ih =>
    obtain ⟨k, v⟩ := e
    simp only [List.map_cons, List.nodup_cons] at hn
    rw [List.lookup_cons]
    rcases List.mem_cons.1 h with he | he
    · cases he; simp
    · have : b ≠ k := by
        rintro rfl
        exact hn.1 (List.mem_map.2 ⟨_, he, rfl⟩)
      rw [show (b == k) = false by simpa using this]
      exact ih hn.2 he

theorem ainv_init (layer : List (Idx × Ptr)) (next : Ptr) (junk : ℕ → Idx) :
    AInv layer next (AState.init layer next junk) :=
  ⟨rfl, by simp [AState.init], by simp [AState.init], by simp [AState.init], by simp [AState.init],
    le_rfl, by simp [AState.init], by simp [AState.init], by simp [AState.init]⟩

theorem ainv_step {layer : List (Idx × Ptr)} {next : Ptr} {s s' : AState}
    (h : AInv layer next s) (hs : AStep s s') : AInv layer next s' := by
  cases hs with
  | cached t b p hpc hc =>
    refine ⟨h.layer, h.tempNew, h.tempKeys, h.tempPtrs, ?_, h.nextLe, h.cache, h.pc, ?_⟩
    · exact fun e he => (h.tempAsked e he).imp fun t ht => List.mem_cons_of_mem _ ht
    · intro a ha
      rcases List.mem_cons.1 ha with rfl | ha
      · exact h.cache t b p hc
      · exact h.answers a ha
  | inLayer t b p hpc hc hl =>
    have hr : resolve s b = some p := by simp [resolve, hl]
    refine ⟨h.layer, h.tempNew, h.tempKeys, h.tempPtrs, ?_, h.nextLe, ?_, h.pc, ?_⟩
    · exact fun e he => (h.tempAsked e he).imp fun t ht => List.mem_cons_of_mem _ ht
    · intro u b' p' hu
      by_cases hut : u = t
      · subst hut
        simp only [Function.update_self, Prod.mk.injEq, Option.some.injEq] at hu
        rw [← hu.1, ← hu.2]; exact hr
      · simp only [Function.update_of_ne hut] at hu
        exact h.cache u b' p' hu
    · intro a ha
      rcases List.mem_cons.1 ha with rfl | ha
      · exact hr
      · exact h.answers a ha
  | miss t b hpc hc hl =>
    refine ⟨h.layer, h.tempNew, h.tempKeys, h.tempPtrs, h.tempAsked, h.nextLe, ?_, ?_, h.answers⟩
    · intro u b' p' hu
      by_cases hut : u = t
      · subst hut; simp at hu
      · simp only [Function.update_of_ne hut] at hu
        exact h.cache u b' p' hu
    · intro u b' hu
      by_cases hut : u = t
      · subst hut
        simp only [Function.update_self, Pc.wantLock.injEq] at hu
        rw [← hu, ← h.layer]; exact hl
      · simp only [Function.update_of_ne hut] at hu
        exact h.pc u b' hu
  | found t b p hpc hl =>
    have hr : resolve s b = some p := by
      have := h.pc t b hpc
      rw [← h.layer] at this
      simp [resolve, this, hl]
    refine ⟨h.layer, h.tempNew, h.tempKeys, h.tempPtrs, ?_, h.nextLe, ?_, ?_, ?_⟩
    · exact fun e he => (h.tempAsked e he).imp fun t ht => List.mem_cons_of_mem _ ht
    · intro u b' p' hu
      by_cases hut : u = t
      · subst hut
        simp only [Function.update_self, Prod.mk.injEq, Option.some.injEq] at hu
        rw [← hu.1, ← hu.2]; exact hr
      · simp only [Function.update_of_ne hut] at hu
        exact h.cache u b' p' hu
    · intro u b' hu
      by_cases hut : u = t
      · subst hut; simp at hu
      · simp only [Function.update_of_ne hut] at hu
        exact h.pc u b' hu
    · intro a ha
      rcases List.mem_cons.1 ha with rfl | ha
      · exact hr
      · exact h.answers a ha
  | create t b hpc hl =>
    have hlay := h.pc t b hpc
    have mono : ∀ b' p', resolve s b' = some p' →
        resolve { s with temp := (b, s.next) :: s.temp } b' = some p' := by
      intro b' p' hr
      unfold resolve at hr ⊢
      simp only
      split at hr
      · rename_i q hq; exact hr
      · rename_i hq
        have : b' ≠ b := by
          rintro rfl
          rw [hl] at hr
          cases hr
        simp only [List.lookup_cons, show (b' == b) = false by simpa using this, hr]
    have hr : resolve { s with temp := (b, s.next) :: s.temp } b = some s.next := by
      simp [resolve, h.layer, hlay]
    refine ⟨h.layer, ?_, ?_, ?_, ?_, ?_, ?_, ?_, ?_⟩
    · intro e he
      rcases List.mem_cons.1 he with rfl | he
      · exact ⟨hlay, h.nextLe, Nat.lt_succ_self _⟩
      · have := h.tempNew e he
        exact ⟨this.1, this.2.1, Nat.lt_succ_of_lt this.2.2⟩
    · simp only [List.map_cons, List.nodup_cons]
      exact ⟨lookup_none hl, h.tempKeys⟩
    · simp only [List.map_cons, List.nodup_cons]
      refine ⟨?_, h.tempPtrs⟩
      intro hm
      obtain ⟨e, he, hee⟩ := List.mem_map.1 hm
      have := (h.tempNew e he).2.2
      have hee : e.2 = s.next := hee
      rw [hee] at this
      exact Nat.lt_irrefl _ this
    · intro e he
      rcases List.mem_cons.1 he with rfl | he
      · exact ⟨t, List.mem_cons_self ..⟩
      · exact (h.tempAsked e he).imp fun t ht => List.mem_cons_of_mem _ ht
    · exact Nat.le_succ_of_le h.nextLe
    · intro u b' p' hu
      by_cases hut : u = t
      · subst hut
        simp only [Function.update_self, Prod.mk.injEq, Option.some.injEq] at hu
        rw [← hu.1, ← hu.2]; exact hr
      · simp only [Function.update_of_ne hut] at hu
        exact mono _ _ (h.cache u b' p' hu)
    · intro u b' hu
      by_cases hut : u = t
      · subst hut; simp at hu
      · simp only [Function.update_of_ne hut] at hu
        exact h.pc u b' hu
    · intro a ha
      rcases List.mem_cons.1 ha with rfl | ha
      · exact hr
      · exact mono _ _ (h.answers a ha)
  | newRay t junk hpc =>
    refine ⟨h.layer, h.tempNew, h.tempKeys, h.tempPtrs, h.tempAsked, h.nextLe, ?_, h.pc, h.answers⟩
    intro u b' p' hu
    by_cases hut : u = t
    · subst hut; simp at hu
    · simp only [Function.update_of_ne hut] at hu
      exact h.cache u b' p' hu

theorem ainv_reach {layer : List (Idx × Ptr)} {next : Ptr} {junk : ℕ → Idx} {s : AState}
    (h : AReach layer next junk s) : AInv layer next s := by
  induction h with
  | init => exact ainv_init layer next junk
  | step _ hs ih => exact ainv_step ih hs

theorem insertAll_ok : ∀ (temp layer : List (Idx × Ptr)), (temp.map (·.1)).Nodup →
    (∀ e ∈ temp, layer.lookup e.1 = none) →
    ∃ l, insertAll layer temp = .ok l ∧
      ∀ b, l.lookup b = match layer.lookup b with
        | some p => some p
        | none => temp.lookup b := by
  intro temp
  induction temp with
  | nil =>
    intro layer _ _
    refine ⟨layer, rfl, fun b => ?_⟩
    cases layer.lookup b <;> rfl
  | cons e temp ih =>
    intro layer hn hl
    obtain ⟨k, v⟩ := e
    simp only [List.map_cons, List.nodup_cons] at hn
    have hk := hl (k, v) (List.mem_cons_self ..)
    simp only at hk
    obtain ⟨l, h1, h2⟩ := ih ((k, v) :: layer) hn.2 (by
      intro e he
      rw [List.lookup_cons]
      have : e.1 ≠ k := by
        intro hc
        exact hn.1 (List.mem_map.2 ⟨e, he, hc⟩)
      rw [show (e.1 == k) = false by simpa using this]
      exact hl e (List.mem_cons_of_mem _ he))
    refine ⟨l, by simp only [insertAll, hk, h1], ?_⟩
    intro b
    rw [h2 b, List.lookup_cons, List.lookup_cons]
    by_cases hb : b = k
    · subst hb
      simp [hk]
    · rw [show (b == k) = false by simpa using hb]

end Vox.Alloc
