import Verif.Spec.Layer
import Verif.Lemmas.Alloc
import Mathlib.Data.List.Nodup
import Mathlib.Tactic.Linarith

namespace Vox.Layer

open Vox.Spec

variable {V : Type}

/-- Invariant of a layer in memory: unique keys, no block shared by two keys, all blocks allocated. -/
structure Inv (s : St V) : Prop where
  keys : (s.map.map (·.1)).Nodup
  ptrs : (s.map.map (·.2)).Nodup
  alloc : ∀ e ∈ s.map, e.2 < s.mem.next

/-- The finite map represented by a layer in memory. -/
def view (s : St V) : FMap V := fun i => (s.map.lookup i).map s.mem.heap

theorem lookup_filter_key {α : Type} (m : List (Idx × α)) (i j : Idx) :
    (m.filter fun e => e.1 ≠ i).lookup j = if j = i then none else m.lookup j := by
  induction m with
  | nil => simp
  | cons e m ih =>
    obtain ⟨k, p⟩ := e
    by_cases hk : k = i
    · subst hk
      rw [List.filter_cons_of_neg (by simp), ih]
      by_cases hj : j = k
      · simp [hj]
      · rw [if_neg hj, if_neg hj, List.lookup_cons]
        have : (j == k) = false := by simpa using hj
        rw [this]
    · rw [List.filter_cons_of_pos (by simpa using hk), List.lookup_cons, List.lookup_cons, ih]
      by_cases hj : j = k
      · subst hj
        simp [hk]
      · have : (j == k) = false := by simpa using hj
        rw [this]

theorem lookup_cons_ite {α : Type} (m : List (Idx × α)) (i j : Idx) (p : α) :
    ((i, p) :: m).lookup j = if j = i then some p else m.lookup j := by
  rw [List.lookup_cons]
  by_cases h : j = i
  · simp [h]
  · have : (j == i) = false := by simpa using h
    rw [this, if_neg h]

theorem lookup_some_mem {α : Type} {m : List (Idx × α)} {i : Idx} {p : α} (h : m.lookup i = some p) :
    (i, p) ∈ m := by
  induction m with
  | nil => simp at h
  | cons e m ih =>
    obtain ⟨k, q⟩ := e
    rw [lookup_cons_ite] at h
    split at h
    · next hk => simp only [Option.some.injEq] at h; subst hk h; exact List.mem_cons_self
    · exact List.mem_cons_of_mem _ (ih h)

theorem lookup_eq_none_iff' {α : Type} {m : List (Idx × α)} {i : Idx} :
    m.lookup i = none ↔ i ∉ m.map (·.1) := by
  induction m with
  | nil => simp
  | cons e m ih =>
    obtain ⟨k, q⟩ := e
    rw [lookup_cons_ite]
    by_cases h : i = k
    · simp [h]
    · rw [if_neg h, ih]
      simp [h]

theorem lookup_mem_iff {α : Type} {m : List (Idx × α)} (hk : (m.map (·.1)).Nodup) {i : Idx} {p : α} :
    m.lookup i = some p ↔ (i, p) ∈ m := by
  refine ⟨lookup_some_mem, fun h => ?_⟩
  induction m with
  | nil => simp at h
  | cons e m ih =>
    obtain ⟨k, q⟩ := e
    rw [lookup_cons_ite]
    rw [List.map_cons, List.nodup_cons] at hk
    rcases List.mem_cons.1 h with h | h
    · simp only [Prod.mk.injEq] at h; obtain ⟨h1, h2⟩ := h; subst h1 h2; rw [if_pos rfl]
    · have : i ≠ k := by
        intro hik
        exact hk.1 (List.mem_map.2 ⟨_, h, hik⟩)
      rw [if_neg this]
      exact ih hk.2 h

theorem Inv.lookup_inj {s : St V} (h : Inv s) {i j : Idx} {p : Ptr} (h1 : s.map.lookup i = some p)
    (h2 : s.map.lookup j = some p) : i = j := by
  have := List.inj_on_of_nodup_map h.ptrs (lookup_some_mem h1) (lookup_some_mem h2) rfl
  exact congrArg Prod.fst this

theorem Inv.lookup_lt {s : St V} (h : Inv s) {i : Idx} {p : Ptr} (h1 : s.map.lookup i = some p) :
    p < s.mem.next := h.alloc _ (lookup_some_mem h1)

/-- A write through a pointer of the layer changes exactly the entry with that pointer. -/
theorem view_write {s : St V} (h : Inv s) {i : Idx} {p : Ptr} (h1 : s.map.lookup i = some p)
    (f : Block ℚ V → Block ℚ V) :
    view { s with mem := s.mem.write p f } = Function.update (view s) i ((view s i).map f) := by
  funext j
  by_cases hj : j = i
  · subst hj
    simp [view, h1, Mem.write]
  · rw [Function.update_of_ne hj]
    simp only [view, Mem.write]
    cases hl : s.map.lookup j with
    | none => rfl
    | some q =>
      have : q ≠ p := by
        rintro rfl
        exact hj (h.lookup_inj hl h1)
      simp [Function.update_of_ne this]

theorem inv_write {s : St V} (h : Inv s) (p : Ptr) (f : Block ℚ V → Block ℚ V) :
    Inv { s with mem := s.mem.write p f } := ⟨h.keys, h.ptrs, h.alloc⟩

theorem inv_alloc {s : St V} (h : Inv s) (b : Block ℚ V) : Inv ⟨(s.mem.alloc b).1, s.map⟩ :=
  ⟨h.keys, h.ptrs, fun e he => Nat.lt_succ_of_lt (h.alloc e he)⟩

theorem view_alloc {s : St V} (h : Inv s) (b : Block ℚ V) :
    view ⟨(s.mem.alloc b).1, s.map⟩ = view s := by
  funext j
  simp only [view, Mem.alloc]
  cases hl : s.map.lookup j with
  | none => rfl
  | some q => simp [Function.update_of_ne (Nat.ne_of_lt (h.lookup_lt hl))]

theorem inv_alloc_cons {s : St V} (h : Inv s) (b : Block ℚ V) {i : Idx} (hi : s.map.lookup i = none) :
    Inv ⟨(s.mem.alloc b).1, (i, s.mem.next) :: s.map⟩ := by
  refine ⟨?_, ?_, ?_⟩
  · rw [List.map_cons, List.nodup_cons]
    exact ⟨lookup_eq_none_iff'.1 hi, h.keys⟩
  · rw [List.map_cons, List.nodup_cons]
    refine ⟨fun hm => ?_, h.ptrs⟩
    obtain ⟨e, he, hp⟩ := List.mem_map.1 hm
    exact absurd (h.alloc e he) (by rw [hp]; exact Nat.lt_irrefl _)
  · intro e he
    rcases List.mem_cons.1 he with rfl | he
    · exact Nat.lt_succ_self _
    · exact Nat.lt_succ_of_lt (h.alloc e he)

theorem view_alloc_cons {s : St V} (h : Inv s) (b : Block ℚ V) {i : Idx} :
    view ⟨(s.mem.alloc b).1, (i, s.mem.next) :: s.map⟩ = Function.update (view s) i (some b) := by
  funext j
  simp only [view, Mem.alloc]
  rw [lookup_cons_ite]
  by_cases hj : j = i
  · subst hj; simp
  · rw [if_neg hj, Function.update_of_ne hj]
    change _ = (s.map.lookup j).map s.mem.heap
    cases hl : s.map.lookup j with
    | none => rfl
    | some q => simp [Function.update_of_ne (Nat.ne_of_lt (h.lookup_lt hl))]

theorem view_some_lookup {s : St V} {i : Idx} {b : Block ℚ V} (h : view s i = some b) :
    ∃ p, s.map.lookup i = some p ∧ s.mem.heap p = b := by
  simpa [view] using h

theorem view_none_lookup {s : St V} {i : Idx} (h : view s i = none) : s.map.lookup i = none := by
  simpa [view] using h

theorem inv_filter {s : St V} (h : Inv s) (q : Idx × Ptr → Bool) :
    Inv { s with map := s.map.filter q } := by
  have hsub : (s.map.filter q).Sublist s.map := List.filter_sublist
  exact ⟨h.keys.sublist (hsub.map _), h.ptrs.sublist (hsub.map _), fun e he => h.alloc e (hsub.subset he)⟩

theorem view_eraseKey (s : St V) (i : Idx) :
    view { s with map := eraseKey s.map i } = Function.update (view s) i none := by
  funext j
  simp only [view, eraseKey, lookup_filter_key]
  by_cases hj : j = i
  · subst hj; simp
  · rw [if_neg hj, Function.update_of_ne hj]; rfl

theorem ncard_view {s : St V} (h : Inv s) : Set.ncard {i | view s i ≠ none} = s.map.length := by
  have : {i | view s i ≠ none} = ↑((s.map.map (·.1)).toFinset) := by
    ext i
    simp only [view, Set.mem_ofPred_eq, ne_eq, Option.map_eq_none_iff, List.coe_toFinset]
    rw [lookup_eq_none_iff', not_not]
  rw [this, Set.ncard_coe_finset, List.toFinset_card_of_nodup h.keys, List.length_map]

/-- One operation of the code matches the specification. -/
theorem step_refines (dbg : Bool) (cfg : Cfg) (dflt : V) {s : St V} (h : Inv s) (op : Op V) :
    match specStep dbg cfg dflt (view s) op with
    | .ok (m', ob) => ∃ s', codeStep dbg cfg dflt s op = .ok (s', ob) ∧ Inv s' ∧ view s' = m'
    | .fatal => codeStep dbg cfg dflt s op = .fatal
    | .ub => False := by
  cases op with
  | alloc i f =>
    cases hl : s.map.lookup i with
    | some p =>
      have hv : view s i = some (s.mem.heap p) := by simp [view, hl]
      simp only [specStep, hv, Option.getD_some]
      refine ⟨{ s with mem := s.mem.write p f }, by simp [codeStep, allocateBlockPtr, hl],
        inv_write h p f, ?_⟩
      rw [view_write h hl, hv]; rfl
    | none =>
      have hv : view s i = none := by simp [view, hl]
      simp only [specStep, hv, Option.getD_none]
      have hi := inv_alloc_cons h (Block.new dflt cfg.vps cfg.voxelSize (originPoint i cfg.blockSize)) hl
      have hw := view_alloc_cons h (Block.new dflt cfg.vps cfg.voxelSize (originPoint i cfg.blockSize)) (i := i)
      have hl' : (⟨(s.mem.alloc (Block.new dflt cfg.vps cfg.voxelSize (originPoint i cfg.blockSize))).1,
        (i, s.mem.next) :: s.map⟩ : St V).map.lookup i = some s.mem.next := by
        simp
      refine ⟨_, ?_, inv_write hi s.mem.next f, ?_⟩
      · simp only [codeStep, allocateBlockPtr, hl, allocateNewBlock, Mem.alloc, Outcome.bind_ok,
          Outcome.pure_eq, Function.update_self, originPoint, Cfg.blockSize, Vec3.map]
      · rw [view_write hi hl', hw]
        simp only [Function.update_self, Option.map_some, Function.update_idem, originPoint,
          Cfg.blockSize, Vec3.map]
  | allocNew i f =>
    cases hl : s.map.lookup i with
    | some p =>
      have hv : view s i = some (s.mem.heap p) := by simp [view, hl]
      simp only [specStep, hv]
      cases dbg with
      | true => simp [codeStep, allocateNewBlock, hl]
      | false =>
        simp only [Bool.false_eq_true, if_false]
        have hi := inv_alloc h (Block.new dflt cfg.vps cfg.voxelSize (originPoint i cfg.blockSize))
        have hw := view_alloc h (Block.new dflt cfg.vps cfg.voxelSize (originPoint i cfg.blockSize))
        have hne : p ≠ s.mem.next := Nat.ne_of_lt (h.lookup_lt hl)
        refine ⟨_, ?_, inv_write hi p f, ?_⟩
        · simp only [codeStep, hl, allocateNewBlock, Mem.alloc, Outcome.bind_ok,
            Outcome.pure_eq, Bool.false_eq_true, if_false, Function.update_of_ne hne]
        · rw [view_write hi hl, hw, hv]; rfl
    | none =>
      have hv : view s i = none := by simp [view, hl]
      simp only [specStep, hv]
      have hi := inv_alloc_cons h (Block.new dflt cfg.vps cfg.voxelSize (originPoint i cfg.blockSize)) hl
      have hw := view_alloc_cons h (Block.new dflt cfg.vps cfg.voxelSize (originPoint i cfg.blockSize)) (i := i)
      have hl' : (⟨(s.mem.alloc (Block.new dflt cfg.vps cfg.voxelSize (originPoint i cfg.blockSize))).1,
        (i, s.mem.next) :: s.map⟩ : St V).map.lookup i = some s.mem.next := by
        simp
      refine ⟨_, ?_, inv_write hi s.mem.next f, ?_⟩
      · simp only [codeStep, hl, allocateNewBlock, Mem.alloc, Outcome.bind_ok,
          Outcome.pure_eq, Function.update_self, originPoint, Cfg.blockSize, Vec3.map]
      · rw [view_write hi hl', hw]
        simp only [Function.update_self, Option.map_some, Function.update_idem, originPoint,
          Cfg.blockSize, Vec3.map]
  | insert i b =>
    cases hl : s.map.lookup i with
    | some p =>
      have hv : view s i = some (s.mem.heap p) := by simp [view, hl]
      simp only [specStep, hv]
      cases dbg with
      | true => simp [codeStep, insertBlock, hl]
      | false =>
        simp only [Bool.false_eq_true, if_false]
        exact ⟨_, by simp [codeStep, insertBlock, Mem.alloc, hl], inv_alloc h b, view_alloc h b⟩
    | none =>
      have hv : view s i = none := by simp [view, hl]
      simp only [specStep, hv]
      exact ⟨_, by simp [codeStep, insertBlock, Mem.alloc, hl], inv_alloc_cons h b hl,
        view_alloc_cons h b⟩
  | modify i f =>
    simp only [specStep]
    cases hl : s.map.lookup i with
    | some p =>
      exact ⟨_, by simp [codeStep, getBlockPtr, hl], inv_write h p f, view_write h hl f⟩
    | none =>
      have hv : view s i = none := by simp [view, hl]
      refine ⟨s, by simp [codeStep, getBlockPtr, hl], h, ?_⟩
      rw [hv]
      funext j
      by_cases hj : j = i
      · subst hj; simp [hv]
      · simp [Function.update_of_ne hj]
  | remove i =>
    simp only [specStep]
    exact ⟨_, rfl, inv_filter h _, view_eraseKey s i⟩
  | removeAll =>
    simp only [specStep]
    exact ⟨_, rfl, ⟨by simp [removeAllBlocks], by simp [removeAllBlocks], by simp [removeAllBlocks]⟩,
      by funext i; simp [view, removeAllBlocks]⟩
  | has i =>
    simp only [specStep]
    exact ⟨s, by simp [codeStep, hasBlock, view], h, rfl⟩
  | get i =>
    simp only [specStep]
    exact ⟨s, by simp [codeStep, getBlockPtr, view], h, rfl⟩
  | deref i =>
    cases hl : s.map.lookup i with
    | some p =>
      have hv : view s i = some (s.mem.heap p) := by simp [view, hl]
      simp only [specStep, hv]
      exact ⟨s, by simp [codeStep, getBlock, hl], h, rfl⟩
    | none =>
      have hv : view s i = none := by simp [view, hl]
      simp only [specStep, hv]
      simp [codeStep, getBlock, hl]
  | count =>
    simp only [specStep]
    exact ⟨s, by simp only [codeStep, numBlocks]; rw [ncard_view h], h, rfl⟩

theorem run_refines (dbg : Bool) (cfg : Cfg) (dflt : V) : ∀ (ops : List (Op V)) {s : St V}, Inv s →
    match runOps (specStep dbg cfg dflt) (view s) ops with
    | .ok (m', obs) => ∃ s', runOps (codeStep dbg cfg dflt) s ops = .ok (s', obs) ∧ Inv s' ∧ view s' = m'
    | .fatal => runOps (codeStep dbg cfg dflt) s ops = .fatal
    | .ub => False := by
  intro ops
  induction ops with
  | nil => intro s h; exact ⟨s, rfl, h, rfl⟩
  | cons op ops ih =>
    intro s h
    have hstep := step_refines dbg cfg dflt h op
    simp only [runOps]
    cases hs : specStep dbg cfg dflt (view s) op with
    | ok r =>
      obtain ⟨m', ob⟩ := r
      rw [hs] at hstep
      obtain ⟨s', hc, hi, hv⟩ := hstep
      subst hv
      have hrest := ih hi
      simp only [Outcome.bind_ok, hc]
      cases hr : runOps (specStep dbg cfg dflt) (view s') ops with
      | ok r =>
        rw [hr] at hrest
        obtain ⟨s'', hc', hi', hv'⟩ := hrest
        exact ⟨s'', by simp [hc'], hi', hv'⟩
      | fatal => rw [hr] at hrest; simp [hrest]
      | ub => rw [hr] at hrest; exact hrest.elim
    | fatal => rw [hs] at hstep; simp [hstep]
    | ub => rw [hs] at hstep; exact hstep.elim

theorem inv_empty (dflt : V) : Inv (St.empty dflt) := ⟨by simp [St.empty], by simp [St.empty], by simp [St.empty]⟩

theorem view_empty (dflt : V) : view (St.empty dflt) = fun _ => none := by funext i; simp [view, St.empty]

theorem foldl_eraseKey (ks : List Idx) (m : BlockMap) :
    ks.foldl eraseKey m = m.filter fun e => e.1 ∉ ks := by
  induction ks generalizing m with
  | nil => simp
  | cons k ks ih =>
    rw [List.foldl_cons, ih, eraseKey, List.filter_filter]
    congr 1
    funext e
    simp only [List.mem_cons, not_or, ne_eq, Bool.decide_and, Bool.and_comm]

/-- The block the deep copy creates for index `i` from source block `b`. -/
def copied (cfg : Cfg) (dflt : V) (i : Idx) (b : Block ℚ V) : Block ℚ V :=
  { Block.new dflt cfg.vps cfg.voxelSize (originPoint i cfg.blockSize) with voxels := b.voxels }

theorem copy_fold (dbg : Bool) (cfg : Cfg) (dflt : V) (m0 : Mem V) :
    ∀ (l : BlockMap) (st : St V), Inv st → (l.map (·.1)).Nodup →
      (∀ e ∈ l, e.2 < m0.next ∧ (m0.heap e.2).voxels.length = numVoxels cfg.vps ∧
        st.map.lookup e.1 = none) →
      m0.next ≤ st.mem.next → (∀ p < m0.next, st.mem.heap p = m0.heap p) →
      (∀ e ∈ st.map, m0.next ≤ e.2) →
      ∃ st', l.foldlM (copyOne dbg cfg dflt) st = .ok st' ∧ Inv st' ∧
        (∀ p < m0.next, st'.mem.heap p = m0.heap p) ∧ (∀ e ∈ st'.map, m0.next ≤ e.2) ∧
        m0.next ≤ st'.mem.next ∧
        ∀ i, view st' i = match l.lookup i with
          | some p => some (copied cfg dflt i (m0.heap p))
          | none => view st i := by
  intro l
  induction l with
  | nil => intro st h _ _ h1 h2 h3; exact ⟨st, rfl, h, h2, h3, h1, fun i => rfl⟩
  | cons e l ih =>
    intro st h hk hl h1 h2 h3
    obtain ⟨k, p⟩ := e
    rw [List.map_cons, List.nodup_cons] at hk
    obtain ⟨hp, hlen, hnone⟩ := hl _ List.mem_cons_self
    simp only at hp hlen hnone
    set nb := Block.new dflt cfg.vps cfg.voxelSize (originPoint k cfg.blockSize) with hnb
    have hpn : p ≠ st.mem.next := Nat.ne_of_lt (Nat.lt_of_lt_of_le hp h1)
    have hnbl : nb.voxels.length = numVoxels cfg.vps := by simp [hnb, Block.new]
    have hi := inv_alloc_cons h nb hnone
    have hlk : (⟨(st.mem.alloc nb).1, (k, st.mem.next) :: st.map⟩ : St V).map.lookup k =
        some st.mem.next := by simp
    let f : Block ℚ V → Block ℚ V := fun b =>
      { b with voxels := (m0.heap p).voxels ++ b.voxels.drop (m0.heap p).voxels.length }
    set st1 : St V := ⟨((st.mem.alloc nb).1).write st.mem.next f, (k, st.mem.next) :: st.map⟩ with hst1
    have hone : copyOne dbg cfg dflt st (k, p) = .ok st1 := by
      simp only [copyOne, allocateBlockPtr, hnone, allocateNewBlock, Outcome.bind_ok, ← hnb]
      simp only [Mem.alloc, Function.update_self, Function.update_of_ne hpn, h2 p hp, hlen, hnbl]
      rw [show Outcome.require (decide (numVoxels cfg.vps ≤ numVoxels cfg.vps)) = .ok () by
        simp [Outcome.require]]
      simp only [Outcome.bind_ok, Outcome.pure_eq, hst1, Mem.alloc, f, hlen]
    have hi1 : Inv st1 := inv_write hi st.mem.next f
    have hv1 : view st1 = Function.update (view st) k (some (copied cfg dflt k (m0.heap p))) := by
      have := view_write hi hlk f
      rw [view_alloc_cons h nb] at this
      rw [hst1]
      refine this.trans ?_
      simp only [Function.update_self, Option.map_some, Function.update_idem, f, hlen]
      congr 2
      simp only [copied, ← hnb]
      rw [← hnbl, List.drop_length, List.append_nil]
    have hheap : ∀ q < m0.next, st1.mem.heap q = m0.heap q := by
      intro q hq
      have : q ≠ st.mem.next := Nat.ne_of_lt (Nat.lt_of_lt_of_le hq h1)
      simp [hst1, Mem.write, Mem.alloc, Function.update_of_ne this, h2 q hq]
    have hptr : ∀ e ∈ st1.map, m0.next ≤ e.2 := by
      intro e he
      rcases List.mem_cons.1 he with rfl | he
      · exact h1
      · exact h3 e he
    have hnext : m0.next ≤ st1.mem.next := Nat.le_succ_of_le h1
    have hnone1 : ∀ e ∈ l, e.2 < m0.next ∧ (m0.heap e.2).voxels.length = numVoxels cfg.vps ∧
        st1.map.lookup e.1 = none := by
      intro e he
      obtain ⟨a, b, c⟩ := hl e (List.mem_cons_of_mem _ he)
      refine ⟨a, b, ?_⟩
      have hne : e.1 ≠ k := by
        intro heq
        exact hk.1 (List.mem_map.2 ⟨e, he, heq⟩)
      rw [hst1, lookup_cons_ite, if_neg hne, c]
    obtain ⟨st', hf, hi', hh', hp', hn', hv'⟩ := ih st1 hi1 hk.2 hnone1 hnext hheap hptr
    refine ⟨st', by rw [List.foldlM_cons, hone, Outcome.bind_ok, hf], hi', hh', hp', hn', ?_⟩
    intro i
    rw [hv' i, lookup_cons_ite, hv1]
    by_cases hik : i = k
    · subst hik
      rw [if_pos rfl, lookup_eq_none_iff'.2 hk.1]
      simp
    · rw [if_neg hik, Function.update_of_ne hik]

end Vox.Layer
