/-
Lemmas for C111: the invariant of a mesh layer.
-/
import Verif.Lemmas.Layer
import Verif.Spec.MeshLayer

namespace Vox.MeshLayer

open Layer MC MeshInt Spec

/-- The pointers of a layer: one entry per index, no mesh under two indices, every pointer valid, every origin that of its block. -/
structure Inv (s : State) : Prop where
  keys : (s.map.map (·.1)).Nodup
  ptrs : (s.map.map (·.2)).Nodup
  valid : ∀ e ∈ s.map, ∃ b, s.heap[e.2]? = some b ∧ b.origin = originPoint e.1 s.blockSize

theorem inv_new (bs : ℚ) : Inv (new bs) := ⟨by simp [new], by simp [new], by simp [new]⟩

theorem Inv.mem_iff {s : State} (h : Inv s) {i : Idx} {p : ℕ} : s.map.lookup i = some p ↔ (i, p) ∈ s.map := lookup_mem_iff h.keys

theorem Inv.lt {s : State} (h : Inv s) {i : Idx} {p : ℕ} (hp : (i, p) ∈ s.map) : p < s.heap.length := by
  obtain ⟨b, hb, -⟩ := h.valid _ hp
  exact (List.getElem?_eq_some_iff.1 hb).1

theorem Inv.inj {s : State} (h : Inv s) {i j : Idx} {p : ℕ} (h1 : (i, p) ∈ s.map) (h2 : (j, p) ∈ s.map) : i = j := by
  have := (List.inj_on_of_nodup_map h.ptrs) h1 h2 rfl
  exact congrArg Prod.fst this

theorem Inv.meshAt {s : State} (h : Inv s) {i : Idx} {p : ℕ} (hp : s.map.lookup i = some p) : ∃ m, meshAt s i = some m ∧ ∃ b, s.heap[p]? = some b ∧ b.mesh = m := by
  obtain ⟨b, hb, -⟩ := h.valid _ (h.mem_iff.1 hp)
  exact ⟨b.mesh, by simp [Spec.meshAt, hp, hb], b, hb, rfl⟩

theorem Inv.meshAt_none {s : State} (h : Inv s) {i : Idx} : Spec.meshAt s i = none ↔ s.map.lookup i = none := by
  constructor
  · intro hn
    cases hp : s.map.lookup i with
    | none => rfl
    | some p =>
      obtain ⟨m, hm, -⟩ := h.meshAt hp
      rw [hn] at hm
      cases hm
  · intro hn
    simp [Spec.meshAt, hn]

/-! ### Allocation -/

/-- The state after a mesh has been added. -/
def added (s : State) (i : Idx) : State :=
  { s with map := (i, s.heap.length) :: s.map, heap := s.heap ++ [⟨Mesh.empty, s.blockSize, originPoint i s.blockSize⟩] }

theorem allocateNew_free (dbg : Bool) {s : State} (hs : 0 < s.blockSize) {i : Idx} (hi : s.map.lookup i = none) :
    allocateNew dbg s i = .ok (added s i, s.heap.length) := by
  have h1 : newBody s.blockSize (originPoint i s.blockSize) = .ok ⟨Mesh.empty, s.blockSize, originPoint i s.blockSize⟩ := by
    unfold newBody Outcome.check
    rw [decide_eq_true hs]
    rfl
  unfold allocateNew
  rw [h1, Outcome.bind_ok, hi]
  rfl

theorem allocateNew_taken (dbg : Bool) {s : State} (hs : 0 < s.blockSize) {i : Idx} {p : ℕ} (hi : s.map.lookup i = some p) :
    allocateNew dbg s i = if dbg then .fatal else .ok (s, p) := by
  have h1 : newBody s.blockSize (originPoint i s.blockSize) = .ok ⟨Mesh.empty, s.blockSize, originPoint i s.blockSize⟩ := by
    unfold newBody Outcome.check
    rw [decide_eq_true hs]
    rfl
  unfold allocateNew
  rw [h1, Outcome.bind_ok, hi]

theorem allocateNew_size (dbg : Bool) {s : State} (hs : s.blockSize ≤ 0) (i : Idx) : allocateNew dbg s i = .fatal := by
  unfold allocateNew newBody Outcome.check
  rw [decide_eq_false (not_lt.2 hs)]
  rfl

theorem added_inv {s : State} (h : Inv s) {i : Idx} (hi : s.map.lookup i = none) : Inv (added s i) := by
  refine ⟨?_, ?_, ?_⟩
  · simp only [added, List.map_cons, List.nodup_cons]
    refine ⟨?_, h.keys⟩
    intro hm
    obtain ⟨e, he, rfl⟩ := List.mem_map.1 hm
    have := h.mem_iff.2 he
    rw [hi] at this
    cases this
  · simp only [added, List.map_cons, List.nodup_cons]
    refine ⟨?_, h.ptrs⟩
    intro hm
    obtain ⟨e, he, e2⟩ := List.mem_map.1 hm
    have := h.lt (i := e.1) (p := e.2) he
    omega
  · intro e he
    simp only [added, List.mem_cons] at he
    rcases he with rfl | he
    · exact ⟨⟨Mesh.empty, s.blockSize, originPoint i s.blockSize⟩, by simp [added], rfl⟩
    · obtain ⟨b, hb, ho⟩ := h.valid e he
      refine ⟨b, ?_, ho⟩
      simp only [added]
      rw [List.getElem?_append_left (List.getElem?_eq_some_iff.1 hb).1]
      exact hb

theorem added_lookup {s : State} (i j : Idx) : (added s i).map.lookup j = if j = i then some s.heap.length else s.map.lookup j := by
  simp only [added, List.lookup_cons]
  by_cases h : j = i
  · subst h; simp
  · rw [if_neg h]
    have : (j == i) = false := by simpa using h
    rw [this]

theorem added_meshAt {s : State} (h : Inv s) {i : Idx} (j : Idx) :
    meshAt (added s i) j = if j = i then some Mesh.empty else meshAt s j := by
  unfold Spec.meshAt
  rw [added_lookup]
  by_cases hj : j = i
  · rw [if_pos hj, if_pos hj]
    simp [added]
  · rw [if_neg hj, if_neg hj]
    cases hp : s.map.lookup j with
    | none => rfl
    | some p =>
      have := h.lt (h.mem_iff.1 hp)
      simp only [added, Option.bind_some, List.getElem?_append_left this]

/-! ### The other operations -/

theorem remove_lookup (s : State) (i j : Idx) : (remove s i).map.lookup j = if j = i then none else s.map.lookup j := by
  unfold remove
  exact lookup_filter_key s.map i j

theorem remove_inv {s : State} (h : Inv s) (i : Idx) : Inv (remove s i) :=
  ⟨h.keys.sublist ((List.filter_sublist).map _), h.ptrs.sublist ((List.filter_sublist).map _), fun e he => h.valid e (List.mem_filter.1 he).1⟩

theorem clear_inv {s : State} : Inv (clear s) := ⟨by simp [clear], by simp [clear], by simp [clear]⟩

theorem write_heap (s : State) (h p : ℕ) (m : Mesh) :
    (write s h m).heap[p]? = (s.heap[p]?).map fun b => if h = p then { b with mesh := m } else b := by
  unfold write
  exact List.getElem?_modify _ _ _ _

theorem write_inv {s : State} (h : Inv s) (p : ℕ) (m : Mesh) : Inv (write s p m) := by
  refine ⟨h.keys, h.ptrs, fun e he => ?_⟩
  obtain ⟨b, hb, ho⟩ := h.valid e he
  refine ⟨_, by rw [write_heap, hb]; rfl, ?_⟩
  split_ifs
  · exact ho
  · exact ho

theorem fold_modify (f : Body → Body) (es : List (Idx × ℕ)) (hn : (es.map (·.2)).Nodup) : ∀ (heap : List Body) (p : ℕ),
    (es.foldl (fun heap e => heap.modify e.2 f) heap)[p]? = (heap[p]?).map fun b => if p ∈ es.map (·.2) then f b else b := by
  induction es with
  | nil => intro heap p; simp
  | cons e es ih =>
    intro heap p
    simp only [List.map_cons, List.nodup_cons] at hn
    rw [List.foldl_cons, ih hn.2, List.getElem?_modify]
    cases heap[p]? with
    | none => rfl
    | some b =>
      simp only [Option.map_some, Option.some.injEq, List.map_cons, List.mem_cons, Option.map_eq_map]
      by_cases h1 : e.2 = p
      · subst h1
        rw [if_neg hn.1]
        simp
      · have h1' : ¬ p = e.2 := fun h => h1 h.symm
        have : (p = e.2 ∨ p ∈ es.map (·.2)) ↔ p ∈ es.map (·.2) := or_iff_right h1'
        rw [if_neg h1]
        by_cases hm : p ∈ es.map (·.2)
        · rw [if_pos hm, if_pos (Or.inr hm)]
        · rw [if_neg hm, if_neg (fun h => hm (this.1 h))]

theorem clearDistant_heap {s : State} (h : Inv s) (c : Pt) (d : ℚ) (p : ℕ) :
    (clearDistant s c d).heap[p]? = (s.heap[p]?).map fun b => if p ∈ s.map.map (·.2) then clearBody c d b else b := fold_modify _ _ h.ptrs _ _

theorem clearDistant_inv {s : State} (h : Inv s) (c : Pt) (d : ℚ) : Inv (clearDistant s c d) := by
  refine ⟨h.keys, h.ptrs, fun e he => ?_⟩
  obtain ⟨b, hb, ho⟩ := h.valid e he
  refine ⟨_, by rw [clearDistant_heap h, hb]; rfl, ?_⟩
  have : ∀ b, (clearBody c d b).origin = b.origin := by intro b; unfold clearBody; split_ifs <;> rfl
  split_ifs
  · rw [this]; exact ho
  · exact ho

/-! ### Sequences -/

theorem step_inv {dbg : Bool} {s s' : State} (h : Inv s) {op : Op} (hs : step dbg s op = .ok s') : Inv s' ∧ s'.blockSize = s.blockSize := by
  have new : ∀ {i r}, allocateNew dbg s i = .ok r → Inv r.1 ∧ r.1.blockSize = s.blockSize := by
    intro i r hr
    rcases le_or_gt s.blockSize 0 with hb | hb
    · rw [allocateNew_size dbg hb] at hr; cases hr
    · cases hp : s.map.lookup i with
      | none =>
        rw [allocateNew_free dbg hb hp] at hr
        obtain rfl := Outcome.ok.inj hr
        exact ⟨added_inv h hp, rfl⟩
      | some p =>
        rw [allocateNew_taken dbg hb hp] at hr
        cases dbg with
        | true => cases hr
        | false =>
          obtain rfl := Outcome.ok.inj hr
          exact ⟨h, rfl⟩
  cases op with
  | allocate i =>
    obtain ⟨r, h1, h2⟩ := Outcome.bind_eq_ok.1 hs
    obtain rfl := Outcome.ok.inj h2
    unfold allocate at h1
    cases hp : s.map.lookup i with
    | none => rw [hp] at h1; exact new h1
    | some p => rw [hp] at h1; obtain rfl := Outcome.ok.inj h1; exact ⟨h, rfl⟩
  | allocateNew i =>
    obtain ⟨r, h1, h2⟩ := Outcome.bind_eq_ok.1 hs
    obtain rfl := Outcome.ok.inj h2
    exact new h1
  | remove i => obtain rfl := Outcome.ok.inj hs; exact ⟨remove_inv h i, rfl⟩
  | clear => obtain rfl := Outcome.ok.inj hs; exact ⟨clear_inv, rfl⟩
  | clearDistant c d => obtain rfl := Outcome.ok.inj hs; exact ⟨clearDistant_inv h c d, rfl⟩
  | write p m => obtain rfl := Outcome.ok.inj hs; exact ⟨write_inv h p m, rfl⟩

theorem run_cons {dbg : Bool} {s s' : State} {op : Op} {ops : List Op} (h : run dbg s (op :: ops) = .ok s') :
    ∃ s1, step dbg s op = .ok s1 ∧ run dbg s1 ops = .ok s' := by
  unfold run at h ⊢
  rw [List.foldlM_cons] at h
  exact Outcome.bind_eq_ok.1 h

theorem run_inv {dbg : Bool} {ops : List Op} : ∀ {s s' : State}, Inv s → run dbg s ops = .ok s' → Inv s' ∧ s'.blockSize = s.blockSize := by
  induction ops with
  | nil => intro s s' h hr; obtain rfl := Outcome.ok.inj hr; exact ⟨h, rfl⟩
  | cons op ops ih =>
    intro s s' h hr
    obtain ⟨s1, h1, h2⟩ := run_cons hr
    obtain ⟨a, b⟩ := step_inv h h1
    obtain ⟨c, e⟩ := ih a h2
    exact ⟨c, e.trans b⟩

end Vox.MeshLayer
