/-
C111: the mesh layer is a finite map from block indices to meshes.
-/
import Verif.Lemmas.MeshLayer

namespace Vox.MeshLayer

open Layer MC MeshInt Spec

/-! Data for the examples: a mesh at the origin, one far away, one handed out and removed. -/

private def exMesh : Mesh := ⟨[⟨.fin 0, .fin 0, .fin 0⟩, ⟨.fin 1, .fin 0, .fin 0⟩, ⟨.fin 0, .fin 1, .fin 0⟩], [0, 1, 2], [], [], false⟩

private def exOps : List Op := [.allocate ⟨0, 0, 0⟩, .write 0 exMesh, .allocate ⟨9, 0, 0⟩, .write 1 exMesh, .allocate ⟨1, 0, 0⟩, .remove ⟨1, 0, 0⟩]

private def exState : State := ⟨2, [(⟨9, 0, 0⟩, 1), (⟨0, 0, 0⟩, 0)],
  [⟨exMesh, 2, ⟨0, 0, 0⟩⟩, ⟨exMesh, 2, ⟨18, 0, 0⟩⟩, ⟨Mesh.empty, 2, ⟨2, 0, 0⟩⟩]⟩

private def sameState (r : Outcome State) (s : State) : Bool :=
  match r with
  | .ok t => decide (t.blockSize = s.blockSize ∧ t.map = s.map ∧ t.heap = s.heap)
  | _ => false

private theorem exState_inv : Inv exState := by
  refine ⟨by decide, by decide, fun e he => ?_⟩
  simp only [exState, List.mem_cons, List.not_mem_nil, or_false] at he
  rcases he with rfl | rfl
  · exact ⟨_, rfl, by decide +kernel⟩
  · exact ⟨_, rfl, by decide +kernel⟩

example : sameState (run true (new 2) exOps) exState = true := by decide +kernel

/-- **C111**, all histories: after any sequence of operations on a new layer there is one entry per index, no mesh under two indices, every pointer is
valid and every mesh lies at the origin of its block. The theorems below are about such layers. -/
theorem C111_invariant {dbg : Bool} {bs : ℚ} {ops : List Op} {s : State} (h : run dbg (new bs) ops = .ok s) : Inv s ∧ s.blockSize = bs :=
  run_inv (inv_new bs) h

/-- **C111**, access: a null pointer is returned exactly for the indices without a mesh, where access by reference aborts. -/
theorem C111_get {s : State} (h : Inv s) (i : Idx) : (getPtr s i = none ↔ meshAt s i = none) ∧ (getRef s i = .fatal ↔ meshAt s i = none) ∧
    ∀ p, getRef s i = .ok p ↔ getPtr s i = some p := by
  refine ⟨h.meshAt_none.symm, ?_, fun p => ?_⟩
  · rw [h.meshAt_none]
    unfold getRef
    cases s.map.lookup i <;> simp
  · unfold getRef getPtr
    cases s.map.lookup i <;> simp

example : getPtr exState ⟨9, 0, 0⟩ = some 1 ∧ meshAt exState ⟨9, 0, 0⟩ = some exMesh ∧ getPtr exState ⟨1, 0, 0⟩ = none := by decide +kernel

/-- **C111**, allocation: afterwards the index has the mesh it had, with the pointer it had, or an empty mesh that is not marked as updated; all other
indices are as before. -/
theorem C111_allocate (dbg : Bool) {s : State} (h : Inv s) (hs : 0 < s.blockSize) (i : Idx) : ∃ s' p, allocate dbg s i = .ok (s', p) ∧
    getPtr s' i = some p ∧ meshAt s' i = some ((meshAt s i).getD Mesh.empty) ∧ (∀ q, getPtr s i = some q → p = q) ∧
    ∀ j, j ≠ i → getPtr s' j = getPtr s j ∧ meshAt s' j = meshAt s j := by
  cases hp : s.map.lookup i with
  | some q =>
    refine ⟨s, q, by unfold allocate; rw [hp], hp, ?_, fun q' hq => ?_, fun _ _ => ⟨rfl, rfl⟩⟩
    · obtain ⟨m, hm, -⟩ := h.meshAt hp
      rw [hm]; rfl
    · exact Option.some.inj (hp.symm.trans hq)
  | none =>
    refine ⟨added s i, s.heap.length, ?_, ?_, ?_, fun q hq => ?_, fun j hj => ⟨?_, ?_⟩⟩
    · unfold allocate; rw [hp]; exact allocateNew_free dbg hs hp
    · unfold getPtr; rw [added_lookup, if_pos rfl]
    · rw [added_meshAt h, if_pos rfl, h.meshAt_none.2 hp]; rfl
    · unfold getPtr at hq; rw [hp] at hq; cases hq
    · unfold getPtr; rw [added_lookup, if_neg hj]
    · rw [added_meshAt h, if_neg hj]

example : (0 : ℚ) < exState.blockSize ∧ (match allocate true exState ⟨1, 0, 0⟩ with | .ok (s, p) => decide (p = 3 ∧ meshAt s ⟨1, 0, 0⟩ = some Mesh.empty ∧ meshAt s ⟨0, 0, 0⟩ = some exMesh) | _ => false) = true :=
  ⟨by norm_num [exState], by decide +kernel⟩

/-- **C111**, a layer whose block size is not positive can allocate nothing. -/
theorem C111_size (dbg : Bool) {s : State} (hs : s.blockSize ≤ 0) (i : Idx) : allocateNew dbg s i = .fatal ∧
    (meshAt s i = none → Inv s → allocate dbg s i = .fatal) := by
  refine ⟨allocateNew_size dbg hs i, fun hn h => ?_⟩
  unfold allocate
  rw [h.meshAt_none.1 hn]
  exact allocateNew_size dbg hs i

example : Inv (new 0) ∧ meshAt (new 0) ⟨0, 0, 0⟩ = none := ⟨inv_new 0, rfl⟩

/-- **C111**, `allocateNewBlock` for an index without a mesh does what allocation does. -/
theorem C111_new_partial (dbg : Bool) {s : State} (h : Inv s) {i : Idx} (hn : meshAt s i = none) : allocateNew dbg s i = allocate dbg s i := by
  unfold allocate
  rw [h.meshAt_none.1 hn]

example : meshAt exState ⟨1, 0, 0⟩ = none := by decide +kernel

/-- **C111** fails for `allocateNewBlock` if the index has a mesh: debug builds abort, others hand out the old mesh with its content. -/
theorem C111_new_violated {s : State} (h : Inv s) (hs : 0 < s.blockSize) {i : Idx} {m : Mesh} (hm : meshAt s i = some m) :
    allocateNew true s i = .fatal ∧ ∃ p, allocateNew false s i = .ok (s, p) ∧ getPtr s i = some p := by
  cases hp : s.map.lookup i with
  | none => rw [h.meshAt_none.2 hp] at hm; cases hm
  | some p => exact ⟨by rw [allocateNew_taken true hs hp]; rfl, p, by rw [allocateNew_taken false hs hp]; rfl, hp⟩

example : (0 : ℚ) < exState.blockSize ∧ meshAt exState ⟨0, 0, 0⟩ = some exMesh := ⟨by norm_num [exState], by decide +kernel⟩

/-- **C111**, meshes are written through their pointers: the index of the pointer has the new mesh, no other mesh changes; a pointer to a removed mesh
changes nothing in the layer. -/
theorem C111_write {s : State} (h : Inv s) (p : ℕ) (m : Mesh) (j : Idx) : getPtr (write s p m) j = getPtr s j ∧
    meshAt (write s p m) j = if getPtr s j = some p then some m else meshAt s j := by
  refine ⟨rfl, ?_⟩
  unfold getPtr
  show ((s.map.lookup j).bind fun q => ((write s p m).heap[q]?).map (·.mesh)) = _
  cases hq : s.map.lookup j with
  | none => simp [Spec.meshAt, hq]
  | some q =>
    obtain ⟨m', hm', b, hb, e⟩ := h.meshAt hq
    simp only [Option.bind_some, write_heap, hb, Option.map_some, hm', Option.some.injEq]
    by_cases hpq : p = q
    · rw [if_pos hpq, if_pos hpq.symm]
    · rw [if_neg hpq, if_neg (fun h => hpq h.symm), e]

example : getPtr exState ⟨0, 0, 0⟩ = some 0 ∧ ∀ j ∈ exState.map.map (·.1), getPtr exState j ≠ some 2 := by decide +kernel

/-- **C111**, removal: exactly the mesh of the index goes; clearing removes all. -/
theorem C111_remove (s : State) (i j : Idx) : getPtr (remove s i) j = (if j = i then none else getPtr s j) ∧
    meshAt (remove s i) j = (if j = i then none else meshAt s j) ∧ meshAt (clear s) j = none := by
  have h1 := remove_lookup s i j
  refine ⟨h1, ?_, rfl⟩
  unfold Spec.meshAt
  rw [h1]
  by_cases hj : j = i
  · rw [if_pos hj, if_pos hj]; rfl
  · rw [if_neg hj, if_neg hj]; rfl

example : meshAt (remove exState ⟨0, 0, 0⟩) ⟨9, 0, 0⟩ = some exMesh ∧ meshAt (remove exState ⟨0, 0, 0⟩) ⟨0, 0, 0⟩ = none := by decide +kernel

/-- **C111**, clearing distant meshes: meshes of blocks whose origin is farther than `d` from the centre become empty and are marked, but keep their entry
and pointer; all others are untouched. -/
theorem C111_distant {s : State} (h : Inv s) (c : Pt) (d : ℚ) (j : Idx) : getPtr (clearDistant s c d) j = getPtr s j ∧
    meshAt (clearDistant s c d) j = (meshAt s j).map fun m =>
      if d ^ 2 < (j.x * s.blockSize - c.x) ^ 2 + (j.y * s.blockSize - c.y) ^ 2 + (j.z * s.blockSize - c.z) ^ 2 then ⟨[], [], [], [], true⟩ else m := by
  refine ⟨rfl, ?_⟩
  show ((s.map.lookup j).bind fun q => ((clearDistant s c d).heap[q]?).map (·.mesh)) = _
  cases hq : s.map.lookup j with
  | none => simp [Spec.meshAt, hq]
  | some q =>
    have hm := h.mem_iff.1 hq
    obtain ⟨b, hb, ho⟩ := h.valid _ hm
    have hb' : meshAt s j = some b.mesh := by simp [Spec.meshAt, hq, hb]
    simp only [Option.bind_some, clearDistant_heap h, hb, Option.map_some, hb', Option.some.injEq]
    rw [if_pos (List.mem_map.2 ⟨_, hm, rfl⟩)]
    have e : sqNorm (b.origin - c) = (j.x * s.blockSize - c.x) ^ 2 + (j.y * s.blockSize - c.y) ^ 2 + (j.z * s.blockSize - c.z) ^ 2 := by
      rw [ho]
      show _ * _ + _ * _ + _ * _ = _
      simp only [originPoint, Vec3.map]
      show (_ - _) * (_ - _) + (_ - _) * (_ - _) + (_ - _) * (_ - _) = _
      ring
    unfold clearBody
    rw [e, ← pow_two]
    split_ifs
    · rfl
    · rfl

example : (meshAt (clearDistant exState ⟨1, 0, 0⟩ 5) ⟨9, 0, 0⟩ = some ⟨[], [], [], [], true⟩) ∧
    meshAt (clearDistant exState ⟨1, 0, 0⟩ 5) ⟨0, 0, 0⟩ = some exMesh := by decide +kernel

/-- **C111**, lists: the indices with a mesh, and those with an updated mesh, each once, whatever the list held before. -/
theorem C111_lists {s : State} (h : Inv s) (old : List Idx) :
    (allocated s old).Nodup ∧ (∀ i, i ∈ allocated s old ↔ (meshAt s i).isSome = true) ∧ count s = (allocated s old).length ∧
    (updated s old).Nodup ∧ ∀ i, i ∈ updated s old ↔ ∃ m, meshAt s i = some m ∧ m.updated = true := by
  refine ⟨h.keys, fun i => ?_, by simp [count, allocated], h.keys.sublist ((List.filter_sublist).map _), fun i => ?_⟩
  · constructor
    · intro hi
      obtain ⟨e, he, rfl⟩ := List.mem_map.1 hi
      obtain ⟨m, hm, -⟩ := h.meshAt (h.mem_iff.2 he)
      rw [hm]; rfl
    · intro hi
      cases hp : s.map.lookup i with
      | none => rw [h.meshAt_none.2 hp] at hi; cases hi
      | some p => exact List.mem_map.2 ⟨_, h.mem_iff.1 hp, rfl⟩
  · constructor
    · intro hi
      obtain ⟨e, he, rfl⟩ := List.mem_map.1 hi
      obtain ⟨he, hu⟩ := List.mem_filter.1 he
      obtain ⟨m, hm, b, hb, rfl⟩ := h.meshAt (h.mem_iff.2 he)
      refine ⟨_, hm, ?_⟩
      simp only [isUpdated, hb] at hu
      exact hu
    · rintro ⟨m, hm, hu⟩
      cases hp : s.map.lookup i with
      | none => rw [h.meshAt_none.2 hp] at hm; cases hm
      | some p =>
        obtain ⟨m', hm', b, hb, e⟩ := h.meshAt hp
        rw [hm] at hm'
        obtain rfl := Option.some.inj hm'
        refine List.mem_map.2 ⟨_, List.mem_filter.2 ⟨h.mem_iff.1 hp, ?_⟩, rfl⟩
        simp only [isUpdated, hb]
        rw [e]; exact hu

example : updated (clearDistant exState ⟨1, 0, 0⟩ 5) [⟨3, 3, 3⟩] = [⟨9, 0, 0⟩] ∧ allocated exState [⟨3, 3, 3⟩] = [⟨9, 0, 0⟩, ⟨0, 0, 0⟩] := by decide +kernel

/-! ### Pointers over time -/

/-- Operations that take the mesh of an index out of the layer. -/
def Removes (i : Idx) : Op → Prop
  | .remove j => j = i
  | .clear => True
  | _ => False

theorem step_ptr {dbg : Bool} {s s' : State} {op : Op} (hs : step dbg s op = .ok s') :
    (s' = s ∨ ∃ i, s.map.lookup i = none ∧ s' = added s i) ∨ (∃ i, op = .remove i ∧ s' = remove s i) ∨ (op = .clear ∧ s' = clear s) ∨
      (s'.map = s.map ∧ s'.heap.length = s.heap.length) := by
  have new : ∀ {i r}, allocateNew dbg s i = .ok r → r.1 = s ∨ ∃ i, s.map.lookup i = none ∧ r.1 = added s i := by
    intro i r hr
    rcases le_or_gt s.blockSize 0 with hb | hb
    · rw [allocateNew_size dbg hb] at hr; cases hr
    · cases hp : s.map.lookup i with
      | none =>
        rw [allocateNew_free dbg hb hp] at hr
        obtain rfl := Outcome.ok.inj hr
        exact .inr ⟨i, hp, rfl⟩
      | some p =>
        rw [allocateNew_taken dbg hb hp] at hr
        cases dbg with
        | true => cases hr
        | false => obtain rfl := Outcome.ok.inj hr; exact .inl rfl
  cases op with
  | allocate i =>
    obtain ⟨r, h1, h2⟩ := Outcome.bind_eq_ok.1 hs
    obtain rfl := Outcome.ok.inj h2
    unfold allocate at h1
    cases hp : s.map.lookup i with
    | none => rw [hp] at h1; exact .inl (new h1)
    | some p => rw [hp] at h1; obtain rfl := Outcome.ok.inj h1; exact .inl (.inl rfl)
  | allocateNew i =>
    obtain ⟨r, h1, h2⟩ := Outcome.bind_eq_ok.1 hs
    obtain rfl := Outcome.ok.inj h2
    exact .inl (new h1)
  | remove i => obtain rfl := Outcome.ok.inj hs; exact .inr (.inl ⟨i, rfl, rfl⟩)
  | clear => obtain rfl := Outcome.ok.inj hs; exact .inr (.inr (.inl ⟨rfl, rfl⟩))
  | clearDistant c d =>
    obtain rfl := Outcome.ok.inj hs
    refine .inr (.inr (.inr ⟨rfl, ?_⟩))
    have : ∀ (es : List (Idx × ℕ)) (heap : List Body), (es.foldl (fun heap e => heap.modify e.2 (clearBody c d)) heap).length = heap.length := by
      intro es
      induction es with
      | nil => intro heap; rfl
      | cons e es ih => intro heap; rw [List.foldl_cons, ih, List.length_modify]
    exact this _ _
  | write p m => obtain rfl := Outcome.ok.inj hs; exact .inr (.inr (.inr ⟨rfl, by simp [write]⟩))

/-- **C111**, pointers stay: as long as the mesh of an index is not removed, the index keeps its pointer, whatever else is done. -/
theorem C111_stays {dbg : Bool} {i : Idx} {p : ℕ} {ops : List Op} : ∀ {s s' : State}, Inv s → getPtr s i = some p →
    (∀ op ∈ ops, ¬ Removes i op) → run dbg s ops = .ok s' → getPtr s' i = some p := by
  induction ops with
  | nil => intro s s' _ hp _ hr; obtain rfl := Outcome.ok.inj hr; exact hp
  | cons op ops ih =>
    intro s s' h hp hn hr
    obtain ⟨s1, h1, h2⟩ := run_cons hr
    refine ih (step_inv h h1).1 ?_ (fun o ho => hn o (List.mem_cons_of_mem _ ho)) h2
    have hno := hn op List.mem_cons_self
    unfold getPtr at hp ⊢
    rcases step_ptr h1 with (rfl | ⟨j, hj, rfl⟩) | ⟨j, rfl, rfl⟩ | ⟨rfl, rfl⟩ | ⟨e, -⟩
    · exact hp
    · rw [added_lookup, if_neg (by rintro rfl; rw [hj] at hp; cases hp)]
      exact hp
    · rw [remove_lookup, if_neg (fun h => hno h.symm)]
      exact hp
    · exact absurd trivial hno
    · rw [e]; exact hp

example : getPtr exState ⟨9, 0, 0⟩ = some 1 ∧ ∀ op ∈ [Op.allocate ⟨9, 0, 0⟩, .remove ⟨0, 0, 0⟩, .clearDistant ⟨0, 0, 0⟩ 1], ¬ Removes ⟨9, 0, 0⟩ op := by
  refine ⟨by decide +kernel, ?_⟩
  intro op hop
  simp only [List.mem_cons, List.not_mem_nil, or_false] at hop
  rcases hop with rfl | rfl | rfl <;> simp [Removes]

/-- **C111**, removed meshes do not come back: a pointer that no index has is never given to an index again. -/
theorem C111_detached {dbg : Bool} {p : ℕ} {ops : List Op} : ∀ {s s' : State}, Inv s → p < s.heap.length → (∀ i, getPtr s i ≠ some p) →
    run dbg s ops = .ok s' → ∀ i, getPtr s' i ≠ some p := by
  induction ops with
  | nil => intro s s' _ _ hp hr; obtain rfl := Outcome.ok.inj hr; exact hp
  | cons op ops ih =>
    intro s s' h hl hp hr
    obtain ⟨s1, h1, h2⟩ := run_cons hr
    have key : p < s1.heap.length ∧ ∀ i, getPtr s1 i ≠ some p := by
      unfold getPtr at hp ⊢
      rcases step_ptr h1 with (rfl | ⟨j, hj, rfl⟩) | ⟨j, rfl, rfl⟩ | ⟨rfl, rfl⟩ | ⟨e, e2⟩
      · exact ⟨hl, hp⟩
      · refine ⟨by simp [added]; omega, fun i => ?_⟩
        rw [added_lookup]
        split_ifs
        · intro hh; have := Option.some.inj hh; omega
        · exact hp i
      · refine ⟨hl, fun i => ?_⟩
        rw [remove_lookup]
        split_ifs
        · simp
        · exact hp i
      · exact ⟨hl, fun i => by simp [clear]⟩
      · rw [e, e2]; exact ⟨hl, hp⟩
    exact ih (step_inv h h1).1 key.1 key.2 h2

example : 2 < exState.heap.length ∧ ∀ j ∈ exState.map.map (·.1), getPtr exState j ≠ some 2 := by decide +kernel

/-! ### Coordinates -/

theorem blockAt_eq {s : State} (hs : 0 < s.blockSize) {i : Idx} (hi : i.All IsI32) {p : Pt}
    (hx : i.x * s.blockSize ≤ p.x ∧ p.x < (i.x + 1 - 1 / 1000000) * s.blockSize)
    (hy : i.y * s.blockSize ≤ p.y ∧ p.y < (i.y + 1 - 1 / 1000000) * s.blockSize)
    (hz : i.z * s.blockSize ≤ p.z ∧ p.z < (i.z + 1 - 1 / 1000000) * s.blockSize) : blockAt s p = .ok i := by
  have key : ∀ (a : ℤ) (q : ℚ), a * s.blockSize ≤ q ∧ q < (a + 1 - 1 / 1000000) * s.blockSize → ⌊q * (1 / s.blockSize) + kEpsilon⌋ = a := by
    intro a q ⟨h1, h2⟩
    have e : q * (1 / s.blockSize) = q / s.blockSize := by ring
    rw [Int.floor_eq_iff, e]
    have b1 : (a : ℚ) ≤ q / s.blockSize := (le_div_iff₀ hs).2 h1
    have b2 : q / s.blockSize < a + 1 - 1 / 1000000 := (div_lt_iff₀ hs).2 h2
    unfold kEpsilon
    constructor <;> linarith
  unfold blockAt gridIndex32 toIdx32 gridIndex
  have e : (p.map fun c => ⌊c * (1 / s.blockSize) + kEpsilon⌋) = i := by
    simp only [Vec3.map, key _ _ hx, key _ _ hy, key _ _ hz]
  rw [e, if_pos hi]

/-- **C111**, coordinates: access, allocation and removal by a point are those of the block the point lies in (up to 10^-6 block sides below the upper
faces; exact arithmetic). -/
theorem C111_coordinates (dbg : Bool) {s : State} (hs : 0 < s.blockSize) {i : Idx} (hi : i.All IsI32) {p : Pt}
    (hx : i.x * s.blockSize ≤ p.x ∧ p.x < (i.x + 1 - 1 / 1000000) * s.blockSize)
    (hy : i.y * s.blockSize ≤ p.y ∧ p.y < (i.y + 1 - 1 / 1000000) * s.blockSize)
    (hz : i.z * s.blockSize ≤ p.z ∧ p.z < (i.z + 1 - 1 / 1000000) * s.blockSize) :
    getPtrAt s p = .ok (getPtr s i) ∧ allocateAt dbg s p = allocate dbg s i ∧ allocateNewAt dbg s p = allocateNew dbg s i ∧
      removeAt s p = .ok (remove s i) := by
  have h := blockAt_eq hs hi hx hy hz
  unfold getPtrAt allocateAt allocateNewAt removeAt
  rw [h]
  exact ⟨rfl, rfl, rfl, rfl⟩

example : getPtrAt exState ⟨37 / 2, 1, 0⟩ = .ok (some 1) ∧ getPtrAt exState ⟨-1 / 2, 1, 0⟩ = .ok none := by decide +kernel

/-! ### Values -/

/-- **C111**, values: the models of this development that keep the meshes by value (`MeshMap`) describe layers with pointers. -/
theorem C111_values (dbg : Bool) {s : State} (h : Inv s) (hs : 0 < s.blockSize) {cfg : Cfg} (hc : cfg.blockSize = s.blockSize) :
    (∀ i, meshAt s i = (meshValues s).lookup i) ∧
    (∀ i, ∃ s' p, allocate dbg s i = .ok (s', p) ∧ meshValues s' = allocateMesh (meshValues s) i) ∧
    (∀ i p m, getPtr s i = some p → meshValues (write s p m) = setMesh (meshValues s) i m) ∧
    ∀ c d, meshValues (clearDistant s c d) = ServerMesh.clearDistant cfg (meshValues s) c d := by
  have look : ∀ i, meshAt s i = (meshValues s).lookup i := by
    intro i
    have hm : (meshValues s).lookup i = (s.map.lookup i).map fun p => ((s.heap[p]?).map (·.mesh)).getD Mesh.empty := by
      unfold meshValues
      have : ∀ m : List (Idx × ℕ), (m.map fun e => (e.1, ((s.heap[e.2]?).map (·.mesh)).getD Mesh.empty)).lookup i =
          (m.lookup i).map fun p => ((s.heap[p]?).map (·.mesh)).getD Mesh.empty := by
        intro m
        induction m with
        | nil => rfl
        | cons e m ih =>
          rw [List.map_cons, List.lookup_cons, List.lookup_cons, ih]
          split <;> rfl
      exact this _
    rw [hm]
    cases hp : s.map.lookup i with
    | none => rw [h.meshAt_none.2 hp]; rfl
    | some p =>
      obtain ⟨m, h1, b, hb, e⟩ := h.meshAt hp
      rw [h1, Option.map_some, hb, Option.map_some, e]
      rfl
  refine ⟨look, fun i => ?_, fun i p m hp => ?_, fun c d => ?_⟩
  · cases hp : s.map.lookup i with
    | some q =>
      refine ⟨s, q, by unfold allocate; rw [hp], ?_⟩
      obtain ⟨m, hm, -⟩ := h.meshAt hp
      unfold allocateMesh
      rw [← look, hm]
    | none =>
      refine ⟨added s i, s.heap.length, by unfold allocate; rw [hp]; exact allocateNew_free dbg hs hp, ?_⟩
      unfold allocateMesh
      rw [← look, h.meshAt_none.2 hp]
      show ((i, _) :: s.map.map _) = _
      congr 1
      · simp [added]
      · unfold meshValues
        refine List.map_congr_left fun e he => ?_
        have := h.lt (i := e.1) (p := e.2) he
        simp only [added, List.getElem?_append_left this]
  · have hm := h.mem_iff.1 hp
    unfold meshValues setMesh
    rw [List.map_map]
    refine List.map_congr_left fun e he => ?_
    show (e.1, ((write s p m).heap[e.2]?.map (·.mesh)).getD Mesh.empty) = if e.1 = i then (e.1, m) else _
    obtain ⟨b, hb, -⟩ := h.valid e he
    rw [write_heap, hb]
    by_cases hi : e.1 = i
    · have : e.2 = p := by
        have h1 := h.mem_iff.2 (show (e.1, e.2) ∈ s.map from he)
        rw [hi] at h1
        exact Option.some.inj (h1.symm.trans hp)
      rw [if_pos hi]
      simp [this]
    · have : ¬ p = e.2 := by
        intro h2
        exact hi (h.inj (show (e.1, p) ∈ s.map by rw [h2]; exact he) hm)
      rw [if_neg hi]
      simp [this]
  · unfold meshValues ServerMesh.clearDistant
    rw [List.map_map]
    refine List.map_congr_left fun e he => ?_
    obtain ⟨b, hb, ho⟩ := h.valid e he
    show (e.1, ((clearDistant s c d).heap[e.2]?.map (·.mesh)).getD Mesh.empty) = _
    rw [clearDistant_heap h, hb]
    simp only [Option.map_some, Option.getD_some, if_pos (List.mem_map.2 ⟨e, he, rfl⟩ : e.2 ∈ s.map.map (·.2)), Function.comp]
    unfold clearBody ServerMesh.meshOrigin
    rw [hc, ← ho, hb]
    split_ifs <;> rfl

example : Inv exState ∧ (0 : ℚ) < exState.blockSize ∧ (⟨1 / 8, 16⟩ : Cfg).blockSize = exState.blockSize :=
  ⟨exState_inv, by norm_num [exState], by norm_num [Cfg.blockSize, exState]⟩

/-! ### Memory -/

/-- **C111**, memory: if all meshes have a colour per vertex, the size of a layer is that of its two numbers and its meshes. -/
theorem C111_memory_partial {s : State} (h : Inv s) (hc : ∀ i m, meshAt s i = some m → m.colors.length = m.vertices.length) :
    bytes s = .ok (8 + ((meshValues s).map fun e => trueBytes e.2).sum) := by
  have main : ∀ (es : List (Idx × ℕ)) (n : ℕ), (∀ e ∈ es, e ∈ s.map) → es.foldlM (fun n e => do
      let k ← bytesAt s e.2
      pure (n + k)) n = .ok (n + ((es.map fun e => (e.1, ((s.heap[e.2]?).map (·.mesh)).getD Mesh.empty)).map fun e => trueBytes e.2).sum) := by
    intro es
    induction es with
    | nil => intro n _; simp [Outcome.pure_eq]
    | cons e es ih =>
      intro n hes
      have he := hes e List.mem_cons_self
      obtain ⟨m, hm, b, hb, rfl⟩ := h.meshAt (h.mem_iff.2 (show (e.1, e.2) ∈ s.map from he))
      have hk : bytesAt s e.2 = .ok (trueBytes b.mesh) := by
        unfold bytesAt
        rw [hb]
        simp only [bodyBytes, trueBytes, hc _ _ hm, Outcome.ok.injEq]
        ring
      rw [List.foldlM_cons, hk, Outcome.bind_ok]
      show List.foldlM _ (n + trueBytes b.mesh) es = _
      rw [ih _ (fun e' he' => hes e' (List.mem_cons_of_mem _ he'))]
      simp only [List.map_cons, List.sum_cons, hb, Option.map_some, Option.getD_some]
      rw [Nat.add_assoc]
  exact main s.map 8 (fun _ h => h)

example : Inv (new 2) ∧ bytes (write exState 0 { exMesh with colors := [⟨1, 2, 3, 4⟩, ⟨1, 2, 3, 4⟩, ⟨1, 2, 3, 4⟩] }) = .ok 378 ∧
    (∀ i m, meshAt (write (added (new 2) ⟨0, 0, 0⟩) 0 { exMesh with colors := List.replicate 3 ⟨1, 2, 3, 4⟩ }) i = some m → m.colors.length = m.vertices.length) := by
  refine ⟨inv_new 2, by decide +kernel, fun i m hm => ?_⟩
  rw [(C111_write (added_inv (inv_new 2) rfl) _ _ _).2] at hm
  split_ifs at hm with h
  · rw [← Option.some.inj hm]; rfl
  · rw [added_meshAt (inv_new 2)] at hm
    split_ifs at hm
    · rw [← Option.some.inj hm]; rfl
    · cases hm

/-- **C111** fails for the memory of meshes without colours: four bytes are counted for every vertex. -/
theorem C111_memory_violated : ∃ s : State, Inv s ∧ ∃ n, bytes s = .ok n ∧ n = 8 + ((meshValues s).map fun e => trueBytes e.2).sum + 24 :=
  ⟨exState, exState_inv, 378, by decide +kernel, by decide +kernel⟩

end Vox.MeshLayer
