/-
Mesh messages: what the display shows after messages.
-/
import Verif.Spec.MeshMsg
import Verif.Lemmas.Layer
import Verif.Lemmas.GridWrite
import Verif.Lemmas.MeshOps

namespace Vox.MeshMsg

open MC MeshInt Spec Ieee

theorem lookup_setMesh (ml : MeshMap) (i : Idx) (m : Mesh) (j : Idx) :
    (setMesh ml i m).lookup j = if j = i then (ml.lookup j).map fun _ => m else ml.lookup j :=
  Grid.lookup_map_if ml i (fun _ => m) j

theorem keys_setMesh (ml : MeshMap) (i : Idx) (m : Mesh) : (setMesh ml i m).map (·.1) = ml.map (·.1) := by
  unfold setMesh
  rw [List.map_map]
  apply List.map_congr_left
  intro e _
  simp only [Function.comp]
  split <;> rfl

/-- Invariant of the loop over the vertices: index and number of positions. -/
theorem vertexBlock_ok {inv : Fl} {mode : ColorMode} {i : Idx} {m : Mesh} {b b' : MeshBlock} {k : ℕ}
    (h : vertexBlock inv mode i m b k = .ok b') : b'.index = b.index ∧ b'.x.length = b.x.length + 1 := by
  unfold vertexBlock at h
  obtain ⟨v, _, h⟩ := Outcome.bind_eq_ok.1 h
  obtain ⟨p, _, h⟩ := Outcome.bind_eq_ok.1 h
  dsimp only at h
  split at h
  · obtain rfl := Outcome.ok.inj h
    simp
  · obtain ⟨c, _, h⟩ := Outcome.bind_eq_ok.1 h
    obtain ⟨cr, _, h⟩ := Outcome.bind_eq_ok.1 h
    obtain ⟨cg, _, h⟩ := Outcome.bind_eq_ok.1 h
    obtain ⟨cb, _, h⟩ := Outcome.bind_eq_ok.1 h
    obtain rfl := Outcome.ok.inj h
    simp

theorem encodeBlock_ok {inv : Fl} {mode : ColorMode} {i : Idx} {m : Mesh} {b : MeshBlock} (h : encodeBlock inv mode i m = .ok b) :
    b.index = i ∧ b.x.length = m.vertices.length := by
  have gen : ∀ (ks : List ℕ) (b0 b : MeshBlock), ks.foldlM (vertexBlock inv mode i m) b0 = .ok b →
      b.index = b0.index ∧ b.x.length = b0.x.length + ks.length := by
    intro ks
    induction ks with
    | nil =>
      intro b0 b h
      obtain rfl := Outcome.ok.inj h
      simp
    | cons k ks ih =>
      intro b0 b h
      rw [List.foldlM_cons] at h
      obtain ⟨b1, h1, h⟩ := Outcome.bind_eq_ok.1 h
      have e1 := vertexBlock_ok h1
      have e2 := ih b1 b h
      refine ⟨e2.1.trans e1.1, ?_⟩
      rw [e2.2, e1.2, List.length_cons]
      omega
  have := gen _ _ _ h
  simpa using this

theorem encode_empty (inv : Fl) (mode : ColorMode) (i : Idx) {m : Mesh} (h : m.vertices = []) :
    encodeBlock inv mode i m = .ok ⟨i, [], [], [], [], [], []⟩ := by
  unfold encodeBlock
  rw [h]
  rfl

/-- Nothing is drawn for an empty block. -/
theorem drawn_empty (edge : Fl) {b : MeshBlock} (h : b.x = []) : drawn edge b = .ok Mesh.empty := by
  unfold drawn decodeBlock
  rw [h]
  rfl

theorem sendBlock_ok {inv : Fl} {mode : ColorMode} {st st' : List MeshBlock × MeshMap} {i : Idx}
    (h : sendBlock inv mode st i = .ok st') :
    ∃ m b, st.2.lookup i = some m ∧ encodeBlock inv mode i m = .ok b ∧ st'.1 = st.1 ++ [b] ∧
      (st'.2.map (·.1)).Sublist (st.2.map (·.1)) ∧
      ∀ j, st'.2.lookup j = if j = i then (if m.vertices.isEmpty then none else some { m with updated := false }) else st.2.lookup j := by
  unfold sendBlock at h
  split at h
  · cases h
  · next m hm =>
    obtain ⟨b, hb, h⟩ := Outcome.bind_eq_ok.1 h
    obtain rfl := Outcome.ok.inj h
    refine ⟨m, b, hm, hb, rfl, ?_, ?_⟩
    · dsimp only
      split
      · exact List.filter_sublist.map _
      · rw [keys_setMesh]
    · intro j
      dsimp only
      split
      · rw [Layer.lookup_filter_key]
      · rw [lookup_setMesh]
        split
        · next hj => rw [hj, hm]; rfl
        · rfl

theorem receiveBlock_ok {edge : Fl} {d d' : Display} {b : MeshBlock} (h : receiveBlock edge d b = .ok d') :
    ∃ m, drawn edge b = .ok m ∧ ∀ j, visible d' j = if j = b.index then m else visible d j := by
  unfold receiveBlock at h
  obtain ⟨m, hm, h⟩ := Outcome.bind_eq_ok.1 h
  refine ⟨m, hm, fun j => ?_⟩
  split at h
  · next o ho =>
    split at h
    · next he =>
      obtain rfl := Outcome.ok.inj h
      have := drawn_empty edge (List.isEmpty_iff.1 he)
      rw [this] at hm
      obtain rfl := Outcome.ok.inj hm
      unfold visible
      rw [Layer.lookup_filter_key]
      split <;> rfl
    · obtain rfl := Outcome.ok.inj h
      unfold visible
      rw [lookup_setMesh]
      split
      · next hj => rw [hj, ho]; rfl
      · rfl
  · obtain rfl := Outcome.ok.inj h
    unfold visible
    rw [Layer.lookup_cons_ite]
    split <;> rfl

/-- Sending and receiving a list of blocks. -/
theorem exchange {edge inv : Fl} {mode : ColorMode} : ∀ (ks : List Idx) (bs : List MeshBlock) (ml : MeshMap) (st : List MeshBlock × MeshMap),
    ks.Nodup → ks.foldlM (sendBlock inv mode) (bs, ml) = .ok st → ∃ new, st.1 = bs ++ new ∧ (st.2.map (·.1)).Sublist (ml.map (·.1)) ∧
      (∀ j, st.2.lookup j = if j ∈ ks then (ml.lookup j).bind (fun m => if m.vertices.isEmpty then none else some { m with updated := false })
        else ml.lookup j) ∧
      ∀ d d', new.foldlM (receiveBlock edge) d = .ok d' → ∀ j, if j ∈ ks then picture edge inv mode ml j = .ok (visible d' j)
        else visible d' j = visible d j := by
  intro ks
  induction ks with
  | nil =>
    intro bs ml st _ h
    obtain rfl := Outcome.ok.inj h
    refine ⟨[], by simp, List.Sublist.refl _, by simp, ?_⟩
    intro d d' h j
    obtain rfl := Outcome.ok.inj h
    simp
  | cons k ks ih =>
    intro bs ml st hn h
    rw [List.nodup_cons] at hn
    rw [List.foldlM_cons] at h
    obtain ⟨st1, h1, h⟩ := Outcome.bind_eq_ok.1 h
    obtain ⟨m, b, hm, hb, hb1, hs1, hl1⟩ := sendBlock_ok h1
    obtain ⟨new, e1, hs2, hl2, hd2⟩ := ih st1.1 st1.2 st hn.2 h
    dsimp only at hm hb1 hs1 hl1
    have hbi := encodeBlock_ok hb
    refine ⟨b :: new, by rw [e1, hb1]; simp, hs2.trans hs1, ?_, ?_⟩
    · intro j
      rw [hl2]
      by_cases hj : j = k
      · subst hj
        rw [if_neg hn.1, hl1, if_pos rfl, if_pos List.mem_cons_self, hm]
        rfl
      · have e : st1.2.lookup j = ml.lookup j := by rw [hl1, if_neg hj]
        rw [e]
        by_cases hk : j ∈ ks
        · rw [if_pos hk, if_pos (List.mem_cons_of_mem _ hk)]
        · rw [if_neg hk, if_neg (by simp [hj, hk])]
    · intro d d' hr j
      rw [List.foldlM_cons] at hr
      obtain ⟨d1, hr1, hr⟩ := Outcome.bind_eq_ok.1 hr
      obtain ⟨o, ho, hv⟩ := receiveBlock_ok hr1
      have h2 := hd2 d1 d' hr j
      by_cases hj : j = k
      · subst hj
        rw [if_neg hn.1] at h2
        rw [if_pos List.mem_cons_self, h2, hv, hbi.1, if_pos rfl]
        unfold picture
        rw [hm]
        dsimp only
        rw [hb]
        exact ho
      · by_cases hk : j ∈ ks
        · rw [if_pos hk] at h2
          rw [if_pos (List.mem_cons_of_mem _ hk), ← h2]
          unfold picture
          rw [hl1, if_neg hj]
        · rw [if_neg hk] at h2
          rw [if_neg (by simp [hj, hk]), h2, hv, hbi.1, if_neg hj]

theorem mem_updated {ml : MeshMap} (hk : MeshKeys ml) (j : Idx) :
    j ∈ (ml.filter fun e => e.2.updated).map (·.1) ↔ ∃ m, ml.lookup j = some m ∧ m.updated = true := by
  rw [List.mem_map]
  constructor
  · rintro ⟨e, he, rfl⟩
    rw [List.mem_filter] at he
    exact ⟨e.2, (Layer.lookup_mem_iff hk).2 he.1, he.2⟩
  · rintro ⟨m, hm, hu⟩
    exact ⟨(j, m), List.mem_filter.2 ⟨(Layer.lookup_mem_iff hk).1 hm, hu⟩, rfl⟩

theorem picture_congr {edge inv : Fl} {mode : ColorMode} {ml ml' : MeshMap} {i : Idx}
    (h : ml'.lookup i = (ml.lookup i).bind fun m => if m.vertices.isEmpty then none else some { m with updated := false }) :
    picture edge inv mode ml' i = picture edge inv mode ml i := by
  unfold picture
  rw [h]
  cases hm : ml.lookup i with
  | none => rfl
  | some m =>
    simp only [Option.bind_some]
    by_cases he : m.vertices.isEmpty
    · rw [if_pos he]
      dsimp only
      rw [encode_empty inv mode i (List.isEmpty_iff.1 he)]
      exact (drawn_empty edge (b := ⟨i, [], [], [], [], [], []⟩) rfl).symm
    · rw [if_neg he]
      dsimp only
      have : encodeBlock inv mode i { m with updated := false } = encodeBlock inv mode i m := by
        unfold encodeBlock
        dsimp only
        congr 1
      rw [this]

/-- A message brings an up to date display up to date at every block. -/
theorem send_sync {edge inv : Fl} {mode : ColorMode} {ml ml' : MeshMap} {d d' : Display} {msg : Msg} (hk : MeshKeys ml)
    (hu : UpToDate edge inv mode ml d) (hg : generateMsg edge inv mode ml = .ok (msg, ml')) (hr : receive d msg = .ok d') :
    MeshKeys ml' ∧ (∀ i, picture edge inv mode ml i = .ok (visible d' i)) ∧ (∀ i, picture edge inv mode ml' i = .ok (visible d' i)) ∧
      ∀ i m, ml'.lookup i = some m → m.updated = false := by
  unfold generateMsg at hg
  obtain ⟨st, hst, hg⟩ := Outcome.bind_eq_ok.1 hg
  have hg := Outcome.ok.inj hg
  have e1 : msg = ⟨edge, st.1⟩ := (congrArg Prod.fst hg).symm
  have e2 : ml' = st.2 := (congrArg Prod.snd hg).symm
  have hnd : ((ml.filter fun e => e.2.updated).map (·.1)).Nodup := (List.filter_sublist.map _).nodup hk
  obtain ⟨new, hb, hs, hl, hd⟩ := exchange (edge := edge) _ _ _ _ hnd hst
  rw [List.nil_append] at hb
  have hr' : new.foldlM (receiveBlock edge) d = .ok d' := by
    unfold receive at hr
    rw [e1] at hr
    rw [← hb]
    exact hr
  have hd := hd d d' hr'
  subst e2
  have hmem := mem_updated hk
  have p1 : ∀ i, picture edge inv mode ml i = .ok (visible d' i) := by
    intro i
    have h := hd i
    by_cases hi : i ∈ (ml.filter fun e => e.2.updated).map (·.1)
    · rw [if_pos hi] at h
      exact h
    · rw [if_neg hi] at h
      rw [h]
      apply hu
      intro m hm
      by_contra hc
      exact hi ((hmem i).2 ⟨m, hm, by simpa using hc⟩)
  refine ⟨hs.nodup hk, p1, fun i => ?_, fun i m hm => ?_⟩
  · rw [← p1 i]
    have h := hl i
    by_cases hi : i ∈ (ml.filter fun e => e.2.updated).map (·.1)
    · rw [if_pos hi] at h
      exact picture_congr h
    · rw [if_neg hi] at h
      unfold picture
      rw [h]
  · rw [hl i] at hm
    split at hm
    · obtain ⟨m0, -, h0⟩ := Option.bind_eq_some_iff.1 hm
      split at h0
      · cases h0
      · obtain rfl := Option.some.inj h0
        rfl
    · next hi =>
      by_contra hc
      exact hi ((hmem i).2 ⟨m, hm, by simpa using hc⟩)

theorem allocateMesh_lookup (ml : MeshMap) (i j : Idx) :
    (allocateMesh ml i).lookup j = if j = i then some ((ml.lookup i).getD Mesh.empty) else ml.lookup j := by
  unfold allocateMesh
  split
  · next m hm =>
    split
    · next h => rw [h, hm]; rfl
    · rfl
  · next hm =>
    rw [Layer.lookup_cons_ite, hm]
    rfl

theorem allocateMesh_keys {ml : MeshMap} (hk : MeshKeys ml) (i : Idx) : MeshKeys (allocateMesh ml i) := by
  unfold allocateMesh
  split
  · exact hk
  · next hm =>
    unfold MeshKeys
    rw [List.map_cons, List.nodup_cons]
    refine ⟨fun h => ?_, hk⟩
    obtain ⟨e, he, hi⟩ := List.mem_map.1 h
    have := (Layer.lookup_mem_iff hk).2 he
    rw [hi] at this
    simp [hm] at this

theorem allocate_sync {edge inv : Fl} {mode : ColorMode} {ml : MeshMap} {d : Display} (hu : UpToDate edge inv mode ml d) (i : Idx) :
    UpToDate edge inv mode (allocateMesh ml i) d := by
  intro j hj
  have hl := allocateMesh_lookup ml i j
  by_cases h : j = i
  · subst h
    rw [if_pos rfl] at hl
    have e : picture edge inv mode (allocateMesh ml j) j = picture edge inv mode ml j := by
      unfold picture
      rw [hl]
      cases hm : ml.lookup j with
      | none =>
        dsimp only [Option.getD]
        rw [encode_empty inv mode j rfl]
        exact drawn_empty edge (b := ⟨j, [], [], [], [], [], []⟩) rfl
      | some m => rfl
    rw [e]
    apply hu
    intro m hm
    apply hj
    rw [hl, hm]
    rfl
  · rw [if_neg h] at hl
    unfold picture
    rw [hl]
    exact hu j fun m hm => hj m (by rw [hl, hm])

/-- Flagged changes keep the display up to date. -/
theorem flagged_sync {edge inv : Fl} {mode : ColorMode} {ml : MeshMap} {d : Display} (hu : UpToDate edge inv mode ml d) {i : Idx} {m : Mesh}
    (hm : m.updated = true) (hi : (ml.lookup i).isSome) : UpToDate edge inv mode (setMesh ml i m) d := by
  intro j hj
  have hl := lookup_setMesh ml i m j
  by_cases h : j = i
  · subst h
    rw [if_pos rfl] at hl
    obtain ⟨m0, h0⟩ := Option.isSome_iff_exists.1 hi
    rw [h0] at hl
    have := hj m hl
    rw [hm] at this
    cases this
  · rw [if_neg h] at hl
    unfold picture
    rw [hl]
    exact hu j fun m hm => hj m (by rw [hl, hm])

theorem event_sync {edge inv : Fl} {mode : ColorMode} {st st' : MeshMap × Display} (e : MeshEvent) (hk : MeshKeys st.1)
    (hu : UpToDate edge inv mode st.1 st.2) (h : meshEvent edge inv mode st e = .ok st') :
    MeshKeys st'.1 ∧ UpToDate edge inv mode st'.1 st'.2 := by
  cases e with
  | store i m =>
    obtain rfl := Outcome.ok.inj h
    refine ⟨?_, ?_⟩
    · unfold MeshKeys
      rw [keys_setMesh]
      exact allocateMesh_keys hk i
    · exact flagged_sync (allocate_sync hu i) rfl (by rw [allocateMesh_lookup, if_pos rfl]; rfl)
  | clear i =>
    obtain rfl := Outcome.ok.inj h
    dsimp only
    split
    · exact ⟨hk, hu⟩
    · next m hm =>
      refine ⟨?_, flagged_sync hu rfl (by rw [hm]; rfl)⟩
      unfold MeshKeys
      rw [keys_setMesh]
      exact hk
  | allocate i =>
    obtain rfl := Outcome.ok.inj h
    exact ⟨allocateMesh_keys hk i, allocate_sync hu i⟩
  | send =>
    obtain ⟨r, hr, h⟩ := Outcome.bind_eq_ok.1 h
    obtain ⟨d, hd, h⟩ := Outcome.bind_eq_ok.1 h
    obtain rfl := Outcome.ok.inj h
    have := send_sync hk hu (msg := r.1) (ml' := r.2) hr hd
    exact ⟨this.1, fun i _ => this.2.2.1 i⟩

theorem events_sync {edge inv : Fl} {mode : ColorMode} : ∀ (es : List MeshEvent) (st st' : MeshMap × Display), MeshKeys st.1 →
    UpToDate edge inv mode st.1 st.2 → es.foldlM (meshEvent edge inv mode) st = .ok st' →
    MeshKeys st'.1 ∧ UpToDate edge inv mode st'.1 st'.2 := by
  intro es
  induction es with
  | nil =>
    intro st st' hk hu h
    obtain rfl := Outcome.ok.inj h
    exact ⟨hk, hu⟩
  | cons e es ih =>
    intro st st' hk hu h
    rw [List.foldlM_cons] at h
    obtain ⟨s1, h1, h⟩ := Outcome.bind_eq_ok.1 h
    have := event_sync e hk hu h1
    exact ih s1 st' this.1 this.2 h

theorem start_sync (edge inv : Fl) (mode : ColorMode) : UpToDate edge inv mode [] [] := fun _ _ => rfl

end Vox.MeshMsg
