/-
Connecting meshes: invariant of the vertex loop, effect of the triangle loop.
-/
import Verif.Lemmas.MeshOps

namespace Vox.MeshOps

open MC Spec

/-! ### First occurrences -/

theorem firstSeen_snoc {α : Type} [DecidableEq α] (l : List α) (a : α) :
    firstSeen (l ++ [a]) = if a ∈ firstSeen l then firstSeen l else firstSeen l ++ [a] := by
  unfold firstSeen
  rw [List.foldl_append]
  rfl

theorem mem_firstSeen {α : Type} [DecidableEq α] (l : List α) (a : α) : a ∈ firstSeen l ↔ a ∈ l := by
  induction l using List.reverseRecOn with
  | nil => simp [firstSeen]
  | append_singleton l b ih =>
    rw [firstSeen_snoc]
    split_ifs with h
    · rw [ih, List.mem_append, List.mem_singleton]
      constructor
      · exact Or.inl
      · rintro (h' | rfl)
        · exact h'
        · exact ih.1 h
    · rw [List.mem_append, List.mem_append, ih]

theorem firstSeen_nodup {α : Type} [DecidableEq α] (l : List α) : (firstSeen l).Nodup := by
  induction l using List.reverseRecOn with
  | nil => simp [firstSeen]
  | append_singleton l b ih =>
    rw [firstSeen_snoc]
    split_ifs with h
    · exact ih
    · rw [List.nodup_append]
      refine ⟨ih, by simp, ?_⟩
      rintro x hx _ hy rfl
      simp only [List.mem_singleton] at hy
      subst hy
      exact h hx

/-! ### The invariant -/

/-- The state after the vertices with cells `ks` (in order): `V0` are the vertices handed in before. -/
structure Inv (K : Vec3 Fl → Idx) (colored : Bool) (src : List (Vec3 Fl)) (ks : List Idx) (st : ConnSt) : Prop where
  next : st.next = st.mesh.vertices.length
  cells : st.mesh.vertices.map K = firstSeen ks
  look : ∀ key j, st.uniques.lookup key = some j ↔ (firstSeen ks)[j]? = some key
  normals : st.mesh.normals.length = st.mesh.vertices.length
  colors : st.mesh.colors.length = if colored then st.mesh.vertices.length else 0
  source : ∀ v ∈ st.mesh.vertices, v ∈ src

theorem copied_ok {α : Type} {src : List α} {k n : ℕ} (h : src.length = n) (hk : k < n) :
    ∃ a, copied src k = .ok [a] := by
  subst h
  cases src with
  | nil => simp at hk
  | cons a r =>
    refine ⟨(a :: r)[k], ?_⟩
    unfold copied
    simp only [List.getElem?_eq_getElem hk]

theorem copied_flag {α : Type} {f : Bool} {src : List α} {k n : ℕ} (h : src.length = if f then n else 0) (hk : k < n) :
    ∃ x, copied src k = .ok x ∧ x.length = if f then 1 else 0 := by
  cases f with
  | true =>
    obtain ⟨a, ha⟩ := copied_ok (by simpa using h) hk
    exact ⟨[a], ha, rfl⟩
  | false =>
    have : src = [] := by simpa using h
    subst this
    exact ⟨[], rfl, rfl⟩

theorem getElem?_iff_of_nodup {α : Type} {l : List α} (hn : l.Nodup) {i j : ℕ} {a : α} (h : l[i]? = some a) :
    l[j]? = some a ↔ j = i := by
  constructor
  · intro h'
    obtain ⟨hi, rfl⟩ := List.getElem?_eq_some_iff.1 h
    obtain ⟨hj, e⟩ := List.getElem?_eq_some_iff.1 h'
    exact (List.Nodup.getElem_inj_iff hn).1 e
  · rintro rfl; exact h

/-- One vertex. -/
theorem vertexStep_ok {D F : Arith} {inv : Fl} {K : Vec3 Fl → Idx} {colored : Bool} {src : List (Vec3 Fl)} {ks : List Idx}
    {st : ConnSt} (h : Inv K colored src ks st) {m : Mesh} (hK : ∀ v ∈ m.vertices, vertexKey D inv v = .ok (K v))
    (hn : m.normals.length = m.vertices.length) (hc : m.colors.length = if colored then m.vertices.length else 0)
    (hsrc : ∀ v ∈ m.vertices, v ∈ src) {k : ℕ} (hk : k < m.vertices.length) :
    ∃ r, vertexStep D F inv m st k = .ok r ∧ Inv K colored src (ks ++ [K m.vertices[k]]) r.1 ∧
      (r.1.mesh.vertices.map K)[r.2]? = some (K m.vertices[k]) ∧ r.1.mesh.indices = st.mesh.indices ∧
      r.1.mesh.updated = st.mesh.updated ∧ st.mesh.vertices <+: r.1.mesh.vertices := by
  have hkey := hK _ (List.getElem_mem hk)
  set v := m.vertices[k] with hv
  unfold vertexStep
  rw [at_ok hk, Outcome.bind_ok, ← hv, hkey, Outcome.bind_ok]
  cases hl : st.uniques.lookup (K v) with
  | none =>
    have hnm : K v ∉ firstSeen ks := by
      intro hm
      obtain ⟨j, hj⟩ := List.getElem?_of_mem hm
      rw [(h.look _ _).2 hj] at hl
      cases hl
    obtain ⟨c, ec, lc⟩ := copied_flag hc hk
    obtain ⟨n, en⟩ := copied_ok hn hk
    have hcells : (st.mesh.vertices ++ [v]).map K = firstSeen (ks ++ [K v]) := by
      rw [firstSeen_snoc, if_neg hnm, List.map_append, h.cells]; rfl
    simp only [newVertex, ec, en, Outcome.bind_ok, Outcome.pure_eq, Outcome.check, List.length_append, List.length_cons,
      List.length_nil, h.next, decide_true, if_true]
    refine ⟨_, rfl, ⟨by simp, hcells, ?_, by simp [h.normals], ?_, ?_⟩, ?_, rfl, rfl, List.prefix_append _ _⟩
    · intro key j
      have hlen : (firstSeen ks).length = st.mesh.vertices.length := by rw [← h.cells]; simp
      simp only [List.lookup_cons, firstSeen_snoc, if_neg hnm]
      by_cases hkk : key = K v
      · subst hkk
        simp only [beq_self_eq_true, Option.some.injEq]
        rw [← hlen]
        constructor
        · rintro rfl; simp
        · intro hj
          by_contra hne
          rcases lt_or_gt_of_ne hne with hgt | hlt
          · rw [List.getElem?_eq_none (by simp; omega)] at hj; cases hj
          · rw [List.getElem?_append_left hlt] at hj
            exact hnm (List.mem_of_getElem? hj)
      · have : (key == K v) = false := by simpa using hkk
        simp only [this]
        rw [h.look]
        rcases Nat.lt_or_ge j (firstSeen ks).length with hj | hj
        · rw [List.getElem?_append_left hj]
        · rw [List.getElem?_append_right hj, List.getElem?_eq_none hj]
          constructor
          · intro h'; cases h'
          · intro h'
            cases hd : j - (firstSeen ks).length with
            | zero => rw [hd] at h'; simp at h'; exact absurd h'.symm hkk
            | succ d => rw [hd] at h'; simp at h'
    · simp only [List.length_append, h.colors, lc, List.length_cons, List.length_nil]
      split_ifs <;> omega
    · intro w hw
      rcases List.mem_append.1 hw with hw | hw
      · exact h.source w hw
      · simp only [List.mem_singleton] at hw
        subst hw
        exact hsrc _ (List.getElem_mem hk)
    · simp
  | some j =>
    have hj := (h.look _ _).1 hl
    have hjl : j < st.mesh.vertices.length := by
      have := (List.getElem?_eq_some_iff.1 hj).1
      rw [← h.cells, List.length_map] at this
      exact this
    have hmem : K v ∈ firstSeen ks := List.mem_of_getElem? hj
    have hfs : firstSeen (ks ++ [K v]) = firstSeen ks := by rw [firstSeen_snoc, if_pos hmem]
    simp only [mergedVertex, at_ok (show j < st.mesh.normals.length by rw [h.normals]; exact hjl),
      at_ok (show k < m.normals.length by omega), Outcome.bind_ok, Outcome.pure_eq, Outcome.check, h.next, decide_true, if_true]
    refine ⟨_, rfl, ⟨rfl, by rw [hfs]; exact h.cells, ?_, by simp [h.normals], h.colors, h.source⟩, ?_, rfl, rfl,
      List.prefix_refl _⟩
    · rw [hfs]; exact h.look
    · simp only; rw [h.cells]; exact hj

/-- All vertices of a mesh. -/
theorem vertexLoop_ok {D F : Arith} {inv : Fl} {K : Vec3 Fl → Idx} {colored : Bool} {src : List (Vec3 Fl)} {m : Mesh}
    (hK : ∀ v ∈ m.vertices, vertexKey D inv v = .ok (K v)) (hn : m.normals.length = m.vertices.length)
    (hc : m.colors.length = if colored then m.vertices.length else 0) (hsrc : ∀ v ∈ m.vertices, v ∈ src) :
    ∀ (n k : ℕ) (ks : List Idx) (st : ConnSt) (map : List ℕ), k + n = m.vertices.length → map.length = k →
      Inv K colored src ks st →
      (∀ (a j : ℕ), map[a]? = some j → (st.mesh.vertices.map K)[j]? = (m.vertices[a]?).map K) →
      ∃ r, vertexLoop D F inv m (List.range' k n) (st, map) = .ok r ∧
        Inv K colored src (ks ++ (m.vertices.drop k).map K) r.1 ∧ r.1.mesh.indices = st.mesh.indices ∧
        r.1.mesh.updated = st.mesh.updated ∧ st.mesh.vertices <+: r.1.mesh.vertices ∧
        r.2.length = m.vertices.length ∧
        ∀ (a j : ℕ), r.2[a]? = some j → (r.1.mesh.vertices.map K)[j]? = (m.vertices[a]?).map K := by
  intro n
  induction n with
  | zero =>
    intro k ks st map hkn hml hinv hmap
    refine ⟨(st, map), rfl, ?_, rfl, rfl, List.prefix_refl _, by simp only; omega, hmap⟩
    rw [List.drop_of_length_le (by omega)]
    simpa using hinv
  | succ n ih =>
    intro k ks st map hkn hml hinv hmap
    have hk : k < m.vertices.length := by omega
    obtain ⟨r, e1, e2, e3, e4, e5, e6⟩ := vertexStep_ok (D := D) (F := F) (inv := inv) hinv hK hn hc hsrc hk
    rw [List.range'_succ]
    unfold vertexLoop
    rw [e1, Outcome.bind_ok]
    obtain ⟨r', f1, f2, f3, f4, f5, f6, f7⟩ := ih (k + 1) _ r.1 (map ++ [r.2]) (by omega) (by simp [hml]) e2 (by
      intro a j haj
      rcases Nat.lt_or_ge a k with ha | ha
      · rw [List.getElem?_append_left (by omega)] at haj
        have h' := hmap a j haj
        obtain ⟨t, ht⟩ := e6
        rw [← ht, List.map_append]
        have hlt : j < (st.mesh.vertices.map K).length := by
          by_contra hge
          rw [List.getElem?_eq_none (by omega), List.getElem?_eq_getElem (show a < m.vertices.length by omega)] at h'
          cases h'
        rw [List.getElem?_append_left hlt]
        exact h'
      · rw [List.getElem?_append_right (by omega)] at haj
        cases hd : a - map.length with
        | zero =>
          rw [hd] at haj
          simp only [List.getElem?_cons_zero, Option.some.injEq] at haj
          have : a = k := by omega
          subst this haj
          rw [e3, List.getElem?_eq_getElem hk]
          rfl
        | succ d => rw [hd] at haj; simp at haj)
    refine ⟨r', f1, ?_, f3.trans e4, f4.trans e5, e6.trans f5, f6, f7⟩
    rw [List.drop_eq_getElem_cons hk, List.map_cons]
    rw [List.append_assoc] at f2
    exact f2

/-! ### Triangles -/

theorem triples_append {α : Type} (l r : List α) (h : l.length % 3 = 0) : triples (l ++ r) = triples l ++ triples r := by
  induction l using triples.induct with
  | case1 a b c l ih =>
    simp only [List.cons_append, triples]
    rw [ih (by simp only [List.length_cons] at h; omega)]
  | case2 l hl =>
    match l, hl, h with
    | [], _, _ => simp [triples]
    | [_], _, h => simp at h
    | [_, _], _, h => simp at h
    | a :: b :: c :: r, hl, _ => exact absurd rfl (hl a b c r)

theorem triples_map {α β : Type} (f : α → β) (l : List α) :
    triples (l.map f) = (triples l).map fun t => (f t.1, f t.2.1, f t.2.2) := by
  induction l using triples.induct with
  | case1 a b c l ih => simp only [List.map_cons, triples, ih]
  | case2 l hl =>
    match l, hl with
    | [], _ => rfl
    | [_], _ => rfl
    | [_, _], _ => rfl
    | a :: b :: c :: r, hl => exact absurd rfl (hl a b c r)

theorem fold_triples {α β : Type} (f : β → α → α → α → Outcome β) :
    ∀ (l : List α) (q : ℕ) (g : β → ℕ → Outcome β) (s : β), l.length = 3 * q →
      (∀ t s a b c, l[3 * t]? = some a → l[3 * t + 1]? = some b → l[3 * t + 2]? = some c → g s t = f s a b c) →
      (List.range q).foldlM g s = (triples l).foldlM (fun s t => f s t.1 t.2.1 t.2.2) s := by
  intro l
  induction l using triples.induct with
  | case1 a b c l ih =>
    intro q g s hl hg
    obtain ⟨q, rfl⟩ : ∃ q', q = q' + 1 := ⟨q - 1, by simp only [List.length_cons] at hl; omega⟩
    rw [List.range_succ_eq_map]
    simp only [List.foldlM_cons, triples]
    rw [hg 0 s a b c rfl rfl rfl]
    congr 1
    funext s'
    rw [List.foldlM_map]
    refine ih q (fun s t => g s (t + 1)) s' (by simp only [List.length_cons] at hl; omega) ?_
    intro t s a' b' c' h1 h2 h3
    exact hg (t + 1) s a' b' c' h1 h2 h3
  | case2 l hl =>
    intro q g s hlen _
    match l, hl, hlen with
    | [], _, hlen =>
      have : q = 0 := by simp at hlen; omega
      subst this
      rfl
    | [_], _, h => simp at h; omega
    | [_, _], _, h => simp at h; omega
    | a :: b :: c :: r, hl, _ => exact absurd rfl (hl a b c r)

/-- What is appended for one triangle of new indices. -/
def keepTri (t : ℕ × ℕ × ℕ) : List ℕ := if Distinct3 t then [t.1, t.2.1, t.2.2] else []

theorem remap_ok {map : List ℕ} {i : ℕ} (h : i < map.length) : remap map i = .ok map[i] := by
  unfold remap
  rw [List.getElem?_eq_getElem h]

theorem triangleLoop_ok {m : Mesh} {map : List ℕ} {next : ℕ} (h3 : m.indices.length % 3 = 0)
    (hi : ∀ i ∈ m.indices, i < map.length) (hm : ∀ j ∈ map, j < next) (idx : List ℕ) :
    (List.range ((m.indices.length + 2) / 3)).foldlM (triangleStep m map next) idx =
      .ok (idx ++ (triples (m.indices.map fun i => (map[i]?).getD 0)).flatMap keepTri) := by
  have hq : (m.indices.length + 2) / 3 = m.indices.length / 3 := by omega
  rw [hq]
  have key : (List.range (m.indices.length / 3)).foldlM (triangleStep m map next) idx =
      (triples m.indices).foldlM (fun s t => (fun (s : List ℕ) (a b c : ℕ) =>
        if a ∈ m.indices ∧ b ∈ m.indices ∧ c ∈ m.indices then
          Outcome.ok (s ++ keepTri ((map[a]?).getD 0, (map[b]?).getD 0, (map[c]?).getD 0)) else .ub) s t.1 t.2.1 t.2.2) idx := by
    refine fold_triples (fun (s : List ℕ) (a b c : ℕ) => if a ∈ m.indices ∧ b ∈ m.indices ∧ c ∈ m.indices then
          Outcome.ok (s ++ keepTri ((map[a]?).getD 0, (map[b]?).getD 0, (map[c]?).getD 0)) else .ub)
      m.indices (m.indices.length / 3) _ _ (by omega) ?_
    intro t s a b c h1 h2 h3
    have l3 := (List.getElem?_eq_some_iff.1 h3).1
    have ma := List.mem_of_getElem? h1
    have mb := List.mem_of_getElem? h2
    have mc := List.mem_of_getElem? h3
    have la := hi a ma
    have lb := hi b mb
    have lc := hi c mc
    rw [if_pos ⟨ma, mb, mc⟩]
    unfold triangleStep at_
    simp only [h1, h2, h3, Outcome.check, l3, decide_true, if_true, Outcome.bind_ok, remap_ok la, remap_ok lb, remap_ok lc,
      hm _ (List.getElem_mem la), hm _ (List.getElem_mem lb), hm _ (List.getElem_mem lc), and_self]
    rw [List.getElem?_eq_getElem la, List.getElem?_eq_getElem lb, List.getElem?_eq_getElem lc]
    simp only [Option.getD_some, keepTri, Distinct3]
    by_cases e1 : map[a] = map[b] <;> by_cases e2 : map[b] = map[c] <;> by_cases e3 : map[a] = map[c] <;> simp [e1, e2, e3]
  rw [key]
  clear key
  have mem : ∀ t ∈ triples m.indices, t.1 ∈ m.indices ∧ t.2.1 ∈ m.indices ∧ t.2.2 ∈ m.indices := by
    generalize m.indices = l
    induction l using triples.induct with
    | case1 a b c l ih =>
      intro t ht
      simp only [triples, List.mem_cons] at ht
      rcases ht with rfl | ht
      · simp
      · obtain ⟨h1, h2, h3⟩ := ih t ht
        simp [h1, h2, h3]
    | case2 l hl =>
      match l, hl with
      | [], _ => simp [triples]
      | [_], _ => simp [triples]
      | [_, _], _ => simp [triples]
      | a :: b :: c :: r, hl => exact absurd rfl (hl a b c r)
  rw [triples_map]
  generalize triples m.indices = ts at mem
  induction ts generalizing idx with
  | nil => simp
  | cons t ts ih =>
    simp only [List.foldlM_cons, List.map_cons, List.flatMap_cons]
    rw [if_pos (mem t List.mem_cons_self), Outcome.bind_ok, ih _ fun t' h' => mem t' (List.mem_cons_of_mem _ h'),
      List.append_assoc]

/-! ### One mesh, all meshes -/

/-- What is required of the meshes to connect. -/
structure Connectable (D : Arith) (inv : Fl) (K : Vec3 Fl → Idx) (colored : Bool) (m : Mesh) : Prop where
  cell : ∀ v ∈ m.vertices, vertexKey D inv v = .ok (K v)
  count : m.vertices.length = m.indices.length
  three : m.vertices.length % 3 = 0
  valid : ∀ i ∈ m.indices, i < m.vertices.length
  normals : m.normals.length = m.vertices.length
  colors : m.colors.length = if colored then m.vertices.length else 0

theorem triples_keep (V : List (Option Idx)) (hV : ∀ i j : ℕ, i < V.length → j < V.length → V[i]? = V[j]? → i = j)
    (ts : List (ℕ × ℕ × ℕ)) (hts : ∀ t ∈ ts, t.1 < V.length ∧ t.2.1 < V.length ∧ t.2.2 < V.length) :
    triples ((ts.flatMap keepTri).map fun i => (V[i]?).getD none) =
      (ts.map fun t => ((V[t.1]?).getD none, (V[t.2.1]?).getD none, (V[t.2.2]?).getD none)).filter fun t => decide (Distinct3 t) := by
  induction ts with
  | nil => rfl
  | cons t ts ih =>
    obtain ⟨l1, l2, l3⟩ := hts t List.mem_cons_self
    have ih' := ih fun t' h' => hts t' (List.mem_cons_of_mem _ h')
    have key : ∀ {i j : ℕ}, i < V.length → j < V.length → ((V[i]?).getD none = (V[j]?).getD none ↔ i = j) := by
      intro i j hi hj
      constructor
      · intro h
        refine hV i j hi hj ?_
        rw [List.getElem?_eq_getElem hi, List.getElem?_eq_getElem hj] at h ⊢
        simpa using h
      · rintro rfl; rfl
    have hd : Distinct3 ((V[t.1]?).getD none, (V[t.2.1]?).getD none, (V[t.2.2]?).getD none) ↔ Distinct3 t := by
      unfold Distinct3
      simp only [ne_eq, key l1 l2, key l2 l3, key l1 l3]
    simp only [List.flatMap_cons, List.map_cons, List.filter_cons, List.map_append]
    by_cases hdt : Distinct3 t
    · rw [triples_append _ _ (by simp [keepTri, hdt]), ih']
      simp only [hd, hdt, decide_true, if_true, keepTri, List.map_cons, List.map_nil, triples, List.cons_append, List.nil_append]
    · simp only [hd, hdt, decide_false, keepTri, if_false, List.map_nil, List.nil_append, Bool.false_eq_true]
      exact ih'

/-- The invariant with triangles: `tris` are the cell triangles so far. -/
structure InvT (K : Vec3 Fl → Idx) (colored : Bool) (src : List (Vec3 Fl)) (ks : List Idx)
    (tris : List (Option Idx × Option Idx × Option Idx)) (st : ConnSt) : Prop extends Inv K colored src ks st where
  three : st.mesh.indices.length % 3 = 0
  valid : ∀ i ∈ st.mesh.indices, i < st.mesh.vertices.length
  tri : cellTriangles K st.mesh = tris.filter fun t => decide (Distinct3 t)

theorem keepTri_length (ts : List (ℕ × ℕ × ℕ)) : (ts.flatMap keepTri).length % 3 = 0 := by
  induction ts with
  | nil => rfl
  | cons t ts ih =>
    simp only [List.flatMap_cons, List.length_append]
    have : (keepTri t).length % 3 = 0 := by unfold keepTri; split_ifs <;> simp
    omega

theorem mem_triples {α : Type} (l : List α) : ∀ t ∈ triples l, t.1 ∈ l ∧ t.2.1 ∈ l ∧ t.2.2 ∈ l := by
  induction l using triples.induct with
  | case1 a b c l ih =>
    intro t ht
    simp only [triples, List.mem_cons] at ht
    rcases ht with rfl | ht
    · simp
    · obtain ⟨h1, h2, h3⟩ := ih t ht
      simp [h1, h2, h3]
  | case2 l hl =>
    match l, hl with
    | [], _ => simp [triples]
    | [_], _ => simp [triples]
    | [_, _], _ => simp [triples]
    | a :: b :: c :: r, hl => exact absurd rfl (hl a b c r)

theorem connectOne_ok {D F : Arith} {inv : Fl} {K : Vec3 Fl → Idx} {colored : Bool} {src : List (Vec3 Fl)} {ks : List Idx}
    {tris : List (Option Idx × Option Idx × Option Idx)} {st : ConnSt} (h : InvT K colored src ks tris st) {m : Mesh}
    (hm : Connectable D inv K colored m) (hsrc : ∀ v ∈ m.vertices, v ∈ src) :
    ∃ st', connectOne D F inv st m = .ok st' ∧
      InvT K colored src (ks ++ m.vertices.map K) (tris ++ cellTriangles K m) st' ∧ st'.mesh.updated = st.mesh.updated := by
  unfold connectOne
  by_cases hv : m.vertices = []
  · have hi : m.indices = [] := by
      have := hm.count
      rw [hv] at this
      simpa using this.symm
    refine ⟨st, by simp [hv], ?_, rfl⟩
    have : cellTriangles K m = [] := by unfold cellTriangles; rw [hi]; rfl
    rw [hv, this]
    simpa using h
  · have hne : m.vertices.isEmpty = false := by simpa using hv
    obtain ⟨r, e1, e2, e3, e4, e5, e6, e7⟩ := vertexLoop_ok (D := D) (F := F) (inv := inv) hm.cell hm.normals hm.colors hsrc
      m.vertices.length 0 ks st [] (by omega) rfl h.toInv (by simp)
    rw [← List.range_eq_range'] at e1
    have e2' : Inv K colored src (ks ++ m.vertices.map K) r.1 := by simpa using e2
    have hjlt : ∀ (a j : ℕ), r.2[a]? = some j → j < r.1.mesh.vertices.length := by
      intro a j haj
      have h7 := e7 a j haj
      have hal : a < m.vertices.length := by rw [← e6]; exact (List.getElem?_eq_some_iff.1 haj).1
      by_contra hge
      rw [List.getElem?_eq_none (by rw [List.length_map]; omega), List.getElem?_eq_getElem hal] at h7
      cases h7
    have hlt : ∀ j ∈ r.2, j < r.1.next := by
      intro j hj
      obtain ⟨a, ha⟩ := List.getElem?_of_mem hj
      rw [e2'.next]
      exact hjlt a j ha
    have hidx : ∀ i ∈ m.indices, i < r.2.length := by intro i hi; rw [e6]; exact hm.valid i hi
    have htl := triangleLoop_ok (m := m) (by rw [← hm.count]; exact hm.three) hidx hlt r.1.mesh.indices
    have hcnt : decide (m.vertices.length = m.indices.length) = true := by simpa using hm.count
    simp only [hne, Bool.false_eq_true, if_false, Outcome.check, hcnt, hm.three, decide_true, if_true, Outcome.bind_ok, e1]
    rw [htl]
    refine ⟨_, rfl, ?_, e4⟩
    set new := triples (m.indices.map fun i => (r.2[i]?).getD 0) with hnew
    have hnewlt : ∀ t ∈ new, t.1 < r.1.mesh.vertices.length ∧ t.2.1 < r.1.mesh.vertices.length ∧ t.2.2 < r.1.mesh.vertices.length := by
      intro t ht
      have mm : ∀ j ∈ m.indices.map fun i => (r.2[i]?).getD 0, j < r.1.mesh.vertices.length := by
        intro j hj
        obtain ⟨i, hi, rfl⟩ := List.mem_map.1 hj
        have hil := hidx i hi
        rw [List.getElem?_eq_getElem hil]
        exact hjlt i _ (List.getElem?_eq_getElem hil)
      obtain ⟨h1, h2, h3⟩ := mem_triples _ t ht
      exact ⟨mm _ h1, mm _ h2, mm _ h3⟩
    refine ⟨⟨e2'.next, e2'.cells, e2'.look, by simp [e2'.normals], e2'.colors, e2'.source⟩, ?_, ?_, ?_⟩
    · simp only [List.length_append, e3]
      have := keepTri_length new
      have := h.three
      omega
    · intro i hi
      rcases List.mem_append.1 hi with hi | hi
      · rw [e3] at hi
        have := h.valid i hi
        have := e5.length_le
        simp only
        omega
      · obtain ⟨t, ht, hit⟩ := List.mem_flatMap.1 hi
        obtain ⟨h1, h2, h3⟩ := hnewlt t ht
        unfold keepTri at hit
        split_ifs at hit
        · simp only [List.mem_cons, List.not_mem_nil, or_false] at hit
          rcases hit with rfl | rfl | rfl <;> assumption
        · simp at hit
    · unfold cellTriangles
      simp only [e3, List.map_append]
      rw [triples_append _ _ (by simpa using h.three), List.filter_append]
      congr 1
      · rw [← h.tri]
        unfold cellTriangles
        congr 1
        refine List.map_congr_left fun i hi => ?_
        have hl := h.valid i hi
        obtain ⟨t, ht⟩ := e5
        rw [← ht, List.getElem?_append_left hl]
      · have hV : ∀ i j : ℕ, i < (r.1.mesh.vertices.map fun v => some (K v)).length →
            j < (r.1.mesh.vertices.map fun v => some (K v)).length →
            (r.1.mesh.vertices.map fun v => some (K v))[i]? = (r.1.mesh.vertices.map fun v => some (K v))[j]? → i = j := by
          intro i j hi hj hij
          have hnd : (r.1.mesh.vertices.map K).Nodup := by rw [e2'.cells]; exact firstSeen_nodup _
          simp only [List.length_map] at hi hj
          simp only [List.getElem?_map, List.getElem?_eq_getElem hi, List.getElem?_eq_getElem hj, Option.map_some,
            Option.some.injEq] at hij
          have h1 : (r.1.mesh.vertices.map K)[i]? = some (K r.1.mesh.vertices[i]) := by simp [hi]
          have h2 : (r.1.mesh.vertices.map K)[j]? = some (K r.1.mesh.vertices[i]) := by simp [hj, hij]
          exact ((getElem?_iff_of_nodup hnd h1).1 h2).symm
        have tk := triples_keep (r.1.mesh.vertices.map fun v => some (K v)) hV new (by simpa using hnewlt)
        have f1 : ∀ i : ℕ, ((r.1.mesh.vertices.map fun v => some (K v))[i]?).getD none = (r.1.mesh.vertices[i]?).map K := by
          intro i
          rw [List.getElem?_map]
          cases r.1.mesh.vertices[i]? <;> rfl
        simp only [f1] at tk
        rw [tk]
        congr 1
        rw [hnew, triples_map, List.map_map, triples_map]
        refine List.map_congr_left fun t ht => ?_
        obtain ⟨h1, h2, h3⟩ := mem_triples _ t ht
        have f2 : ∀ i ∈ m.indices, (r.1.mesh.vertices[(r.2[i]?).getD 0]?).map K = (m.vertices[i]?).map K := by
          intro i hi
          have hil := hidx i hi
          have := e7 i r.2[i] (List.getElem?_eq_getElem hil)
          rw [List.getElem?_eq_getElem hil, Option.getD_some, ← List.getElem?_map]
          exact this
        simp only [Function.comp_apply, f2 _ h1, f2 _ h2, f2 _ h3]

theorem connectAll_ok {D F : Arith} {inv : Fl} {K : Vec3 Fl → Idx} {colored : Bool} {src : List (Vec3 Fl)} (ms : List Mesh)
    (hm : ∀ m ∈ ms, Connectable D inv K colored m) (hsrc : ∀ m ∈ ms, ∀ v ∈ m.vertices, v ∈ src) :
    ∀ (ks : List Idx) (tris : List (Option Idx × Option Idx × Option Idx)) (st : ConnSt), InvT K colored src ks tris st →
    ∃ st', ms.foldlM (connectOne D F inv) st = .ok st' ∧
      InvT K colored src (ks ++ ms.flatMap fun m => m.vertices.map K) (tris ++ ms.flatMap (cellTriangles K)) st' ∧
      st'.mesh.updated = st.mesh.updated := by
  induction ms with
  | nil => intro ks tris st h; exact ⟨st, rfl, by simpa using h, rfl⟩
  | cons m ms ih =>
    intro ks tris st h
    obtain ⟨s1, e1, e2, e3⟩ := connectOne_ok (F := F) h (hm m List.mem_cons_self) (hsrc m List.mem_cons_self)
    obtain ⟨s2, f1, f2, f3⟩ := ih (fun m' h' => hm m' (List.mem_cons_of_mem _ h'))
      (fun m' h' => hsrc m' (List.mem_cons_of_mem _ h')) _ _ s1 e2
    refine ⟨s2, ?_, ?_, f3.trans e3⟩
    · rw [List.foldlM_cons, e1, Outcome.bind_ok]; exact f1
    · simpa [List.append_assoc] using f2

end Vox.MeshOps
