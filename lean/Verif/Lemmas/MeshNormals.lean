/-
Connecting meshes: what each vertex of the connected mesh carries (position, colour, normal).
-/
import Verif.Lemmas.MeshConnect

namespace Vox.MeshOps

open MC Spec

/-- The data of cells: position, normal, colour. -/
structure CellData where
  pos : Idx → Option (Vec3 Fl)
  normal : Idx → Option (Vec3 Fl)
  color : Idx → Option Color

/-- The state holds the data. -/
structure Holds (st : ConnSt) (d : CellData) : Prop where
  pos : ∀ key, ((st.uniques.lookup key).bind fun j => st.mesh.vertices[j]?) = d.pos key
  normal : ∀ key, ((st.uniques.lookup key).bind fun j => st.mesh.normals[j]?) = d.normal key
  color : ∀ key, ((st.uniques.lookup key).bind fun j => st.mesh.colors[j]?) = d.color key

/-- One more vertex: the first position and colour stay, normals are added. -/
def CellData.add (F : Arith) (K : Vec3 Fl → Idx) (d : CellData) (v n : Vec3 Fl) (c : Option Color) : CellData where
  pos key := if key = K v then (d.pos key).or (some v) else d.pos key
  normal key := if key = K v then plusNormal F (d.normal key) n else d.normal key
  color key := if key = K v then (if (d.pos key).isSome then d.color key else c) else d.color key

theorem copied_eq {α : Type} {src : List α} {k n : ℕ} (h : src.length = n) (hk : k < n) :
    ∃ a, src[k]? = some a ∧ copied src k = .ok [a] := by
  subst h
  cases src with
  | nil => simp at hk
  | cons a r =>
    refine ⟨(a :: r)[k], List.getElem?_eq_getElem hk, ?_⟩
    unfold copied
    simp only [List.getElem?_eq_getElem hk]

theorem copied_flag_eq {α : Type} {f : Bool} {src : List α} {k n : ℕ} (h : src.length = if f then n else 0) (hk : k < n) :
    copied src k = .ok (src[k]?).toList := by
  cases f with
  | true =>
    obtain ⟨a, h1, h2⟩ := copied_eq (by simpa using h) hk
    rw [h2, h1]; rfl
  | false =>
    have : src = [] := by simpa using h
    subst this
    rfl

theorem look_lt {K : Vec3 Fl → Idx} {colored : Bool} {src : List (Vec3 Fl)} {ks : List Idx} {st : ConnSt}
    (h : Inv K colored src ks st) {key : Idx} {j : ℕ} (hl : st.uniques.lookup key = some j) : j < st.mesh.vertices.length := by
  have := (List.getElem?_eq_some_iff.1 ((h.look _ _).1 hl)).1
  rw [← h.cells, List.length_map] at this
  exact this

theorem vertexStep_holds {D F : Arith} {inv : Fl} {K : Vec3 Fl → Idx} {colored : Bool} {src : List (Vec3 Fl)} {ks : List Idx}
    {st : ConnSt} (h : Inv K colored src ks st) {m : Mesh} (hK : ∀ v ∈ m.vertices, vertexKey D inv v = .ok (K v))
    (hn : m.normals.length = m.vertices.length) (hc : m.colors.length = if colored then m.vertices.length else 0)
    {k : ℕ} (hk : k < m.vertices.length) {r : ConnSt × ℕ} (hr : vertexStep D F inv m st k = .ok r) {d : CellData}
    (hd : Holds st d) :
    Holds r.1 (d.add F K m.vertices[k] (m.normals[k]'(hn ▸ hk)) m.colors[k]?) := by
  have hkey := hK _ (List.getElem_mem hk)
  have hkn : k < m.normals.length := by omega
  set v := m.vertices[k] with hv
  unfold vertexStep at hr
  rw [at_ok hk, Outcome.bind_ok, ← hv, hkey, Outcome.bind_ok] at hr
  have old : ∀ {α : Type} (l x : List α) (key : Idx), st.mesh.vertices.length ≤ l.length →
      ((st.uniques.lookup key).bind fun j => (l ++ x)[j]?) = (st.uniques.lookup key).bind fun j => l[j]? := by
    intro α l x key hlen
    cases hl : st.uniques.lookup key with
    | none => rfl
    | some j =>
      have := look_lt h hl
      simp only [Option.bind_some]
      rw [List.getElem?_append_left (by omega)]
  cases hl : st.uniques.lookup (K v) with
  | none =>
    have hp : d.pos (K v) = none := by rw [← hd.pos, hl]; rfl
    have hnn : d.normal (K v) = none := by rw [← hd.normal, hl]; rfl
    rw [hl] at hr
    simp only [newVertex, copied_flag_eq hc hk, (show copied m.normals k = .ok [m.normals[k]] by
      obtain ⟨a, h1, h2⟩ := copied_eq hn hk
      rw [h2, List.getElem?_eq_getElem hkn] at *
      rw [Option.some.inj h1]), Outcome.bind_ok, Outcome.pure_eq, Outcome.check, List.length_append, List.length_cons,
      List.length_nil, h.next, decide_true, if_true, Outcome.ok.injEq] at hr
    subst hr
    refine ⟨?_, ?_, ?_⟩
    · intro key
      simp only [List.lookup_cons, CellData.add]
      by_cases hkk : key = K v
      · subst hkk
        simp [hp]
      · have : (key == K v) = false := by simpa using hkk
        simp only [this, if_neg hkk]
        rw [old _ _ _ le_rfl, hd.pos]
    · intro key
      simp only [List.lookup_cons, CellData.add]
      by_cases hkk : key = K v
      · subst hkk
        simp [hnn, plusNormal, ← h.normals]
      · have : (key == K v) = false := by simpa using hkk
        simp only [this, if_neg hkk]
        rw [old _ _ _ h.normals.ge, hd.normal]
    · intro key
      simp only [List.lookup_cons, CellData.add]
      by_cases hkk : key = K v
      · subst hkk
        cases colored with
        | true =>
          have h1 := h.colors
          simp only [if_true] at h1 hc
          rw [← h1]
          have : k < m.colors.length := by omega
          simp [hp, this]
        | false =>
          have h1 := h.colors
          have h2 : m.colors = [] := by simpa using hc
          have h3 : st.mesh.colors = [] := by simpa using h1
          simp [hp, h2, h3]
      · have : (key == K v) = false := by simpa using hkk
        simp only [this, if_neg hkk]
        rw [← hd.color]
        cases colored with
        | true => 
          have h1 := h.colors
          simp only [if_true] at h1
          rw [old _ _ _ h1.ge]
        | false =>
          have h1 := h.colors
          have h2 : m.colors = [] := by simpa using hc
          simp [h2]
  | some j =>
    have hjl := look_lt h hl
    have hjn : j < st.mesh.normals.length := by rw [h.normals]; exact hjl
    have hp : d.pos (K v) = some st.mesh.vertices[j] := by
      rw [← hd.pos, hl]; simp [hjl]
    have hnn : d.normal (K v) = some st.mesh.normals[j] := by
      rw [← hd.normal, hl]; simp [hjn]
    rw [hl] at hr
    simp only [mergedVertex, at_ok hjn, at_ok hkn, Outcome.bind_ok, Outcome.pure_eq, Outcome.check, h.next, decide_true, if_true,
      Outcome.ok.injEq] at hr
    subst hr
    refine ⟨?_, ?_, ?_⟩
    · intro key
      simp only [CellData.add]
      rw [hd.pos]
      split_ifs with hkk
      · subst hkk; rw [hp]; rfl
      · rfl
    · intro key
      simp only [CellData.add]
      split_ifs with hkk
      · subst hkk
        rw [hl, hnn]
        simp [hjn, plusNormal, Arith.vadd, Vec3.map₂]
      · rw [← hd.normal]
        cases hl' : st.uniques.lookup key with
        | none => rfl
        | some j' =>
          have hne : j ≠ j' := by
            rintro rfl
            have h1 := (h.look _ _).1 hl
            have h2 := (h.look _ _).1 hl'
            rw [h1] at h2
            exact hkk (Option.some.inj h2).symm
          simp [List.getElem?_set, hne]
    · intro key
      simp only [CellData.add]
      rw [hd.color]
      split_ifs with hkk hs
      · rfl
      · subst hkk; rw [hp] at hs; simp at hs
      · rfl

/-- The data after the vertices from number `k` on. -/
def addFrom (F : Arith) (K : Vec3 Fl → Idx) (m : Mesh) (hn : m.normals.length = m.vertices.length) :
    (n k : ℕ) → k + n = m.vertices.length → CellData → CellData
  | 0, _, _, d => d
  | n + 1, k, h, d => addFrom F K m hn n (k + 1) (by omega)
      (d.add F K (m.vertices[k]'(by omega)) (m.normals[k]'(by omega)) m.colors[k]?)

theorem vertexLoop_holds {D F : Arith} {inv : Fl} {K : Vec3 Fl → Idx} {colored : Bool} {src : List (Vec3 Fl)} {m : Mesh}
    (hK : ∀ v ∈ m.vertices, vertexKey D inv v = .ok (K v)) (hn : m.normals.length = m.vertices.length)
    (hc : m.colors.length = if colored then m.vertices.length else 0) (hsrc : ∀ v ∈ m.vertices, v ∈ src) :
    ∀ (n k : ℕ) (ks : List Idx) (st : ConnSt) (map : List ℕ) (d : CellData) (hkn : k + n = m.vertices.length),
      Inv K colored src ks st → Holds st d → ∀ r, vertexLoop D F inv m (List.range' k n) (st, map) = .ok r →
        Holds r.1 (addFrom F K m hn n k hkn d) := by
  intro n
  induction n with
  | zero =>
    intro k ks st map d hkn hinv hd r hr
    rw [← Outcome.ok.inj hr]
    exact hd
  | succ n ih =>
    intro k ks st map d hkn hinv hd r hr
    have hk : k < m.vertices.length := by omega
    obtain ⟨r1, e1, e2, -⟩ := vertexStep_ok (D := D) (F := F) (inv := inv) hinv hK hn hc hsrc hk
    rw [List.range'_succ] at hr
    unfold vertexLoop at hr
    rw [e1, Outcome.bind_ok] at hr
    exact ih (k + 1) _ r1.1 _ _ (by omega) e2 (vertexStep_holds hinv hK hn hc hk e1 hd) r hr

theorem addFrom_pos (F : Arith) (K : Vec3 Fl → Idx) (m : Mesh) (hn : m.normals.length = m.vertices.length) :
    ∀ (n k : ℕ) (h : k + n = m.vertices.length) (d : CellData) (key : Idx),
      (addFrom F K m hn n k h d).pos key = (d.pos key).or ((m.vertices.drop k).find? fun v => decide (K v = key)) := by
  intro n
  induction n with
  | zero => intro k h d key; rw [List.drop_of_length_le (by omega)]; simp [addFrom]
  | succ n ih =>
    intro k h d key
    rw [addFrom, ih, List.drop_eq_getElem_cons (by omega : k < m.vertices.length), List.find?_cons]
    simp only [CellData.add]
    by_cases hk : key = K m.vertices[k]
    · subst hk
      simp only [if_true, decide_true]
      cases d.pos (K m.vertices[k]) <;> rfl
    · rw [if_neg hk, decide_eq_false (fun h => hk h.symm)]

theorem addFrom_normal (F : Arith) (K : Vec3 Fl → Idx) (m : Mesh) (hn : m.normals.length = m.vertices.length) :
    ∀ (n k : ℕ) (h : k + n = m.vertices.length) (d : CellData) (key : Idx),
      (addFrom F K m hn n k h d).normal key =
        (((((m.vertices.zip m.normals).drop k).filter fun p => decide (K p.1 = key)).map (·.2)).foldl (plusNormal F)
          (d.normal key)) := by
  intro n
  induction n with
  | zero => intro k h d key; rw [List.drop_of_length_le (by simp; omega)]; simp [addFrom]
  | succ n ih =>
    intro k h d key
    have hkl : k < (m.vertices.zip m.normals).length := by simp; omega
    rw [addFrom, ih, List.drop_eq_getElem_cons hkl, List.filter_cons]
    simp only [CellData.add, List.getElem_zip]
    by_cases hk : key = K m.vertices[k]
    · subst hk
      simp
    · rw [if_neg hk, decide_eq_false (fun h => hk h.symm)]
      rfl

theorem addFrom_color (F : Arith) (K : Vec3 Fl → Idx) (m : Mesh) (hn : m.normals.length = m.vertices.length)
    (hc : m.colors.length = m.vertices.length) :
    ∀ (n k : ℕ) (h : k + n = m.vertices.length) (d : CellData) (key : Idx), (d.pos key).isSome = (d.color key).isSome →
      (addFrom F K m hn n k h d).color key =
        (d.color key).or ((((m.vertices.zip m.colors).drop k).find? fun p => decide (K p.1 = key)).map (·.2)) ∧
      ((addFrom F K m hn n k h d).pos key).isSome = ((addFrom F K m hn n k h d).color key).isSome := by
  intro n
  induction n with
  | zero =>
    intro k h d key hs
    rw [List.drop_of_length_le (by simp; omega)]
    exact ⟨by simp [addFrom], hs⟩
  | succ n ih =>
    intro k h d key hs
    have hkl : k < (m.vertices.zip m.colors).length := by simp; omega
    have hkc : k < m.colors.length := by omega
    have hs' : ((d.add F K (m.vertices[k]'(by omega)) (m.normals[k]'(by omega)) m.colors[k]?).pos key).isSome =
        ((d.add F K (m.vertices[k]'(by omega)) (m.normals[k]'(by omega)) m.colors[k]?).color key).isSome := by
      simp only [CellData.add]
      split_ifs with h1 h2
      · rw [← hs]; cases hp : d.pos key <;> simp_all
      · simp [hkc]
      · exact hs
    obtain ⟨e1, e2⟩ := ih (k + 1) (by omega) _ key hs'
    refine ⟨?_, e2⟩
    rw [addFrom, e1, List.drop_eq_getElem_cons hkl, List.find?_cons]
    simp only [CellData.add, List.getElem_zip]
    by_cases hk : key = K m.vertices[k]
    · subst hk
      simp only [if_true, decide_true, List.getElem?_eq_getElem hkc]
      cases hp : d.color (K m.vertices[k]) with
      | none => rw [hp] at hs; simp only [Option.isSome_none] at hs; simp [hs]
      | some c => rw [hp] at hs; simp only [Option.isSome_some] at hs; simp [hs]
    · rw [if_neg hk, decide_eq_false (fun h => hk h.symm)]

theorem renormalize_eq (F : Arith) (n : Vec3 Fl) : renormalize F n = unitNormal F n := by
  unfold renormalize unitNormal Arith.vdiv kEpsilon Vec3.map
  norm_num

/-- The data after the vertices of a mesh. -/
def CellData.mesh (F : Arith) (K : Vec3 Fl → Idx) (d : CellData) (m : Mesh) : CellData where
  pos key := (d.pos key).or (firstIn K key (m.vertices.zip m.vertices))
  normal key := if m.vertices = [] then d.normal key
    else ((normalsIn K key m).foldl (plusNormal F) (d.normal key)).map (unitNormal F)
  color key := (d.color key).or (firstIn K key (m.vertices.zip m.colors))

theorem firstIn_self (K : Vec3 Fl → Idx) (key : Idx) (l : List (Vec3 Fl)) :
    firstIn K key (l.zip l) = l.find? fun v => decide (K v = key) := by
  unfold firstIn
  induction l with
  | nil => rfl
  | cons a l ih =>
    simp only [List.zip_cons_cons, List.find?_cons]
    cases decide (K a = key)
    · exact ih
    · rfl

/-- With colours, positions and colours are known for the same cells. -/
def SameCells (colored : Bool) (d : CellData) : Prop :=
  ∀ key, if colored then (d.pos key).isSome = (d.color key).isSome else d.color key = none

theorem connectOne_holds {D F : Arith} {inv : Fl} {K : Vec3 Fl → Idx} {colored : Bool} {src : List (Vec3 Fl)} {ks : List Idx}
    {st st' : ConnSt} (h : Inv K colored src ks st) {m : Mesh} (hm : Connectable D inv K colored m)
    (hsrc : ∀ v ∈ m.vertices, v ∈ src) {d : CellData} (hd : Holds st d) (hs : SameCells colored d)
    (hr : connectOne D F inv st m = .ok st') : Holds st' (d.mesh F K m) ∧ SameCells colored (d.mesh F K m) := by
  unfold connectOne at hr
  by_cases hv : m.vertices = []
  · simp only [hv, List.isEmpty_nil, if_true] at hr
    rw [← Outcome.ok.inj hr]
    refine ⟨⟨?_, ?_, ?_⟩, ?_⟩
    · intro key; rw [hd.pos]; simp [CellData.mesh, hv, firstIn]
    · intro key; rw [hd.normal]; simp [CellData.mesh, hv]
    · intro key; rw [hd.color]; simp [CellData.mesh, hv, firstIn]
    · intro key
      have := hs key
      simpa [CellData.mesh, hv, firstIn] using this
  · have hne : m.vertices.isEmpty = false := by simpa using hv
    simp only [hne, Bool.false_eq_true, if_false] at hr
    rw [Outcome.bind_eq_ok] at hr
    obtain ⟨_, -, hr⟩ := hr
    rw [Outcome.bind_eq_ok] at hr
    obtain ⟨_, -, hr⟩ := hr
    rw [Outcome.bind_eq_ok] at hr
    obtain ⟨r, e1, hr⟩ := hr
    rw [Outcome.bind_eq_ok] at hr
    obtain ⟨idx, -, hr⟩ := hr
    rw [List.range_eq_range'] at e1
    have hnn := hm.normals
    have hh := vertexLoop_holds hm.cell hnn hm.colors hsrc m.vertices.length 0 ks st [] d (by omega) h hd r e1
    rw [← Outcome.ok.inj hr]
    have hpos : ∀ key, (addFrom F K m hnn m.vertices.length 0 (by omega) d).pos key = (d.mesh F K m).pos key := by
      intro key
      rw [addFrom_pos]
      simp only [List.drop_zero, CellData.mesh, firstIn_self]
    have hcol : ∀ key, (addFrom F K m hnn m.vertices.length 0 (by omega) d).color key = (d.mesh F K m).color key ∧
        (if colored then ((d.mesh F K m).pos key).isSome = ((d.mesh F K m).color key).isSome
          else (d.mesh F K m).color key = none) := by
      intro key
      cases hc : colored with
      | true =>
        have h1 := hm.colors
        have h2 := hs key
        rw [hc] at h1
        rw [hc] at h2
        simp only [if_true] at h1 h2
        obtain ⟨f1, f2⟩ := addFrom_color F K m hnn h1 m.vertices.length 0 (by omega) d key h2
        rw [hpos] at f2
        rw [f1] at f2 ⊢
        simp only [List.drop_zero] at f2 ⊢
        exact ⟨rfl, f2⟩
      | false =>
        have h1 := hm.colors
        have h2 := hs key
        rw [hc] at h1
        rw [hc] at h2
        simp only [Bool.false_eq_true, if_false] at h1 h2
        have h3 : m.colors = [] := by simpa using h1
        have h4 : (d.mesh F K m).color key = none := by simp [CellData.mesh, h2, h3, firstIn]
        refine ⟨?_, by simpa using h4⟩
        rw [h4]
        have : ∀ (n k : ℕ) (hk : k + n = m.vertices.length) (d : CellData), d.color key = none →
            (addFrom F K m hnn n k hk d).color key = none := by
          intro n
          induction n with
          | zero => intro k hk d hd; exact hd
          | succ n ih =>
            intro k hk d hd
            rw [addFrom]
            apply ih
            simp [CellData.add, hd, h3]
        exact this _ _ _ _ h2
    refine ⟨⟨?_, ?_, ?_⟩, ?_⟩
    · intro key; rw [← hpos, ← hh.pos]
    · intro key
      have e : (d.mesh F K m).normal key =
          ((addFrom F K m hnn m.vertices.length 0 (by omega) d).normal key).map (unitNormal F) := by
        rw [addFrom_normal]
        simp only [CellData.mesh, if_neg hv, List.drop_zero]
        rfl
      rw [e, ← hh.normal]
      simp only [List.getElem?_map]
      cases r.1.uniques.lookup key with
      | none => rfl
      | some j =>
        simp only [Option.bind_some]
        cases r.1.mesh.normals[j]? with
        | none => rfl
        | some n => simp only [Option.map_some, renormalize_eq]
    · intro key; rw [← (hcol key).1, ← hh.color]
    · intro key; exact (hcol key).2

theorem connectAll_holds {D F : Arith} {inv : Fl} {K : Vec3 Fl → Idx} {colored : Bool} {src : List (Vec3 Fl)} (ms : List Mesh)
    (hm : ∀ m ∈ ms, Connectable D inv K colored m) (hsrc : ∀ m ∈ ms, ∀ v ∈ m.vertices, v ∈ src) :
    ∀ (ks : List Idx) (tris : List (Option Idx × Option Idx × Option Idx)) (st st' : ConnSt) (d : CellData),
      InvT K colored src ks tris st → Holds st d → SameCells colored d →
      ms.foldlM (connectOne D F inv) st = .ok st' → Holds st' (ms.foldl (CellData.mesh F K) d) := by
  induction ms with
  | nil =>
    intro ks tris st st' d _ hd _ hr
    rw [← Outcome.ok.inj hr]; exact hd
  | cons m ms ih =>
    intro ks tris st st' d h hd hs hr
    rw [List.foldlM_cons, Outcome.bind_eq_ok] at hr
    obtain ⟨s1, e1, hr⟩ := hr
    obtain ⟨s1', f1, f2, -⟩ := connectOne_ok (D := D) (F := F) (inv := inv) h (hm m List.mem_cons_self)
      (hsrc m List.mem_cons_self)
    rw [e1] at f1
    have := Outcome.ok.inj f1
    subst this
    obtain ⟨g1, g2⟩ := connectOne_holds h.toInv (hm m List.mem_cons_self) (hsrc m List.mem_cons_self) hd hs e1
    exact ih (fun m' h' => hm m' (List.mem_cons_of_mem _ h')) (fun m' h' => hsrc m' (List.mem_cons_of_mem _ h')) _ _ s1 st' _
      f2 g1 g2 hr

theorem mesh_pos (F : Arith) (K : Vec3 Fl → Idx) (ms : List Mesh) : ∀ (d : CellData) (key : Idx),
    (ms.foldl (CellData.mesh F K) d).pos key =
      (d.pos key).or (firstIn K key (ms.flatMap fun m => m.vertices.zip m.vertices)) := by
  induction ms with
  | nil => intro d key; simp [firstIn]
  | cons m ms ih =>
    intro d key
    rw [List.foldl_cons, ih]
    simp only [CellData.mesh, firstIn, List.flatMap_cons, List.find?_append, Option.or_assoc, Option.map_or]

theorem mesh_color (F : Arith) (K : Vec3 Fl → Idx) (ms : List Mesh) : ∀ (d : CellData) (key : Idx),
    (ms.foldl (CellData.mesh F K) d).color key =
      (d.color key).or (firstIn K key (ms.flatMap fun m => m.vertices.zip m.colors)) := by
  induction ms with
  | nil => intro d key; simp [firstIn]
  | cons m ms ih =>
    intro d key
    rw [List.foldl_cons, ih]
    simp only [CellData.mesh, firstIn, List.flatMap_cons, List.find?_append, Option.or_assoc, Option.map_or]

theorem mesh_normal (F : Arith) (K : Vec3 Fl → Idx) (ms : List Mesh) : ∀ (d : CellData) (key : Idx),
    (ms.foldl (CellData.mesh F K) d).normal key =
      ms.foldl (fun acc m => if m.vertices = [] then acc
        else ((normalsIn K key m).foldl (plusNormal F) acc).map (unitNormal F)) (d.normal key) := by
  induction ms with
  | nil => intro d key; rfl
  | cons m ms ih =>
    intro d key
    rw [List.foldl_cons, ih, List.foldl_cons]
    rfl

end Vox.MeshOps
