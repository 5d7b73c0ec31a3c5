/-
A PLY file written by voxblox, read back line by line.
-/
import Verif.Lemmas.PlyNumber
import Verif.Lemmas.MeshOps
import Mathlib.Data.List.GetD

namespace Vox.Ply

open PlySpec MC

/-! ### Splitting -/

theorem pieces_ne (sep : Char) (t : List Char) : pieces sep t ≠ [] := by
  cases t with
  | nil => simp [pieces]
  | cons c t =>
    unfold pieces
    split_ifs
    · simp
    · split <;> simp

theorem pieces_append (sep : Char) (a b : List Char) : pieces sep (a ++ sep :: b) = pieces sep a ++ pieces sep b := by
  induction a with
  | nil => simp [pieces]
  | cons c a ih =>
    rw [List.cons_append, pieces, pieces.eq_def sep (c :: a), ih]
    dsimp only
    split_ifs
    · rfl
    · obtain ⟨p, ps, h⟩ := List.exists_cons_of_ne_nil (pieces_ne sep a)
      rw [h]
      rfl

theorem pieces_none {sep : Char} {w : List Char} (h : sep ∉ w) : pieces sep w = [w] := by
  induction w with
  | nil => rfl
  | cons c w ih =>
    rw [List.mem_cons, not_or] at h
    unfold pieces
    rw [if_neg (fun e => h.1 e.symm), ih h.2]

/-- A line and its words. -/
structure Line (l : List Char) (ws : List Token) : Prop where
  newline : '\n' ∉ l
  words : words l = ws

theorem Line.nil : Line [] [] := ⟨by simp, rfl⟩

theorem Line.word {w : List Char} (h : Clean w) : Line w [w] := by
  refine ⟨h.newline, ?_⟩
  unfold PlySpec.words
  rw [pieces_none h.space]
  simp [h.ne]

theorem Line.append {a b : List Char} {u v : List Token} (ha : Line a u) (hb : Line b v) : Line (a ++ ' ' :: b) (u ++ v) := by
  refine ⟨?_, ?_⟩
  · intro h
    rcases List.mem_append.1 h with h | h
    · exact ha.newline h
    · rcases List.mem_cons.1 h with h | h
      · revert h; decide
      · exact hb.newline h
  · unfold PlySpec.words
    rw [pieces_append, List.filter_append]
    exact congrArg₂ _ ha.words hb.words

theorem rows_append (a b : List Char) : rows (a ++ '\n' :: b) = rows a ++ rows b := by
  unfold rows
  rw [pieces_append, List.map_append, List.filter_append]

theorem Line.rows {l : List Char} {ws : List Token} (h : Line l ws) (hne : ws ≠ []) (t : List Char) : rows (l ++ '\n' :: t) = ws :: rows t := by
  rw [rows_append]
  unfold PlySpec.rows
  rw [pieces_none h.newline]
  simp [h.words, hne]

theorem rows_line {s : String} {ws : List Token} (h : '\n' ∉ s.toList ∧ words s.toList = ws) (hne : ws ≠ []) (t : List Char) :
    rows (line s ++ t) = ws :: rows t := by
  unfold line
  rw [List.append_assoc]
  exact Line.rows ⟨h.1, h.2⟩ hne t

/-! ### Header -/

/-- The name of a type in a file. -/
def tyName : Ty → Token
  | .float => "float".toList
  | .uchar => "uchar".toList
  | .int => "int".toList

theorem tyOf_name (t : Ty) : tyOf (tyName t) = some t := by cases t <;> decide +kernel

/-- The words declaring a property. -/
def propRow (p : Property) : List Token :=
  match p.count with
  | none => ["property".toList, tyName p.ty, p.name]
  | some c => ["property".toList, "list".toList, tyName c, tyName p.ty, p.name]

theorem addProperty_last (es : List Element) (e : Element) (p : Property) :
    addProperty (es ++ [e]) p = some (es ++ [{ e with props := e.props ++ [p] }]) := by
  unfold addProperty
  simp

theorem headerLine_three (es : List Element) (k a b : Token) : headerLine es [k, a, b] =
    if k = "element".toList then (natOf b).map fun n => es ++ [⟨a, n, []⟩]
    else if k = "property".toList then (tyOf a).bind fun t => addProperty es ⟨b, t, none⟩
    else none := rfl

theorem headerLine_five (es : List Element) (k l c t n : Token) : headerLine es [k, l, c, t, n] =
    if k = "property".toList ∧ l = "list".toList then (tyOf c).bind fun c => (tyOf t).bind fun t => addProperty es ⟨n, t, some c⟩ else none := rfl

theorem header_prop (es : List Element) (e : Element) (p : Property) (rs : List (List Token)) :
    header (es ++ [e]) (propRow p :: rs) = header (es ++ [{ e with props := e.props ++ [p] }]) rs := by
  have n1 : ¬ "property".toList = "element".toList := by decide +kernel
  obtain ⟨name, ty, count⟩ := p
  cases count with
  | none =>
    show (if ["property".toList, tyName ty, name] = ["end_header".toList] then _ else _) = _
    rw [if_neg (fun h => by cases (List.cons.inj h).2),
      show propRow ⟨name, ty, none⟩ = ["property".toList, tyName ty, name] from rfl, headerLine_three, if_neg n1, if_pos rfl, tyOf_name, Option.bind_some, addProperty_last, Option.bind_some]
  | some c =>
    show (if ["property".toList, "list".toList, tyName c, tyName ty, name] = ["end_header".toList] then _ else _) = _
    rw [if_neg (fun h => by cases (List.cons.inj h).2),
      show propRow ⟨name, ty, some c⟩ = ["property".toList, "list".toList, tyName c, tyName ty, name] from rfl, headerLine_five, if_pos ⟨rfl, rfl⟩, tyOf_name, tyOf_name, Option.bind_some, Option.bind_some, addProperty_last, Option.bind_some]

theorem header_props (es : List Element) (ps : List Property) : ∀ (e : Element) (rs : List (List Token)),
    header (es ++ [e]) (ps.map propRow ++ rs) = header (es ++ [{ e with props := e.props ++ ps }]) rs := by
  induction ps with
  | nil => intro e rs; simp
  | cons p ps ih =>
    intro e rs
    rw [List.map_cons, List.cons_append, header_prop, ih]
    simp

theorem header_element (es : List Element) (a : Token) (n : ℕ) (rs : List (List Token)) :
    header es (["element".toList, a, natText n] :: rs) = header (es ++ [⟨a, n, []⟩]) rs := by
  rw [header, if_neg (fun h => by cases (List.cons.inj h).2), headerLine_three, if_pos rfl, natOf_natText, Option.map_some, Option.bind_some]

theorem header_end (es : List Element) (rs : List (List Token)) : header es (["end_header".toList] :: rs) = some (es, rs) := by
  rw [header, if_pos rfl]

/-! ### Rows -/

theorem readRow_scalars (L : List (Property × Token × Fl)) (h : ∀ a ∈ L, a.1.count = none ∧ valueOf a.1.ty a.2.1 = some a.2.2) :
    readRow (L.map (·.1)) (L.map (·.2.1)) = some (L.map fun a => [a.2.2]) := by
  induction L with
  | nil => rfl
  | cons a L ih =>
    obtain ⟨h1, h2⟩ := h a (by simp)
    have := ih fun b hb => h b (by simp [hb])
    rw [List.map_cons, List.map_cons, List.map_cons, readRow]
    simp only [h1]
    rw [h2, this]
    rfl

theorem readRow_list {p : Property} {ps : List Property} {w : Token} {ws : List Token} {t : Ty} {x : Fl} {n : ℕ} {xs : List Fl} (hp : p.count = some t)
    (hw : valueOf t w = some x) (hn : natOf w = some n) (hl : n ≤ ws.length) (hx : (ws.take n).mapM (valueOf p.ty) = some xs) :
    readRow (p :: ps) (w :: ws) = (readRow ps (ws.drop n)).map (xs :: ·) := by
  rw [readRow, hp]
  dsimp only
  rw [hw, hn, Option.bind_eq_bind, Option.bind_some, Option.bind_eq_bind, Option.bind_some, if_neg (by omega), hx]
  cases readRow ps (ws.drop n) <;> rfl

theorem mapM_some {α β γ : Type} {f : β → Option γ} {g : α → β} {h : α → γ} (L : List α) (hf : ∀ a ∈ L, f (g a) = some (h a)) :
    (L.map g).mapM f = some (L.map h) := by
  induction L with
  | nil => rfl
  | cons a L ih =>
    rw [List.map_cons, List.mapM_cons, hf a (by simp), ih fun b hb => hf b (by simp [hb])]
    rfl

theorem readBody_cons {e : Element} {es : List Element} {here : List (List Token)} {rs : List (List Token)} {vs : List (List (List Fl))}
    (hc : e.count = here.length) (hv : here.mapM (readRow e.props) = some vs) :
    readBody (e :: es) (here ++ rs) = (readBody es rs).map fun c => (e, vs) :: c := by
  rw [readBody, if_neg (by rw [List.length_append]; omega), hc, List.take_left, List.drop_left, hv]
  cases readBody es rs <;> rfl

theorem valueOf_float (x : Fl) : valueOf .float (floatText x) = some (shown x) := by
  unfold valueOf
  rw [number_floatText]
  rfl

theorem valueOf_byte (b : BitVec 8) : valueOf .uchar (natText b.toNat) = some (.fin (b.toNat : ℚ)) := by
  unfold valueOf
  rw [number_natText, Option.bind_some, if_pos]
  unfold fits
  have := b.isLt
  have h2 : (b.toNat : ℚ) < 256 := by exact_mod_cast this
  simp [h2]

theorem valueOf_int {n : ℕ} (h : n < 2 ^ 31) : valueOf .int (natText n) = some (.fin (n : ℚ)) := by
  unfold valueOf
  rw [number_natText, Option.bind_some, if_pos]
  unfold fits
  have h2 : (n : ℚ) < 2 ^ 31 := by exact_mod_cast h
  have h3 : (0 : ℚ) ≤ n := Nat.cast_nonneg n
  simp only [Rat.den_natCast, decide_eq_true_eq]
  refine ⟨trivial, ?_, h2⟩
  norm_num
  linarith

/-! ### The writer -/

theorem foldlM_append {α : Type} {f : α → Outcome (List Char)} {g : α → List Char} (L : List α) (h : ∀ a ∈ L, f a = .ok (g a)) : ∀ acc,
    L.foldlM (fun acc a => do
      let t ← f a
      pure (acc ++ t)) acc = .ok (acc ++ L.flatMap g) := by
  induction L with
  | nil => intro acc; simp
  | cons a L ih =>
    intro acc
    rw [List.foldlM_cons, h a (by simp)]
    show L.foldlM _ (acc ++ g a) = _
    rw [ih fun b hb => h b (by simp [hb])]
    simp

theorem foldlM_stop {α : Type} {f : α → Outcome (List Char)} {bad : Outcome (List Char)} (hb : bad = .fatal ∨ bad = .ub) (L : List α)
    (h : ∀ a ∈ L, f a = bad ∨ ∃ t, f a = .ok t) (hx : ∃ a ∈ L, f a = bad) : ∀ acc,
    L.foldlM (fun acc a => do
      let t ← f a
      pure (acc ++ t)) acc = bad := by
  induction L with
  | nil => obtain ⟨a, ha, -⟩ := hx; cases ha
  | cons a L ih =>
    intro acc
    rw [List.foldlM_cons]
    by_cases ha : f a = bad
    · rw [ha]
      rcases hb with rfl | rfl <;> rfl
    · obtain ⟨t, ht⟩ := (h a List.mem_cons_self).resolve_left ha
      rw [ht]
      obtain ⟨b, hb1, hb2⟩ := hx
      rcases List.mem_cons.1 hb1 with rfl | hb1
      · exact absurd hb2 ha
      · exact ih (fun x hx => h x (List.mem_cons_of_mem _ hx)) ⟨b, hb1, hb2⟩ _

theorem normalPart_cases (m : Mesh) (k : ℕ) :
    (normalPart m k = .ub ∧ m.normals ≠ [] ∧ m.normals.length ≤ k) ∨ ((∃ t, normalPart m k = .ok t) ∧ (m.normals = [] ∨ k < m.normals.length)) := by
  unfold normalPart
  split_ifs with h
  · exact Or.inr ⟨⟨_, rfl⟩, Or.inl (List.isEmpty_iff.1 h)⟩
  · have h' : m.normals ≠ [] := by rwa [List.isEmpty_iff] at h
    rcases lt_or_ge k m.normals.length with hl | hl
    · rw [MeshOps.at_ok hl]
      exact Or.inr ⟨⟨_, rfl⟩, Or.inr hl⟩
    · left
      refine ⟨?_, h', hl⟩
      unfold MeshOps.at_
      rw [List.getElem?_eq_none hl]
      rfl

theorem colorPart_cases (m : Mesh) (k : ℕ) :
    (colorPart m k = .ub ∧ m.colors ≠ [] ∧ m.colors.length ≤ k) ∨ ((∃ t, colorPart m k = .ok t) ∧ (m.colors = [] ∨ k < m.colors.length)) := by
  unfold colorPart
  split_ifs with h
  · exact Or.inr ⟨⟨_, rfl⟩, Or.inl (List.isEmpty_iff.1 h)⟩
  · have h' : m.colors ≠ [] := by rwa [List.isEmpty_iff] at h
    rcases lt_or_ge k m.colors.length with hl | hl
    · rw [MeshOps.at_ok hl]
      exact Or.inr ⟨⟨_, rfl⟩, Or.inr hl⟩
    · left
      refine ⟨?_, h', hl⟩
      unfold MeshOps.at_
      rw [List.getElem?_eq_none hl]
      rfl

theorem vertexText_cases (m : Mesh) (v : Vec3 Fl) (k : ℕ) : vertexText m v k = .ub ∨ ∃ t, vertexText m v k = .ok t := by
  unfold vertexText
  rcases normalPart_cases m k with ⟨h, -⟩ | ⟨⟨t, h⟩, -⟩
  · left; rw [h]; rfl
  · rw [h, Outcome.bind_ok]
    rcases colorPart_cases m k with ⟨h, -⟩ | ⟨⟨t, h⟩, -⟩
    · left; rw [h]; rfl
    · right; rw [h]; exact ⟨_, rfl⟩

theorem meshText_ub {m : Mesh} {k : ℕ} (hk : k < m.vertices.length) (h : vertexText m m.vertices[k] k = .ub) : meshText m = .ub := by
  unfold meshText
  rw [foldlM_stop (bad := .ub) (f := fun vk : Vec3 Fl × ℕ => vertexText m vk.1 vk.2) (Or.inr rfl) _ (fun vk _ => vertexText_cases m vk.1 vk.2)]
  · rfl
  · refine ⟨(m.vertices[k], k), ?_, h⟩
    rw [List.mem_iff_getElem]
    exact ⟨k, by simpa using hk, by simp⟩

theorem faceText_cases (is : List ℕ) (k : ℕ) : faceText is k = .fatal ∨ ∃ t, faceText is k = .ok t := by
  have e : ∀ i, indexAt is i = .fatal ∨ ∃ a, indexAt is i = .ok a := by
    intro i
    unfold indexAt
    cases is[i]? with
    | none => exact Or.inl rfl
    | some a => exact Or.inr ⟨a, rfl⟩
  unfold faceText
  rcases e (3 * k) with h | ⟨a, h⟩
  · left; rw [h]; rfl
  · rw [h, Outcome.bind_ok]
    rcases e (3 * k + 1) with h | ⟨a, h⟩
    · left; rw [h]; rfl
    · rw [h, Outcome.bind_ok]
      rcases e (3 * k + 2) with h | ⟨a, h⟩
      · left; rw [h]; rfl
      · right; rw [h]; exact ⟨_, rfl⟩

theorem faceText_fatal {is : List ℕ} {k : ℕ} (h : is.length ≤ 3 * k + 2) : faceText is k = .fatal := by
  rcases faceText_cases is k with h' | ⟨t, h'⟩
  · exact h'
  · unfold faceText at h'
    rw [Outcome.bind_eq_ok] at h'
    obtain ⟨a, -, h'⟩ := h'
    rw [Outcome.bind_eq_ok] at h'
    obtain ⟨b, -, h'⟩ := h'
    rw [Outcome.bind_eq_ok] at h'
    obtain ⟨c, hc, -⟩ := h'
    unfold indexAt at hc
    rw [List.getElem?_eq_none h] at hc
    cases hc

theorem facesText_fatal {m : Mesh} (h : ¬ 3 ∣ m.indices.length) : facesText m = .fatal := by
  have hne : ¬ m.indices.isEmpty := by
    rw [List.isEmpty_iff]
    intro e
    rw [e] at h
    exact h ⟨0, rfl⟩
  unfold facesText
  rw [if_neg hne]
  refine foldlM_stop (f := faceText m.indices) (Or.inl rfl) _ (fun k _ => faceText_cases _ k) ⟨m.indices.length / 3, ?_, faceText_fatal (by omega)⟩ []
  rw [List.mem_range]
  omega

theorem rows_flatMap {α : Type} {g : α → List Char} {ws : α → List Token} (L : List α) (h : ∀ a ∈ L, ∃ l, g a = l ++ ['\n'] ∧ Line l (ws a) ∧ ws a ≠ [])
    (t : List Char) : rows (L.flatMap g ++ t) = L.map ws ++ rows t := by
  induction L with
  | nil => rfl
  | cons a L ih =>
    obtain ⟨l, h1, h2, h3⟩ := h a (by simp)
    rw [List.flatMap_cons, h1]
    simp only [List.append_assoc, List.cons_append, List.nil_append]
    rw [h2.rows h3, ih fun b hb => h b (by simp [hb])]
    rfl

/-! ### The file of a mesh -/

/-- A scalar property. -/
def scalar (name : String) (t : Ty) : Property := ⟨name.toList, t, none⟩

/-- The properties of vertices. -/
def positionProps : List Property := [scalar "x" .float, scalar "y" .float, scalar "z" .float]
/-- The properties of vertices. -/
def normalProps : List Property := [scalar "normal_x" .float, scalar "normal_y" .float, scalar "normal_z" .float]
/-- The properties of vertices. -/
def colorProps : List Property := [scalar "red" .uchar, scalar "green" .uchar, scalar "blue" .uchar, scalar "alpha" .uchar]
/-- The property of triangles. -/
def faceProp : Property := ⟨"vertex_indices".toList, .int, some .uchar⟩

/-- The properties of vertices. -/
def vertexProps (m : Mesh) : List Property :=
  positionProps ++ (if m.normals.isEmpty then [] else normalProps) ++ (if m.colors.isEmpty then [] else colorProps)

/-- The rows about triangles in the header. -/
def faceHeader (m : Mesh) : List (List Token) :=
  if m.indices.isEmpty then [] else [["element".toList, "face".toList, natText (m.indices.length / 3)], propRow faceProp]

theorem element_line (s : String) (ws : List Token) (h : Line s.toList ws) (n : ℕ) (t : List Char) :
    rows ((s.toList ++ [' '] ++ natText n ++ ['\n']) ++ t) = (ws ++ [natText n]) :: rows t := by
  have := (h.append (Line.word (natText_clean n))).rows (by simp) t
  rw [← this]
  simp

theorem rows_header (m : Mesh) (t : List Char) : rows (headerText m ++ t) =
    ["ply".toList] :: ["format".toList, "ascii".toList, "1.0".toList] :: ["element".toList, "vertex".toList, natText m.vertices.length] ::
      ((vertexProps m).map propRow ++ (faceHeader m ++ (["end_header".toList] :: rows t))) := by
  have p : ∀ (s : String) (q : Property), ('\n' ∉ s.toList ∧ words s.toList = propRow q) → ∀ t, rows (line s ++ t) = propRow q :: rows t := by
    intro s q h t
    refine rows_line h ?_ t
    unfold propRow
    cases q.count <;> simp
  have ev : "element vertex ".toList = "element vertex".toList ++ [' '] := by decide +kernel
  have ef : "element face ".toList = "element face".toList ++ [' '] := by decide +kernel
  have lv : Line "element vertex".toList ["element".toList, "vertex".toList] := ⟨by decide +kernel, by decide +kernel⟩
  have lf : Line "element face".toList ["element".toList, "face".toList] := ⟨by decide +kernel, by decide +kernel⟩
  have hn : ∀ t, rows ((if m.normals.isEmpty then [] else line "property float normal_x" ++ line "property float normal_y" ++ line "property float normal_z") ++ t) =
      (if m.normals.isEmpty then [] else normalProps).map propRow ++ rows t := by
    intro t
    split_ifs
    · rfl
    · simp only [List.append_assoc]
      rw [p _ (scalar "normal_x" .float) (by decide +kernel), p _ (scalar "normal_y" .float) (by decide +kernel), p _ (scalar "normal_z" .float) (by decide +kernel)]
      rfl
  have hc : ∀ t, rows ((if m.colors.isEmpty then [] else
      line "property uchar red" ++ line "property uchar green" ++ line "property uchar blue" ++ line "property uchar alpha") ++ t) =
      (if m.colors.isEmpty then [] else colorProps).map propRow ++ rows t := by
    intro t
    split_ifs
    · rfl
    · simp only [List.append_assoc]
      rw [p _ (scalar "red" .uchar) (by decide +kernel), p _ (scalar "green" .uchar) (by decide +kernel), p _ (scalar "blue" .uchar) (by decide +kernel),
        p _ (scalar "alpha" .uchar) (by decide +kernel)]
      rfl
  have hf : ∀ t, rows ((if m.indices.isEmpty then [] else
      ("element face ".toList ++ natText (m.indices.length / 3) ++ ['\n']) ++ line "property list uchar int vertex_indices") ++ t) = faceHeader m ++ rows t := by
    intro t
    unfold faceHeader
    split_ifs
    · rfl
    · rw [List.append_assoc, ef, element_line _ _ lf, p _ faceProp (by decide +kernel)]
      rfl
  unfold headerText
  rw [ev]
  have assoc : ∀ a b c : List Char, a ++ b ++ c = a ++ (b ++ c) := List.append_assoc
  generalize hN : (if m.normals.isEmpty then [] else _) = N at hn ⊢
  generalize hC : (if m.colors.isEmpty then [] else _) = C at hc ⊢
  generalize hF : (if m.indices.isEmpty then [] else _) = F at hf ⊢
  generalize hE : "element vertex".toList ++ [' '] ++ natText m.vertices.length ++ ['\n'] = E
  simp only [assoc]
  rw [rows_line (ws := ["ply".toList]) (by decide +kernel) (by simp), rows_line (ws := ["format".toList, "ascii".toList, "1.0".toList]) (by decide +kernel) (by simp),
    ← hE, element_line _ _ lv, p _ (scalar "x" .float) (by decide +kernel), p _ (scalar "y" .float) (by decide +kernel), p _ (scalar "z" .float) (by decide +kernel),
    hn, hc, hf, rows_line (ws := ["end_header".toList]) (by decide +kernel) (by simp)]
  unfold vertexProps positionProps
  simp

theorem read_header (m : Mesh) (t : List Char) : readPly (headerText m ++ t) =
    readBody (⟨"vertex".toList, m.vertices.length, vertexProps m⟩ :: (if m.indices.isEmpty then [] else [⟨"face".toList, m.indices.length / 3, [faceProp]⟩])) (rows t) := by
  unfold readPly
  rw [rows_header]
  dsimp only
  rw [if_pos ⟨rfl, rfl⟩, header_element, header_props]
  have : ∀ e : Element, header ([] ++ [e]) (faceHeader m ++ (["end_header".toList] :: rows t)) =
      some (e :: (if m.indices.isEmpty then [] else [⟨"face".toList, m.indices.length / 3, [faceProp]⟩]), rows t) := by
    intro e
    unfold faceHeader
    split_ifs
    · exact header_end _ _
    · rw [List.cons_append, header_element, List.cons_append, header_prop]
      exact header_end _ _
  rw [this]
  rfl

/-- The entries of a vertex line. -/
def vecEntries (ps : List Property) (v : Vec3 Fl) : List (Property × Token × Fl) :=
  ps.zip [(floatText v.x, shown v.x), (floatText v.y, shown v.y), (floatText v.z, shown v.z)]

/-- The entries of a vertex line. -/
def colorEntries (c : Color) : List (Property × Token × Fl) :=
  colorProps.zip [(natText c.r.toNat, .fin (c.r.toNat : ℚ)), (natText c.g.toNat, .fin (c.g.toNat : ℚ)), (natText c.b.toNat, .fin (c.b.toNat : ℚ)),
    (natText c.a.toNat, .fin (c.a.toNat : ℚ))]

/-- The entries of a vertex line. -/
def vertexEntries (m : Mesh) (n : Vec3 Fl) (c : Color) (v : Vec3 Fl) : List (Property × Token × Fl) :=
  vecEntries positionProps v ++ (if m.normals.isEmpty then [] else vecEntries normalProps n) ++ (if m.colors.isEmpty then [] else colorEntries c)

theorem entries_props (m : Mesh) (n : Vec3 Fl) (c : Color) (v : Vec3 Fl) : (vertexEntries m n c v).map (·.1) = vertexProps m := by
  unfold vertexEntries vertexProps
  rw [List.map_append, List.map_append]
  congr 1
  · congr 1
    split_ifs <;> rfl
  · split_ifs <;> rfl

theorem entries_values (m : Mesh) (n : Vec3 Fl) (c : Color) (v : Vec3 Fl) :
    ∀ a ∈ vertexEntries m n c v, a.1.count = none ∧ valueOf a.1.ty a.2.1 = some a.2.2 := by
  have vec : ∀ (ps : List Property) (v : Vec3 Fl), (∀ p ∈ ps, p.count = none ∧ p.ty = .float) → ∀ a ∈ vecEntries ps v, a.1.count = none ∧ valueOf a.1.ty a.2.1 = some a.2.2 := by
    intro ps v hp a ha
    obtain ⟨h1, h2⟩ := hp _ (List.of_mem_zip ha).1
    refine ⟨h1, ?_⟩
    rw [h2]
    have := (List.of_mem_zip (b := a.2) ha).2
    simp only [List.mem_cons, List.not_mem_nil, or_false] at this
    rcases this with h | h | h <;> rw [h] <;> exact valueOf_float _
  intro a ha
  unfold vertexEntries at ha
  rcases List.mem_append.1 ha with ha | ha
  · rcases List.mem_append.1 ha with ha | ha
    · exact vec _ _ (by intro p hp; simp only [positionProps, List.mem_cons, List.not_mem_nil, or_false] at hp; rcases hp with rfl | rfl | rfl <;> exact ⟨rfl, rfl⟩) a ha
    · split_ifs at ha
      · cases ha
      · exact vec _ _ (by intro p hp; simp only [normalProps, List.mem_cons, List.not_mem_nil, or_false] at hp; rcases hp with rfl | rfl | rfl <;> exact ⟨rfl, rfl⟩) a ha
  · split_ifs at ha
    · cases ha
    · unfold colorEntries at ha
      have hp := (List.of_mem_zip ha).1
      have hv := (List.of_mem_zip (b := a.2) ha).2
      have : a.1.count = none ∧ a.1.ty = .uchar := by
        simp only [colorProps, List.mem_cons, List.not_mem_nil, or_false] at hp
        rcases hp with h | h | h | h <;> rw [h] <;> exact ⟨rfl, rfl⟩
      refine ⟨this.1, ?_⟩
      rw [this.2]
      simp only [List.mem_cons, List.not_mem_nil, or_false] at hv
      rcases hv with h | h | h | h <;> rw [h] <;> exact valueOf_byte _

theorem vecLine (ps : List Property) (hl : ps.length = 3) (v : Vec3 Fl) : Line (vecText v) ((vecEntries ps v).map (·.2.1)) := by
  have : (vecEntries ps v).map (·.2.1) = [floatText v.x] ++ ([floatText v.y] ++ [floatText v.z]) := by
    match ps, hl with
    | [a, b, c], _ => rfl
  rw [this]
  exact (Line.word (floatText_clean _)).append ((Line.word (floatText_clean _)).append (Line.word (floatText_clean _)))

theorem colorLine (c : Color) {l : List Char} {ws : List Token} (h : Line l ws) : Line (l ++ colorText c) (ws ++ (colorEntries c).map (·.2.1)) := by
  have : (colorEntries c).map (·.2.1) = [natText c.r.toNat] ++ ([natText c.g.toNat] ++ ([natText c.b.toNat] ++ [natText c.a.toNat])) := rfl
  rw [this]
  exact h.append ((Line.word (natText_clean _)).append ((Line.word (natText_clean _)).append ((Line.word (natText_clean _)).append (Line.word (natText_clean _)))))

/-- The text of a vertex line. -/
def vertexLine (m : Mesh) (n : Vec3 Fl) (c : Color) (v : Vec3 Fl) : List Char :=
  vecText v ++ (if m.normals.isEmpty then [] else ' ' :: vecText n) ++ (if m.colors.isEmpty then [] else colorText c)

theorem vertexLine_line (m : Mesh) (n : Vec3 Fl) (c : Color) (v : Vec3 Fl) : Line (vertexLine m n c v) ((vertexEntries m n c v).map (·.2.1)) := by
  unfold vertexLine vertexEntries
  have h1 : Line (vecText v ++ (if m.normals.isEmpty then [] else ' ' :: vecText n))
      ((vecEntries positionProps v ++ (if m.normals.isEmpty then [] else vecEntries normalProps n)).map (·.2.1)) := by
    rw [List.map_append]
    split_ifs
    · simpa using vecLine positionProps rfl v
    · exact (vecLine positionProps rfl v).append (vecLine normalProps rfl n)
  rw [List.map_append]
  split_ifs with h2 h3
  · simpa [h2] using h1
  · exact colorLine c (by simpa [h2] using h1)
  · simpa [h2] using h1
  · exact colorLine c (by simpa [h2] using h1)

/-- The three indices of a triangle. -/
def tri (is : List ℕ) (k : ℕ) : List ℕ := [is.getD (3 * k) 0, is.getD (3 * k + 1) 0, is.getD (3 * k + 2) 0]

/-- The text of a triangle. -/
def faceLine (is : List ℕ) (k : ℕ) : List Char :=
  '3' :: ' ' :: (natText (is.getD (3 * k) 0) ++ ' ' :: (natText (is.getD (3 * k + 1) 0) ++ ' ' :: (natText (is.getD (3 * k + 2) 0) ++ [' '])))

/-- The words of a triangle. -/
def faceTokens (is : List ℕ) (k : ℕ) : List Token := ['3'] :: (tri is k).map natText

theorem faceLine_line (is : List ℕ) (k : ℕ) : Line (faceLine is k) (faceTokens is k) := by
  have h3 : Clean ['3'] := ⟨by decide, by decide, by decide⟩
  have c := fun i => Line.word (natText_clean (is.getD i 0))
  exact (Line.word h3).append ((c _).append ((c _).append ((c _).append Line.nil)))

theorem faceText_ok {is : List ℕ} {k : ℕ} (h : 3 * k + 2 < is.length) : faceText is k = .ok (faceLine is k ++ ['\n']) := by
  have e : ∀ i, i < is.length → indexAt is i = .ok (is.getD i 0) := by
    intro i hi
    unfold indexAt
    rw [List.getElem?_eq_getElem hi, List.getD_eq_getElem _ _ hi]
  unfold faceText
  rw [e _ (by omega), e _ (by omega), e _ (by omega)]
  show Outcome.ok ('3' :: ' ' :: _) = .ok _
  simp [faceLine]

theorem readRow_face {is : List ℕ} (hi : ∀ i ∈ is, i < 2 ^ 31) (k : ℕ) :
    readRow [faceProp] (faceTokens is k) = some [(tri is k).map fun (i : ℕ) => .fin (i : ℚ)] := by
  have hg : ∀ i, is.getD i 0 < 2 ^ 31 := by
    intro i
    rcases lt_or_ge i is.length with h | h
    · rw [List.getD_eq_getElem _ _ h]
      exact hi _ (List.getElem_mem h)
    · rw [List.getD_eq_default _ _ h]
      norm_num
  have ht : ∀ i ∈ tri is k, i < 2 ^ 31 := by
    intro i hi
    simp only [tri, List.mem_cons, List.not_mem_nil, or_false] at hi
    rcases hi with rfl | rfl | rfl <;> exact hg _
  have h3 : valueOf .uchar ['3'] = some (.fin 3) := by decide +kernel
  have n3 : natOf ['3'] = some 3 := by decide +kernel
  unfold faceTokens
  rw [readRow_list (t := .uchar) rfl h3 n3 (by simp [tri]) (xs := (tri is k).map fun (i : ℕ) => Fl.fin (i : ℚ))]
  · rw [List.drop_of_length_le (by simp [tri])]
    rfl
  · rw [List.take_of_length_le (by simp [tri])]
    exact mapM_some _ fun i hi => valueOf_int (ht i hi)

/-- A mesh whose lists have matching lengths. -/
structure Matching (m : Mesh) : Prop where
  normals : m.normals = [] ∨ m.normals.length = m.vertices.length
  colors : m.colors = [] ∨ m.colors.length = m.vertices.length
  triangles : 3 ∣ m.indices.length

/-- The normal of a vertex. -/
def normalAt (m : Mesh) (k : ℕ) : Vec3 Fl := m.normals.getD k ⟨.nan, .nan, .nan⟩
/-- The colour of a vertex. -/
def colorAt (m : Mesh) (k : ℕ) : Color := m.colors.getD k ⟨0, 0, 0, 0⟩

theorem vertexText_ok {m : Mesh} (hmn : m.normals = [] ∨ m.normals.length = m.vertices.length)
    (hmc : m.colors = [] ∨ m.colors.length = m.vertices.length) {k : ℕ} (hk : k < m.vertices.length) (v : Vec3 Fl) :
    vertexText m v k = .ok (vertexLine m (normalAt m k) (colorAt m k) v ++ ['\n']) := by
  unfold vertexText vertexLine
  have hn : normalPart m k = .ok (if m.normals.isEmpty then [] else ' ' :: vecText (normalAt m k)) := by
    unfold normalPart
    split_ifs with h
    · rfl
    · have : k < m.normals.length := by
        rcases hmn with e | e
        · rw [e] at h; exact absurd rfl h
        · omega
      rw [MeshOps.at_ok this]
      unfold normalAt
      rw [List.getD_eq_getElem _ _ this]
      rfl
  have hc : colorPart m k = .ok (if m.colors.isEmpty then [] else colorText (colorAt m k)) := by
    unfold colorPart
    split_ifs with h
    · rfl
    · have : k < m.colors.length := by
        rcases hmc with e | e
        · rw [e] at h; exact absurd rfl h
        · omega
      rw [MeshOps.at_ok this]
      unfold colorAt
      rw [List.getD_eq_getElem _ _ this]
      rfl
  rw [hn, hc]
  rfl

theorem meshText_ok {m : Mesh} (hm : Matching m) : meshText m = .ok (headerText m ++
    (m.vertices.zipIdx.flatMap (fun vk => vertexLine m (normalAt m vk.2) (colorAt m vk.2) vk.1 ++ ['\n']) ++
     (List.range (m.indices.length / 3)).flatMap fun k => faceLine m.indices k ++ ['\n'])) := by
  unfold meshText
  rw [foldlM_append (g := fun vk => vertexLine m (normalAt m vk.2) (colorAt m vk.2) vk.1 ++ ['\n']) _ (by
    intro vk hvk
    have := List.snd_lt_of_mem_zipIdx hvk
    exact vertexText_ok hm.normals hm.colors (by simpa using this) _)]
  obtain ⟨n, hn⟩ := hm.triangles
  have hl : (m.indices.length + 2) / 3 = m.indices.length / 3 := by omega
  have hf : facesText m = .ok ((List.range (m.indices.length / 3)).flatMap fun k => faceLine m.indices k ++ ['\n']) := by
    unfold facesText
    split_ifs with h
    · rw [List.isEmpty_iff] at h
      rw [h]
      rfl
    · rw [hl, foldlM_append (g := fun k => faceLine m.indices k ++ ['\n'])]
      · rfl
      intro k hk
      rw [List.mem_range] at hk
      exact faceText_ok (by omega)
  rw [hf]
  simp

/-- The content a reader finds. -/
def meshContent (m : Mesh) : Content :=
  (⟨"vertex".toList, m.vertices.length, vertexProps m⟩,
    m.vertices.zipIdx.map fun vk => (vertexEntries m (normalAt m vk.2) (colorAt m vk.2) vk.1).map fun a => [a.2.2]) ::
  (if m.indices.isEmpty then [] else
    [(⟨"face".toList, m.indices.length / 3, [faceProp]⟩, (List.range (m.indices.length / 3)).map fun k => [(tri m.indices k).map fun (i : ℕ) => .fin (i : ℚ)])])

theorem read_mesh {m : Mesh} (hi : ∀ i ∈ m.indices, i < 2 ^ 31) : readPly (headerText m ++
    (m.vertices.zipIdx.flatMap (fun vk => vertexLine m (normalAt m vk.2) (colorAt m vk.2) vk.1 ++ ['\n']) ++
     (List.range (m.indices.length / 3)).flatMap fun k => faceLine m.indices k ++ ['\n'])) = some (meshContent m) := by
  rw [read_header, rows_flatMap (ws := fun vk => (vertexEntries m (normalAt m vk.2) (colorAt m vk.2) vk.1).map (·.2.1))]
  swap
  · intro vk _
    refine ⟨_, rfl, vertexLine_line m _ _ _, ?_⟩
    intro e
    have := congrArg List.length e
    rw [List.length_map, ← List.length_map (·.1), entries_props] at this
    simp [vertexProps, positionProps] at this
  have hface : rows ((List.range (m.indices.length / 3)).flatMap fun k => faceLine m.indices k ++ ['\n']) =
      (List.range (m.indices.length / 3)).map (faceTokens m.indices) := by
    have := rows_flatMap (g := fun k => faceLine m.indices k ++ ['\n']) (ws := faceTokens m.indices) (List.range (m.indices.length / 3))
      (fun k _ => ⟨_, rfl, faceLine_line _ _, by simp [faceTokens]⟩) []
    rw [List.append_nil] at this
    rw [this]
    exact List.append_nil _
  rw [hface, readBody_cons (vs := m.vertices.zipIdx.map fun vk => (vertexEntries m (normalAt m vk.2) (colorAt m vk.2) vk.1).map fun a => [a.2.2]) (by simp)]
  swap
  · refine mapM_some _ fun vk _ => ?_
    rw [← entries_props m (normalAt m vk.2) (colorAt m vk.2) vk.1]
    exact readRow_scalars _ (entries_values _ _ _ _)
  unfold meshContent
  split_ifs with h
  · rw [List.isEmpty_iff] at h
    rw [h]
    rfl
  · have := readBody_cons (e := ⟨"face".toList, m.indices.length / 3, [faceProp]⟩) (es := []) (here := (List.range (m.indices.length / 3)).map (faceTokens m.indices))
      (rs := []) (vs := (List.range (m.indices.length / 3)).map fun k => [(tri m.indices k).map fun (i : ℕ) => .fin (i : ℚ)]) (by simp)
      (mapM_some _ fun k _ => readRow_face hi k)
    rw [List.append_nil] at this
    rw [this]
    rfl

/-! ### What a reader makes of numbers -/

theorem shown_neg {q : ℚ} (h : q < 0) : shown (.fin q) = .fin (-six (-q)) := by
  unfold shown
  dsimp only
  rw [if_neg h.ne, if_pos h]

theorem shown_pos {q : ℚ} (h : 0 < q) : shown (.fin q) = .fin (six q) := by
  unfold shown
  dsimp only
  rw [if_neg h.ne', if_neg h.le.not_gt]

theorem shown_zero : shown (.fin 0) = .fin 0 := by
  unfold shown
  dsimp only
  rw [if_pos rfl]

theorem shown_six : SixDigits shown := by
  refine ⟨rfl, rfl, rfl, ?_, ?_, ?_⟩
  · intro q
    rcases lt_trichotomy q 0 with h | h | h
    · refine ⟨_, shown_neg h, ?_⟩
      have := six_error (q := -q) (by linarith)
      rw [abs_of_neg h]
      have e : -six (-q) - q = -(six (-q) - -q) := by ring
      rw [e, abs_neg]
      exact this
    · subst h
      exact ⟨0, shown_zero, by norm_num⟩
    · refine ⟨_, shown_pos h, ?_⟩
      rw [abs_of_pos h]
      exact six_error h
  · intro k j hk
    have hp : (0 : ℚ) < 10 ^ j := by positivity
    rcases lt_trichotomy k 0 with h | h | h
    · have hneg : (k : ℚ) * 10 ^ j < 0 := mul_neg_of_neg_of_pos (by exact_mod_cast h) hp
      rw [shown_neg hneg]
      obtain ⟨n, hn⟩ : ∃ n : ℕ, k = -(n : ℤ) := ⟨k.natAbs, by omega⟩
      subst hn
      rw [abs_neg] at hk
      have e : -(((-(n : ℤ) : ℤ) : ℚ) * 10 ^ j) = (n : ℚ) * 10 ^ j := by push_cast; ring
      rw [e, six_exact (by rw [abs_of_nonneg (by omega)] at hk; exact_mod_cast hk) (by omega)]
      push_cast
      rw [neg_mul]
    · subst h
      simp only [Int.cast_zero, zero_mul]
      exact shown_zero
    · obtain ⟨n, rfl⟩ : ∃ n : ℕ, k = (n : ℤ) := ⟨k.natAbs, by omega⟩
      rw [abs_of_pos h] at hk
      have hn : 0 < n := by omega
      rw [Int.cast_natCast, shown_pos (mul_pos (by exact_mod_cast hn) hp), six_exact (by exact_mod_cast hk) hn]
  · intro q r a b hqr ha hb
    have hs : ∀ {x y}, shown (.fin x) = .fin y → 0 < x → 0 < y ∧ y = six x := by
      intro x y e h
      rw [shown_pos h] at e
      cases e
      exact ⟨six_pos h, rfl⟩
    have hn : ∀ {x y}, shown (.fin x) = .fin y → x < 0 → y < 0 ∧ y = -six (-x) := by
      intro x y e h
      rw [shown_neg h] at e
      cases e
      have := six_pos (q := -x) (by linarith)
      exact ⟨by linarith, rfl⟩
    have hz : ∀ {x y}, shown (.fin x) = .fin y → x = 0 → y = 0 := by
      intro x y e h
      subst h
      rw [shown_zero] at e
      cases e
      rfl
    rcases lt_trichotomy q 0 with h | h | h <;> rcases lt_trichotomy r 0 with h' | h' | h'
    · obtain ⟨_, rfl⟩ := hn ha h
      obtain ⟨_, rfl⟩ := hn hb h'
      have := six_mono (q := -r) (r := -q) (by linarith) (by linarith)
      linarith
    · have := hn ha h; have := hz hb h'; linarith
    · have := hn ha h; have := hs hb h'; linarith
    · linarith
    · have := hz ha h; have := hz hb h'; linarith
    · have := hz ha h; have := hs hb h'; linarith
    · linarith
    · linarith
    · obtain ⟨_, rfl⟩ := hs ha h
      obtain ⟨_, rfl⟩ := hs hb h'
      exact six_mono h hqr

/-! ### Columns -/

theorem column_first {α : Type} {e : Element} {ls : List (List (List Fl))} {c : Content} {p : String} {el : String} {k : ℕ} {f : α → List Fl} {L : List α}
    {row : α → List (List Fl)} (he : e.name = el.toList) (hk : e.props.findIdx? (fun q => q.name = p.toList) = some k) (hl : ls = L.map row)
    (hf : ∀ a, (row a)[k]? = some (f a)) : columnOf ((e, ls) :: c) el p = some (L.map f) := by
  unfold columnOf
  rw [List.find?_cons_of_pos (by simpa using he)]
  show (e.props.findIdx? _).bind _ = _
  rw [hk, Option.bind_some, hl]
  exact mapM_some (f := fun r : List (List Fl) => r[k]?) (g := row) (h := f) L fun a _ => hf a

theorem column_skip {e : Element} {ls : List (List (List Fl))} {c : Content} {p : String} {el : String} (he : e.name ≠ el.toList) :
    columnOf ((e, ls) :: c) el p = columnOf c el p := by
  unfold columnOf
  rw [List.find?_cons_of_neg (by simpa using he)]

theorem column_absent {e : Element} {ls : List (List (List Fl))} {c : Content} {p : String} {el : String} (he : e.name = el.toList)
    (hk : e.props.findIdx? (fun q => q.name = p.toList) = none) : columnOf ((e, ls) :: c) el p = none := by
  unfold columnOf
  rw [List.find?_cons_of_pos (by simpa using he)]
  show (e.props.findIdx? _).bind _ = _
  rw [hk]
  rfl

theorem zipIdx_fst {α β : Type} (L : List α) (f : α → β) : (L.zipIdx.map fun a => f a.1) = L.map f := by
  rw [show (fun a : α × ℕ => f a.1) = f ∘ Prod.fst from rfl, ← List.map_map]
  simp

theorem zipIdx_other {α β γ : Type} (L : List α) (R : List β) (d : β) (f : β → γ) (h : R.length = L.length) :
    (L.zipIdx.map fun a => f (R.getD a.2 d)) = R.map f := by
  refine List.ext_getElem (by simp [h]) fun k h1 h2 => ?_
  simp only [List.getElem_map, List.getElem_zipIdx, Nat.zero_add]
  rw [List.getD_eq_getElem _ _ (by simpa using h2)]

theorem tri_flatten (is : List ℕ) (n : ℕ) (h : is.length = 3 * n) : ((List.range n).map (tri is)).flatten = is := by
  induction n generalizing is with
  | zero =>
    have : is = [] := List.length_eq_zero_iff.1 (by omega)
    subst this
    rfl
  | succ n ih =>
    match is, h with
    | a :: b :: c :: is, h =>
      rw [List.range_succ_eq_map, List.map_cons, List.flatten_cons, List.map_map]
      have : (tri (a :: b :: c :: is) ∘ Nat.succ) = tri is := by
        funext k
        simp only [Function.comp, tri, Nat.succ_eq_add_one]
        have : 3 * (k + 1) = 3 * k + 1 + 1 + 1 := by ring
        rw [this]
        simp
      rw [this, ih is (by simp only [List.length_cons] at h; omega)]
      rfl

end Vox.Ply
