/-
The incremental writer of PLY files.
-/
import Verif.Lemmas.Ply

namespace Vox.Ply

open MC PlySpec

/-- A call of `writeVertex`, with or without the colour. -/
def Writer.one (col : Bool) (w : Writer) (p : Vec3 Fl × Color) : Bool × Writer := if col then w.vertexColor p.1 p.2 else w.vertex p.1

/-- Several calls: what each returns, and the writer. -/
def Writer.all (col : Bool) : List (Vec3 Fl × Color) → Writer → List Bool × Writer
  | [], w => ([], w)
  | p :: ps, w => ((w.one col p).1 :: (Writer.all col ps (w.one col p).2).1, (Writer.all col ps (w.one col p).2).2)

/-- The line written. -/
def pointLine (col : Bool) (p : Vec3 Fl × Color) : List Char :=
  vecText p.1 ++ (if col then ' ' :: (natText p.2.r.toNat ++ ' ' :: (natText p.2.g.toNat ++ ' ' :: natText p.2.b.toNat)) else [])

/-- A writer that has written its header and accepts vertices. -/
structure Ready (col : Bool) (w : Writer) : Prop where
  header : w.headerWritten = true
  stream : w.stream = .opened
  room : w.written < w.total
  kind : w.hasColor = col

theorem one_ready {col : Bool} {w : Writer} (h : Ready col w) (p : Vec3 Fl × Color) :
    w.one col p = (true, { w with file := w.file ++ (pointLine col p ++ ['\n']) }) := by
  have e : w.ensureHeader = (true, w) := by
    unfold Writer.ensureHeader
    rw [if_pos h.header]
  have hp : ∀ t, w.put t = { w with file := w.file ++ t } := by
    intro t
    unfold Writer.put
    rw [h.stream]
  have hr := h.room
  have hk := h.kind
  unfold Writer.one pointLine
  cases col with
  | false =>
    simp only [Bool.false_eq_true, if_false]
    unfold Writer.vertex
    rw [e]
    dsimp only
    rw [hp, List.append_nil]
    simp [hk, not_le.2 hr]
  | true =>
    simp only [if_true]
    unfold Writer.vertexColor
    rw [e]
    dsimp only
    rw [hp]
    simp [hk, not_le.2 hr]

theorem all_ready {col : Bool} (ps : List (Vec3 Fl × Color)) : ∀ {w : Writer}, Ready col w →
    w.all col ps = (List.replicate ps.length true, { w with file := w.file ++ ps.flatMap fun p => pointLine col p ++ ['\n'] }) := by
  induction ps with
  | nil => intro w _; simp [Writer.all]
  | cons p ps ih =>
    intro w h
    unfold Writer.all
    rw [one_ready h]
    dsimp only
    have h' : Ready col { w with file := w.file ++ (pointLine col p ++ ['\n']) } := ⟨h.header, h.stream, h.room, h.kind⟩
    rw [ih h']
    simp [List.replicate_succ]

/-- The header of the writer. -/
def headerFor (n : ℕ) (col : Bool) : List Char := Writer.headerText ⟨false, false, n, 0, col, .opened, []⟩

theorem all_new {col : Bool} {n : ℕ} (hn : 0 < n) {ps : List (Vec3 Fl × Color)} (hp : ps ≠ []) :
    ((Writer.new true).add n col).all col ps = (List.replicate ps.length true,
      ⟨true, true, n, 0, col, .opened, headerFor n col ++ ps.flatMap fun p => pointLine col p ++ ['\n']⟩) := by
  have h : Ready col ⟨true, true, n, 0, col, .opened, headerFor n col⟩ := ⟨rfl, rfl, hn, rfl⟩
  have e : ∀ p, ((Writer.new true).add n col).one col p = (⟨true, true, n, 0, col, .opened, headerFor n col⟩ : Writer).one col p := by
    intro p
    cases col <;> rfl
  match ps, hp with
  | p :: ps, _ =>
    have := all_ready (p :: ps) h
    unfold Writer.all at this ⊢
    rw [e]
    exact this

/-- The properties in the header. -/
def pointProps (col : Bool) : List Property := positionProps ++ (if col then [scalar "red" .uchar, scalar "green" .uchar, scalar "blue" .uchar] else [])

theorem read_headerFor (n : ℕ) (col : Bool) (t : List Char) :
    readPly (headerFor n col ++ t) = readBody [⟨"vertex".toList, n, pointProps col⟩] (rows t) := by
  have p : ∀ (s : String) (q : Property), ('\n' ∉ s.toList ∧ words s.toList = propRow q) → ∀ t, rows (line s ++ t) = propRow q :: rows t := by
    intro s q h t
    refine rows_line h ?_ t
    unfold propRow
    cases q.count <;> simp
  have ev : "element vertex ".toList = "element vertex".toList ++ [' '] := by decide +kernel
  have lv : Line "element vertex".toList ["element".toList, "vertex".toList] := ⟨by decide +kernel, by decide +kernel⟩
  have hc : ∀ t, rows ((if col then line "property uchar red" ++ line "property uchar green" ++ line "property uchar blue" else []) ++ t) =
      (if col then [scalar "red" .uchar, scalar "green" .uchar, scalar "blue" .uchar] else []).map propRow ++ rows t := by
    intro t
    split_ifs
    · simp only [List.append_assoc]
      rw [p _ (scalar "red" .uchar) (by decide +kernel), p _ (scalar "green" .uchar) (by decide +kernel), p _ (scalar "blue" .uchar) (by decide +kernel)]
      rfl
    · rfl
  have hr : rows (headerFor n col ++ t) = ["ply".toList] :: ["format".toList, "ascii".toList, "1.0".toList] ::
      ["element".toList, "vertex".toList, natText n] :: ((pointProps col).map propRow ++ (["end_header".toList] :: rows t)) := by
    unfold headerFor Writer.headerText
    dsimp only
    rw [ev]
    have assoc : ∀ a b c : List Char, a ++ b ++ c = a ++ (b ++ c) := List.append_assoc
    generalize hC : (if col then _ else []) = C at hc ⊢
    generalize hE : "element vertex".toList ++ [' '] ++ natText n ++ ['\n'] = E
    simp only [assoc]
    rw [rows_line (ws := ["ply".toList]) (by decide +kernel) (by simp), rows_line (ws := ["format".toList, "ascii".toList, "1.0".toList]) (by decide +kernel) (by simp),
      ← hE, element_line _ _ lv, p _ (scalar "x" .float) (by decide +kernel), p _ (scalar "y" .float) (by decide +kernel), p _ (scalar "z" .float) (by decide +kernel),
      hc, rows_line (ws := ["end_header".toList]) (by decide +kernel) (by simp)]
    unfold pointProps positionProps
    simp
  unfold readPly
  rw [hr]
  dsimp only
  rw [if_pos ⟨rfl, rfl⟩, header_element, header_props, header_end]
  rfl

/-- The entries of a line. -/
def pointEntries (col : Bool) (p : Vec3 Fl × Color) : List (Property × Token × Fl) :=
  vecEntries positionProps p.1 ++ (if col then (colorEntries p.2).take 3 else [])

theorem pointEntries_props (col : Bool) (p : Vec3 Fl × Color) : (pointEntries col p).map (·.1) = pointProps col := by
  cases col <;> rfl

theorem pointEntries_values (col : Bool) (p : Vec3 Fl × Color) : ∀ a ∈ pointEntries col p, a.1.count = none ∧ valueOf a.1.ty a.2.1 = some a.2.2 := by
  intro a ha
  have h := entries_values ⟨[], [], [], [p.2], true⟩ p.1 p.2 p.1 a
  have e : vertexEntries ⟨[], [], [], [p.2], true⟩ p.1 p.2 p.1 = vecEntries positionProps p.1 ++ colorEntries p.2 := rfl
  rw [e] at h
  apply h
  unfold pointEntries at ha
  rcases List.mem_append.1 ha with ha | ha
  · exact List.mem_append_left _ ha
  · split_ifs at ha
    · exact List.mem_append_right _ (List.mem_of_mem_take ha)
    · cases ha

theorem pointLine_line (col : Bool) (p : Vec3 Fl × Color) : Line (pointLine col p) ((pointEntries col p).map (·.2.1)) := by
  unfold pointLine pointEntries
  rw [List.map_append]
  have h := vecLine positionProps rfl p.1
  cases col with
  | false => simpa using h
  | true =>
    simp only [if_true]
    exact h.append ((Line.word (natText_clean _)).append ((Line.word (natText_clean _)).append (Line.word (natText_clean _))))

theorem read_points (n : ℕ) (col : Bool) (ps : List (Vec3 Fl × Color)) :
    readPly (headerFor n col ++ ps.flatMap fun p => pointLine col p ++ ['\n']) =
      if ps.length = n then some [(⟨"vertex".toList, n, pointProps col⟩, ps.map fun p => (pointEntries col p).map fun a => [a.2.2])] else none := by
  have hrow : rows (ps.flatMap fun p => pointLine col p ++ ['\n']) = ps.map fun p => (pointEntries col p).map (·.2.1) := by
    have := rows_flatMap (g := fun p => pointLine col p ++ ['\n']) (ws := fun p => (pointEntries col p).map (·.2.1)) ps
      (fun p _ => ⟨_, rfl, pointLine_line col p, by
        intro e
        have := congrArg List.length e
        rw [List.length_map, ← List.length_map (·.1), pointEntries_props] at this
        simp [pointProps, positionProps] at this⟩) []
    rw [List.append_nil] at this
    rw [this]
    exact List.append_nil _
  have hval : ∀ L : List (Vec3 Fl × Color), (L.map fun p => (pointEntries col p).map (·.2.1)).mapM (readRow (pointProps col)) =
      some (L.map fun p => (pointEntries col p).map fun a => [a.2.2]) := by
    intro L
    refine mapM_some _ fun p _ => ?_
    rw [← pointEntries_props col p]
    exact readRow_scalars _ (pointEntries_values col p)
  rw [read_headerFor, hrow]
  split_ifs with h
  · have := readBody_cons (e := ⟨"vertex".toList, n, pointProps col⟩) (es := []) (rs := []) (here := ps.map fun p => (pointEntries col p).map (·.2.1))
      (by simp [h]) (hval ps)
    rw [List.append_nil] at this
    rw [this]
    rfl
  · rw [readBody]
    by_cases hl : (ps.map fun p => (pointEntries col p).map (·.2.1)).length < n
    · rw [if_pos hl]
    · rw [if_neg hl, ← List.map_take, hval, ← List.map_drop]
      have hd : ps.drop n ≠ [] := by
        intro e
        have := congrArg List.length e
        rw [List.length_drop, List.length_nil] at this
        rw [List.length_map] at hl
        omega
      match hq : ps.drop n, hd with
      | a :: r, _ => rfl

end Vox.Ply
