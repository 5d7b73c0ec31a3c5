/-
C78: the incremental writer of PLY files.
-/
import Verif.Lemmas.PlyWriter

namespace Vox.Ply

open MC PlySpec

/-- A writer that is told the number and kind of the vertices and then is given that many produces a file that reads back: positions to six
digits, colours exactly. Every call reports success. -/
theorem C78_roundtrip (col : Bool) {ps : List (Vec3 Fl × Color)} (hp : ps ≠ []) :
    ∃ c sh, (((Writer.new true).add ps.length col).all col ps).1 = List.replicate ps.length true ∧
      readPly (((Writer.new true).add ps.length col).all col ps).2.close.file = some c ∧ SixDigits sh ∧
      columnOf c "vertex" "x" = some (ps.map fun p => [sh p.1.x]) ∧
      columnOf c "vertex" "y" = some (ps.map fun p => [sh p.1.y]) ∧
      columnOf c "vertex" "z" = some (ps.map fun p => [sh p.1.z]) ∧
      columnOf c "vertex" "red" = (if col then some (ps.map fun p => [.fin p.2.r.toNat]) else none) ∧
      columnOf c "vertex" "green" = (if col then some (ps.map fun p => [.fin p.2.g.toNat]) else none) ∧
      columnOf c "vertex" "blue" = (if col then some (ps.map fun p => [.fin p.2.b.toNat]) else none) := by
  have hl : 0 < ps.length := List.length_pos_of_ne_nil hp
  have e := read_points ps.length col ps
  rw [if_pos rfl] at e
  rw [all_new hl hp]
  refine ⟨_, shown, rfl, e, shown_six, ?_⟩
  cases col with
  | false =>
    have h : ∀ (s : String) (k : ℕ), (pointProps false).findIdx? (fun q => q.name = s.toList) = some k → ∀ f : Vec3 Fl × Color → List Fl,
        (∀ p, ((pointEntries false p).map fun a => [a.2.2])[k]? = some (f p)) →
        columnOf [(⟨"vertex".toList, ps.length, pointProps false⟩, ps.map fun p => (pointEntries false p).map fun a => [a.2.2])] "vertex" s = some (ps.map f) :=
      fun s k hk f hf => column_first rfl hk rfl hf
    have h' : ∀ (s : String), (pointProps false).findIdx? (fun q => q.name = s.toList) = none →
        columnOf [(⟨"vertex".toList, ps.length, pointProps false⟩, ps.map fun p => (pointEntries false p).map fun a => [a.2.2])] "vertex" s = none :=
      fun s hs => column_absent rfl hs
    exact ⟨h _ 0 (by decide +kernel) _ fun _ => rfl, h _ 1 (by decide +kernel) _ fun _ => rfl, h _ 2 (by decide +kernel) _ fun _ => rfl,
      h' _ (by decide +kernel), h' _ (by decide +kernel), h' _ (by decide +kernel)⟩
  | true =>
    have h : ∀ (s : String) (k : ℕ), (pointProps true).findIdx? (fun q => q.name = s.toList) = some k → ∀ f : Vec3 Fl × Color → List Fl,
        (∀ p, ((pointEntries true p).map fun a => [a.2.2])[k]? = some (f p)) →
        columnOf [(⟨"vertex".toList, ps.length, pointProps true⟩, ps.map fun p => (pointEntries true p).map fun a => [a.2.2])] "vertex" s = some (ps.map f) :=
      fun s k hk f hf => column_first rfl hk rfl hf
    exact ⟨h _ 0 (by decide +kernel) _ fun _ => rfl, h _ 1 (by decide +kernel) _ fun _ => rfl, h _ 2 (by decide +kernel) _ fun _ => rfl,
      h _ 3 (by decide +kernel) _ fun _ => rfl, h _ 4 (by decide +kernel) _ fun _ => rfl, h _ 5 (by decide +kernel) _ fun _ => rfl⟩

/-- Two points. -/
def points : List (Vec3 Fl × Color) := [(⟨.fin 1, .fin 2, .fin (-1 / 8)⟩, ⟨1, 2, 3, 4⟩), (⟨.fin 0, .nan, .fin (1 / 3)⟩, ⟨255, 0, 255, 0⟩)]

example : points ≠ [] ∧ (((Writer.new true).add 2 true).all true points).2.close.file =
    line "ply" ++ line "format ascii 1.0" ++ line "element vertex 2" ++ line "property float x" ++ line "property float y" ++ line "property float z" ++
    line "property uchar red" ++ line "property uchar green" ++ line "property uchar blue" ++ line "end_header" ++
    line "1 2 -0.125 1 2 3" ++ line "0 nan 0.333333 255 0 255" := by decide +kernel

/-- Full statement: no more vertices than declared are accepted. The count of written vertices is never advanced, so all are accepted; the file
can be read exactly if the declared number was written. -/
theorem C78_count_partial {n : ℕ} (hn : 0 < n) (col : Bool) {ps : List (Vec3 Fl × Color)} (hp : ps ≠ []) :
    (∀ r ∈ (((Writer.new true).add n col).all col ps).1, r = true) ∧
    ((readPly (((Writer.new true).add n col).all col ps).2.close.file).isSome ↔ ps.length = n) := by
  rw [all_new hn hp]
  refine ⟨fun r hr => List.eq_of_mem_replicate hr, ?_⟩
  show (readPly (headerFor n col ++ ps.flatMap fun p => pointLine col p ++ ['\n'])).isSome ↔ _
  rw [read_points]
  split_ifs with h
  · exact ⟨fun _ => h, fun _ => rfl⟩
  · exact ⟨fun h' => (by cases h'), fun h' => absurd h' h⟩

/-- A second vertex is accepted though one was declared, and the file cannot be read. -/
theorem C78_count_violated : ∃ ps : List (Vec3 Fl × Color), ps.length = 2 ∧ (((Writer.new true).add 1 true).all true ps).1 = [true, true] ∧
    readPly (((Writer.new true).add 1 true).all true ps).2.close.file = none :=
  ⟨points, by decide +kernel⟩

/-- Nothing is written and every call fails while the number of vertices is not declared or the file could not be opened. -/
theorem C78_refused (w : Writer) (hw : w.headerWritten = false) (h : w.parametersSet = false ∨ w.stream = .failed) (col : Bool) (p : Vec3 Fl × Color) :
    w.writeHeader = (false, w) ∧ w.one col p = (false, w) := by
  have e : w.writeHeader = (false, w) := by
    unfold Writer.writeHeader
    split_ifs with h1 h2 h3 <;> first | rfl | skip
    rcases h with h | h
    · rw [h] at h2; exact absurd rfl h2
    · exact absurd h h1
  refine ⟨e, ?_⟩
  have e' : w.ensureHeader = (false, w) := by
    unfold Writer.ensureHeader
    rw [hw, if_neg (by simp), e]
  unfold Writer.one
  split_ifs
  · unfold Writer.vertexColor
    rw [e']
    rfl
  · unfold Writer.vertex
    rw [e']
    rfl

example : (Writer.new true).headerWritten = false ∧ (Writer.new true).parametersSet = false ∧ (Writer.new false).stream = .failed := ⟨rfl, rfl, rfl⟩

/-- A vertex of the other kind is refused: the file holds the header at most. -/
theorem C78_kind {n : ℕ} (col : Bool) (p : Vec3 Fl × Color) (w : Writer) (hw : w = (Writer.new true).add n col) :
    (w.one (!col) p).1 = false ∧ (w.one (!col) p).2.file = w.headerText := by
  subst hw
  cases col
  · unfold Writer.one Writer.vertexColor
    simp [Writer.ensureHeader, Writer.writeHeader, Writer.new, Writer.add, Writer.put, Writer.headerText]
  · unfold Writer.one Writer.vertex
    simp [Writer.ensureHeader, Writer.writeHeader, Writer.new, Writer.add, Writer.put, Writer.headerText]

/-- The header is written once: a second call is refused and changes nothing. -/
theorem C78_header_once (w : Writer) : (w.writeHeader.1 = true → w.writeHeader.2.writeHeader = (false, w.writeHeader.2)) ∧
    (w.headerWritten = true → w.writeHeader = (false, w)) := by
  have h2 : ∀ w : Writer, w.headerWritten = true → w.writeHeader = (false, w) := by
    intro w hw
    unfold Writer.writeHeader
    split_ifs <;> rfl
  refine ⟨fun h => h2 _ ?_, h2 w⟩
  unfold Writer.writeHeader at h ⊢
  split_ifs at h ⊢
  rfl

example : ((Writer.new true).add 2 true).writeHeader.1 = true := by decide +kernel

/-- After the file is closed vertices are still reported as written, though the file does not change. -/
theorem C78_closed_violated : ∃ (w : Writer) (v : Vec3 Fl), w.stream = .closed ∧ (w.vertex v).1 = true ∧ (w.vertex v).2.file = w.file ∧
    ((w.vertex v).2.vertex v).1 = true ∧ readPly ((w.vertex v).2.vertex v).2.file = none :=
  ⟨(((Writer.new true).add 1 false).writeHeader.2).close, ⟨.fin 1, .fin 2, .fin 3⟩, by decide +kernel⟩

/-- Without a vertex and without an explicit call the header is never written: the file of zero vertices cannot be read. -/
theorem C78_empty_violated : readPly (((Writer.new true).add 0 false).all false []).2.close.file = none ∧
    (readPly (((Writer.new true).add 0 false).writeHeader.2).close.file).isSome := by decide +kernel

end Vox.Ply
