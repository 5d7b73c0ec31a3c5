/-
Lemmas on the table of timers.
-/
import Verif.Model.TimingPrint
import Verif.Spec.TimingPrint
import Verif.Lemmas.Ply
import Verif.Props.Timing

namespace Vox.Timing

open TimingSpec PlySpec Ply

/-! ### Numbers -/

theorem micros_close (q : ℚ) : |(micros q : ℚ) / 1000000 - (|q|)| ≤ 1 / 2000000 := by
  have h0 : (0 : ℤ) ≤ Ieee.roundEven (|q| * 1000000) := Ieee.le_roundEven (by push_cast; positivity)
  have h := Ieee.roundEven_close (|q| * 1000000)
  have e : (micros q : ℚ) = (Ieee.roundEven (|q| * 1000000) : ℚ) := by
    unfold micros
    exact_mod_cast congrArg (Int.cast (R := ℚ)) (Int.toNat_of_nonneg h0)
  rw [← e] at h
  rw [abs_le] at h ⊢
  constructor <;> linarith [h.1, h.2]

/-- The digits behind the point. -/
def sixOf (m : ℕ) : List ℕ := [m / 100000 % 10, m / 10000 % 10, m / 1000 % 10, m / 100 % 10, m / 10 % 10, m % 10]

theorem sixOf_lt (m : ℕ) : ∀ d ∈ sixOf m, d < 10 := by
  intro d hd
  simp only [sixOf, List.mem_cons, List.not_mem_nil, or_false] at hd
  omega

theorem val_sixOf (m : ℕ) : val (sixOf m) = m % 1000000 := by
  simp only [val, sixOf, List.foldl_cons, List.foldl_nil]
  omega

/-- Zeros, an integer, a point and six digits are read as the number of millionths. -/
theorem fixed_value (k m : ℕ) : ∃ c r, List.replicate k '0' ++ (natText (m / 1000000) ++ '.' :: chars (sixOf m)) = c :: r ∧ (digit c).isSome ∧
    decimalOf (c :: r) = some ((m : ℚ) / 1000000) ∧ ∀ x ∈ c :: r, Numeric x := by
  obtain ⟨ds, h1, h2, h3, h4⟩ := natText_eq (m / 1000000)
  have hz : List.replicate k '0' ++ (natText (m / 1000000) ++ '.' :: chars (sixOf m)) = chars (List.replicate k 0 ++ ds) ++ '.' :: chars (sixOf m) := by
    rw [h1]
    simp [chars]
  have hl : ∀ d ∈ List.replicate k 0 ++ ds, d < 10 := by
    intro d hd
    rcases List.mem_append.1 hd with hd | hd
    · rw [List.eq_of_mem_replicate hd]; omega
    · exact h3 d hd
  have hne : List.replicate k 0 ++ ds ≠ [] := by simp [h2]
  obtain ⟨d, ds', hd⟩ := List.exists_cons_of_ne_nil hne
  refine ⟨Nat.digitChar d, chars ds' ++ '.' :: chars (sixOf m), ?_, ?_, ?_, ?_⟩
  · rw [hz, hd]; rfl
  · rw [digit_char (hl d (by rw [hd]; simp))]; rfl
  · have e : Nat.digitChar d :: (chars ds' ++ '.' :: chars (sixOf m)) = chars (List.replicate k 0 ++ ds) ++ '.' :: chars (sixOf m) := by
      rw [hd]; rfl
    rw [e]
    unfold decimalOf
    have he : 'e' ∉ chars (List.replicate k 0 ++ ds) ++ '.' :: chars (sixOf m) := by
      intro h
      rcases List.mem_append.1 h with h | h
      · exact not_mem_chars hl digit_e h
      · rcases List.mem_cons.1 h with h | h
        · revert h; decide
        · exact not_mem_chars (sixOf_lt m) digit_e h
    rw [cutAt_none he]
    dsimp only
    rw [cutAt_some (not_mem_chars hl digit_point)]
    dsimp only [Option.getD_some]
    have hc : chars (List.replicate k 0 ++ ds) ++ chars (sixOf m) = chars (List.replicate k 0 ++ ds ++ sixOf m) := by simp [chars]
    rw [hc, natOf_chars (by
      intro d hd
      rcases List.mem_append.1 hd with hd | hd
      · exact hl d hd
      · exact sixOf_lt m d hd) (by simp [h2])]
    have hv : val (List.replicate k 0 ++ ds ++ sixOf m) = m := by
      rw [val_append, val_append, val_zeros, h4, val_sixOf]
      show (0 * _ + m / 1000000) * 10 ^ 6 + _ = _
      omega
    rw [hv]
    show some ((m : ℚ) * 10 ^ ((0 : ℤ) - (6 : ℕ))) = _
    norm_num [zpow_neg]
    ring
  · intro x hx
    have hx' : x ∈ chars (List.replicate k 0 ++ ds) ++ '.' :: chars (sixOf m) := by
      rw [hd]; exact hx
    rcases List.mem_append.1 hx' with h | h
    · exact Or.inl (chars_digit hl h)
    · rcases List.mem_cons.1 h with h | h
      · exact Or.inr (Or.inl h)
      · exact Or.inl (chars_digit (sixOf_lt m) h)

/-- A number in its column: blanks and a word that is read as the number. -/
def Cell (l : List Char) (y : Fl) : Prop :=
  ∃ k w, l = List.replicate k ' ' ++ w ∧ Clean w ∧ '\t' ∉ w ∧ ',' ∉ w ∧ numberOf w = some y

theorem natText_length {n k : ℕ} (hk : 0 < k) (h : n < 10 ^ k) : (natText n).length ≤ k := by
  unfold natText
  split_ifs
  · exact hk
  · unfold chars
    rw [List.length_map, List.length_reverse]
    exact (Nat.digits_length_le_iff (by norm_num) n).2 h

theorem numeric_free {w : List Char} (h : ∀ c ∈ w, Numeric c) : '\t' ∉ w ∧ ',' ∉ w := by
  constructor
  · intro hm
    rcases h _ hm with h | h | h | h | h
    · exact absurd h (by decide)
    all_goals exact absurd h (by decide)
  · intro hm
    rcases h _ hm with h | h | h | h | h
    · exact absurd h (by decide)
    all_goals exact absurd h (by decide)

theorem timeString_cell {x : Fl} (hf : Fits x) : ∃ y, Cell (timeString x) y ∧ Shown x y := by
  cases x with
  | nan => exact ⟨.nan, ⟨6, "nan".toList, by decide, ⟨by decide, by decide, by decide⟩, by decide, by decide, rfl⟩, rfl⟩
  | pinf => exact ⟨.pinf, ⟨6, "inf".toList, by decide, ⟨by decide, by decide, by decide⟩, by decide, by decide, by decide⟩, rfl⟩
  | ninf => exact ⟨.ninf, ⟨5, "-inf".toList, by decide, ⟨by decide, by decide, by decide⟩, by decide, by decide, by decide⟩, rfl⟩
  | fin q =>
    have hm := micros_close q
    have hq := hf q rfl
    have hlen : (natText (micros q / 1000000)).length ≤ 247 := by
      apply natText_length (by norm_num)
      rw [Nat.div_lt_iff_lt_mul (by norm_num)]
      have h1 : (micros q : ℚ) < 10 ^ 247 * 1000000 := by
        rw [abs_le] at hm
        have := hm.2
        generalize (10 : ℚ) ^ 247 = B at hq ⊢
        linarith
      exact_mod_cast h1
    have hbody : (fixedText q).length ≤ 254 := by
      unfold fixedText lastSix chars
      rw [List.length_append, List.length_cons, List.length_map]
      simp only [List.length_cons, List.length_nil]
      omega
    have hs : (if q < 0 then ['-'] else []).length ≤ 1 := by split_ifs <;> simp
    have ht : timeString (.fin q) = zeroPadded (if q < 0 then ['-'] else []) (fixedText q) := by
      refine List.take_of_length_le ?_
      unfold zeroPadded
      rw [List.length_append, List.length_append, List.length_replicate]
      omega
    rw [ht]
    unfold zeroPadded fixedText
    obtain ⟨c, r, h1, h2, h3, h4⟩ := fixed_value (9 - ((if q < 0 then ['-'] else []).length + (fixedText q).length)) (micros q)
    unfold fixedText at h1
    unfold lastSix at h1 ⊢
    unfold sixOf at h1
    rw [h1]
    by_cases hn : q < 0
    · rw [if_pos hn]
      have hnum : ∀ x ∈ '-' :: c :: r, Numeric x := by
        intro x hx
        rcases List.mem_cons.1 hx with rfl | hx
        · exact Or.inr (Or.inr (Or.inr (Or.inl rfl)))
        · exact h4 x hx
      refine ⟨.fin (-((micros q : ℚ) / 1000000)), ⟨0, '-' :: c :: r, rfl, numeric_clean (by simp) hnum, (numeric_free hnum).1, (numeric_free hnum).2, ?_⟩,
        -(micros q : ℤ), ?_, ?_⟩
      · rw [number_minus h2, h3]; rfl
      · push_cast; rw [neg_div]
      · rw [abs_of_neg hn] at hm
        push_cast
        rw [abs_le] at hm ⊢
        constructor <;> linarith [hm.1, hm.2]
    · rw [if_neg hn]
      refine ⟨.fin ((micros q : ℚ) / 1000000), ⟨0, c :: r, rfl, numeric_clean (by simp) h4, (numeric_free h4).1, (numeric_free h4).2, ?_⟩,
        (micros q : ℤ), ?_, ?_⟩
      · rw [number_digit h2, h3]; rfl
      · push_cast; rfl
      · rw [abs_of_nonneg (not_lt.1 hn)] at hm
        push_cast
        exact hm

/-! ### Cells -/

theorem words_blanks (k : ℕ) (l : List Char) : words (List.replicate k ' ' ++ l) = words l := by
  induction k with
  | zero => rfl
  | succ k ih =>
    rw [List.replicate_succ, List.cons_append]
    unfold words at ih ⊢
    rw [pieces, if_pos rfl]
    rw [List.filter_cons_of_neg (by simp)]
    exact ih

theorem words_append (a b : List Char) : words (a ++ ' ' :: b) = words a ++ words b := by
  unfold words
  rw [pieces_append, List.filter_append]

theorem words_word {w : List Char} (h : Clean w) : words w = [w] := (Line.word h).words

theorem Cell.words {l : List Char} {y : Fl} (h : Cell l y) : ∃ w, words l = [w] ∧ numberOf w = some y := by
  obtain ⟨k, w, rfl, hc, -, -, hn⟩ := h
  exact ⟨w, by rw [words_blanks, words_word hc], hn⟩

theorem Cell.read {l : List Char} {y : Fl} (h : Cell l y) : readNumber l = some y := by
  obtain ⟨w, h1, h2⟩ := h.words
  unfold readNumber
  rw [h1]
  exact h2

theorem Cell.free {l : List Char} {y : Fl} (h : Cell l y) : '\t' ∉ l ∧ '\n' ∉ l ∧ ',' ∉ l := by
  obtain ⟨k, w, rfl, hc, h1, h2, -⟩ := h
  have : ∀ c : Char, c ≠ ' ' → c ∉ w → c ∉ List.replicate k ' ' ++ w := by
    intro c hn hw hm
    rcases List.mem_append.1 hm with hm | hm
    · exact hn (List.eq_of_mem_replicate hm)
    · exact hw hm
  exact ⟨this _ (by decide) h1, this _ (by decide) hc.newline, this _ (by decide) h2⟩

theorem inside_eq (a b : Char) (t : List Char) : inside a b (a :: (t ++ [b])) = some t := by
  unfold inside
  simp

theorem readSpread_eq {a b : List Char} {x y : Fl} (ha : Cell a x) (hb : Cell b y) :
    readSpread (a ++ " +- ".toList ++ b) = some (x, y) := by
  obtain ⟨u, h1, h2⟩ := ha.words
  obtain ⟨v, h3, h4⟩ := hb.words
  have : words (a ++ " +- ".toList ++ b) = [u, "+-".toList, v] := by
    have e : a ++ " +- ".toList ++ b = a ++ ' ' :: ("+-".toList ++ ' ' :: b) := by
      rw [show " +- ".toList = [' ', '+', '-', ' '] from rfl, show "+-".toList = ['+', '-'] from rfl]
      simp
    rw [e, words_append, words_append, h1, h3]
    rfl
  unfold readSpread
  rw [this]
  dsimp only
  rw [if_pos rfl, h2, h4]
  rfl

theorem readRange_eq {a b : List Char} {x y : Fl} (ha : Cell a x) (hb : Cell b y) : readRange (a ++ ',' :: b) = some (x, y) := by
  unfold readRange
  rw [pieces_append, pieces_none ha.free.2.2, pieces_none hb.free.2.2]
  dsimp only [List.singleton_append]
  rw [ha.read, hb.read]
  rfl

/-- The cells with the statistics of a line. -/
def spreadCell (b c : List Char) : List Char := '(' :: (b ++ " +- ".toList ++ c ++ [')'])

def rangeCell (d e : List Char) : List Char := '[' :: (d ++ ',' :: e ++ [']'])

theorem readStats_three (a b c : List Char) : readStats [a, b, c] = (readNumber a).bind fun total =>
    ((inside '(' ')' b).bind readSpread).bind fun ms => ((inside '[' ']' c).bind readRange).bind fun mm =>
      some (some (total, ms.1, ms.2, mm.1, mm.2)) := by
  cases a <;> rfl

theorem readStats_eq {a b c d e : List Char} {u v w x y : Fl} (ha : Cell a u) (hb : Cell b v) (hc : Cell c w) (hd : Cell d x) (he : Cell e y) :
    readStats [a, spreadCell b c, rangeCell d e] = some (some (u, v, w, x, y)) := by
  rw [readStats_three]
  unfold spreadCell rangeCell
  rw [inside_eq, inside_eq, ha.read]
  simp only [Option.bind_some]
  rw [readSpread_eq hb hc, readRange_eq hd he]
  rfl

theorem spread_free {b c : List Char} {v w : Fl} (hb : Cell b v) (hc : Cell c w) : '\t' ∉ spreadCell b c ∧ '\n' ∉ spreadCell b c := by
  have h1 := hb.free
  have h2 := hc.free
  unfold spreadCell
  rw [show " +- ".toList = [' ', '+', '-', ' '] from rfl]
  constructor <;> simp_all

theorem range_free {b c : List Char} {v w : Fl} (hb : Cell b v) (hc : Cell c w) : '\t' ∉ rangeCell b c ∧ '\n' ∉ rangeCell b c := by
  have h1 := hb.free
  have h2 := hc.free
  unfold rangeCell
  constructor <;> simp_all

theorem trimEnd_eq {l : List Char} (h : l.getLast? ≠ some ' ') (k : ℕ) : trimEnd (l ++ List.replicate k ' ') = l := by
  unfold trimEnd
  rw [List.reverse_append, List.reverse_replicate]
  have h1 : ∀ k, (List.replicate k ' ' ++ l.reverse).dropWhile (· = ' ') = l.reverse.dropWhile (· = ' ') := by
    intro k
    induction k with
    | zero => rfl
    | succ k ih => rw [List.replicate_succ, List.cons_append, List.dropWhile_cons_of_pos (by simp), ih]
  rw [h1]
  rcases List.eq_nil_or_concat l with rfl | ⟨m, c, rfl⟩
  · rfl
  · rw [List.concat_eq_append] at h ⊢
    rw [List.getLast?_concat] at h
    rw [List.reverse_concat, List.dropWhile_cons_of_neg (by simpa using h)]
    simp

theorem count_words (n : ℕ) : words (countText n) = [natText n] := by
  unfold countText
  rw [words_blanks, words_word (natText_clean n)]

theorem count_free (n : ℕ) : '\t' ∉ countText n ∧ '\n' ∉ countText n := by
  obtain ⟨ds, h1, h2, h3, h4⟩ := natText_eq n
  have : ∀ c : Char, c ≠ ' ' → digit c = none → c ∉ countText n := by
    intro c hn hd hm
    unfold countText at hm
    rcases List.mem_append.1 hm with hm | hm
    · exact hn (List.eq_of_mem_replicate hm)
    · rw [h1] at hm
      exact not_mem_chars h3 hd hm
  exact ⟨this _ (by decide) (by decide), this _ (by decide) (by decide)⟩

theorem tag_free {tag : String} (h : Tidy tag) (k : ℕ) : '\t' ∉ tag.toList ++ List.replicate k ' ' ∧ '\n' ∉ tag.toList ++ List.replicate k ' ' := by
  have h1 := h.tab
  have h2 := h.newline
  constructor <;> simp_all

/-- A line without statistics. -/
theorem readLine_empty {tag : String} (h : Tidy tag) (k : ℕ) :
    readLine (tag.toList ++ List.replicate k ' ' ++ '\t' :: (countText 0 ++ '\t' :: [])) = some ⟨tag.toList, 0, none⟩ := by
  unfold readLine
  rw [pieces_append, pieces_append, pieces_none (tag_free h k).1, pieces_none (count_free 0).1]
  dsimp only [List.singleton_append, pieces]
  rw [count_words]
  dsimp only
  rw [natOf_natText, trimEnd_eq h.last]
  rfl

/-- A line with statistics. -/
theorem readLine_full {tag : String} (h : Tidy tag) (k n : ℕ) {a b c d e : List Char} {u v w x y : Fl} (ha : Cell a u) (hb : Cell b v)
    (hc : Cell c w) (hd : Cell d x) (he : Cell e y) :
    readLine (tag.toList ++ List.replicate k ' ' ++ '\t' :: (countText n ++ '\t' :: (a ++ '\t' :: (spreadCell b c ++ '\t' :: rangeCell d e)))) =
      some ⟨tag.toList, n, some (u, v, w, x, y)⟩ := by
  unfold readLine
  rw [pieces_append, pieces_append, pieces_append, pieces_append, pieces_none (tag_free h k).1, pieces_none (count_free n).1,
    pieces_none ha.free.1, pieces_none (spread_free hb hc).1, pieces_none (range_free hd he).1]
  dsimp only [List.singleton_append]
  rw [count_words]
  dsimp only
  rw [natOf_natText, trimEnd_eq h.last, readStats_eq ha hb hc hd he]
  rfl

/-! ### The table -/

theorem readTable_lines {α : Type} (L : List α) (g : α → List Char) (row : α → Row) (h : ∀ a ∈ L, '\n' ∉ g a ∧ readLine (g a) = some (row a)) :
    readTable ("SM Timing\n".toList ++ "-----------\n".toList ++ L.flatMap fun a => g a ++ ['\n']) = some (L.map row) := by
  have hp : ∀ L : List α, (∀ a ∈ L, '\n' ∉ g a) → pieces '\n' (L.flatMap fun a => g a ++ ['\n']) = L.map g ++ [[]] := by
    intro L
    induction L with
    | nil => intro _; rfl
    | cons a L ih =>
      intro h
      rw [List.flatMap_cons, List.append_assoc, List.singleton_append, pieces_append, pieces_none (h a (by simp)), ih fun b hb => h b (by simp [hb])]
      rfl
  have e : "SM Timing\n".toList ++ "-----------\n".toList ++ (L.flatMap fun a => g a ++ ['\n']) =
      "SM Timing".toList ++ '\n' :: ("-----------".toList ++ '\n' :: L.flatMap fun a => g a ++ ['\n']) := by
    rw [show "SM Timing\n".toList = "SM Timing".toList ++ ['\n'] by decide, show "-----------\n".toList = "-----------".toList ++ ['\n'] by decide]
    simp only [List.append_assoc, List.cons_append, List.nil_append]
  unfold readTable
  rw [e, if_neg (by simp), pieces_append, pieces_append, pieces_none (by decide), pieces_none (by decide), hp L fun a ha => (h a ha).1]
  dsimp only [List.singleton_append]
  rw [if_pos ⟨rfl, rfl, by simp⟩, List.dropLast_concat]
  exact mapM_some (f := readLine) (g := g) (h := row) L fun a ha => (h a ha).2

end Vox.Timing
