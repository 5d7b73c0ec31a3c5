/-
C128: the printed table of timers.
-/
import Verif.Lemmas.TimingPrint

namespace Vox.Timing

open TimingSpec PlySpec Ply

/-- A row tells what the queries for the tag answer: its name, the number of samples recorded for it, and unless there are none the total, the mean,
the root of the variance, the smallest and the largest, each with six decimals. -/
structure Describes (A : Arith) (es : List Event) (r : Registry) (tag : String) (row : Row) : Prop where
  name : row.tag = tag.toList
  asked : r.numSamples (r.getHandle tag).1 = .ok row.count
  count : row.count = (recorded es (r.getHandle tag).1).length
  none : row.stats = none ↔ row.count = 0
  stats : ∀ t m d lo hi, row.stats = some (t, m, d, lo, hi) →
    (∃ x, r.totalSeconds (r.getHandle tag).1 = .ok x ∧ Shown x t) ∧ (∃ x, r.meanSeconds A (r.getHandle tag).1 = .ok x ∧ Shown x m) ∧
    (∃ x, r.varianceSeconds A (r.getHandle tag).1 = .ok x ∧ Shown (A.sqrtFl x) d) ∧
    (∃ x, r.minSeconds (r.getHandle tag).1 = .ok x ∧ Shown x lo) ∧ (∃ x, r.maxSeconds (r.getHandle tag).1 = .ok x ∧ Shown x hi)

/-- The statistics of a timer fit into the buffer. -/
def AllFit (A : Arith) (a : Acc) : Prop :=
  Fits a.sum ∧ Fits (a.mean A) ∧ Fits (A.sqrtFl (a.lazyVariance A kWindow)) ∧ Fits a.min ∧ Fits a.max

instance (A : Arith) (a : Acc) : Decidable (AllFit A a) := by
  unfold AllFit
  infer_instance

theorem addAll_count {A : Arith} {n : ℕ} (ss : List Fl) : ∀ {a b : Acc}, addAll A n a ss = .ok b → b.totalSamples = a.totalSamples + ss.length := by
  induction ss with
  | nil =>
    intro a b h
    cases h
    rfl
  | cons s ss ih =>
    intro a b h
    unfold addAll at h
    rw [List.foldlM_cons, Outcome.bind_eq_ok] at h
    obtain ⟨c, h1, h2⟩ := h
    rw [ih h2]
    unfold Acc.add at h1
    split_ifs at h1
    all_goals
      cases h1
      simp
      omega

theorem tags_known {A : Arith} {es : List Event} : ∀ {r : Registry}, run A es = .ok r → r.tags.map (·.1) = known es := by
  induction es using List.reverseRecOn with
  | nil =>
    intro r h
    cases h
    rfl
  | append_singleton es e ih =>
    intro r h
    obtain ⟨r', h1, h2⟩ := run_snoc h
    have hi := ih h1
    unfold known at hi ⊢
    rw [List.foldl_append, ← hi]
    cases e with
    | lookup tag =>
      cases h2
      show _ = if _ then _ else _
      unfold Registry.getHandle
      cases hl : r'.tags.lookup tag with
      | some k => rw [if_pos (List.mem_map.2 ⟨_, lookup_some hl, rfl⟩)]
      | none => rw [if_neg (lookup_none hl)]; rfl
    | record k s =>
      obtain ⟨-, a, -, rfl⟩ := addTime_ok h2
      rfl
    | forget =>
      cases h2
      rfl

/-- A line of the table without its end. -/
def lineText (A : Arith) (r : Registry) (e : String × ℕ) : List Char :=
  let a := r.timers.getD e.2 Acc.new
  tagText r e.1 ++ '\t' :: (countText a.totalSamples ++ '\t' :: (if 0 < a.totalSamples then timeString a.sum ++ '\t' ::
    (spreadCell (timeString (a.mean A)) (timeString (A.sqrtFl (a.lazyVariance A kWindow))) ++ '\t' :: rangeCell (timeString a.min) (timeString a.max)) else []))

theorem timer_valid {r : Registry} {h : ℕ} (hh : h < r.timers.length) : r.timer h = .ok (r.timers.getD h Acc.new) := by
  unfold Registry.timer
  rw [List.getD_eq_getElem?_getD, List.getElem?_eq_getElem hh]
  rfl

theorem rowText_eq (A : Arith) {r : Registry} {e : String × ℕ} (hh : e.2 < r.timers.length) : rowText A r e = .ok (lineText A r e ++ ['\n']) := by
  have ht := timer_valid hh
  unfold rowText Registry.numSamples
  rw [ht]
  show (if 0 < (r.timers.getD e.2 Acc.new).totalSamples then statsText A r e.2 else .ok []).bind _ = _
  unfold lineText
  dsimp only
  split_ifs with hn
  · unfold statsText Registry.totalSeconds Registry.meanSeconds Registry.varianceSeconds Registry.minSeconds Registry.maxSeconds
    rw [ht]
    show Outcome.ok _ = _
    unfold spreadCell rangeCell
    simp
  · show Outcome.ok _ = _
    simp

theorem print_eq {A : Arith} {r : Registry} (hs : Sound r) (hne : r.tags ≠ []) :
    r.print A = .ok ("SM Timing\n".toList ++ "-----------\n".toList ++ r.ordered.flatMap fun e => lineText A r e ++ ['\n']) := by
  unfold Registry.print
  rw [if_neg hne]
  exact foldlM_append _ (fun e he => rowText_eq A (hs.valid e ((List.perm_insertionSort _ _).mem_iff.1 he))) _

theorem handle_of {r : Registry} (hs : Sound r) {e : String × ℕ} (he : e ∈ r.tags) : (r.getHandle e.1).1 = e.2 := by
  rw [getHandle_found (lookup_mem hs.keys he)]

theorem line_read {A : Arith} {es : List Event} {r : Registry} (h : run A es = .ok r) {e : String × ℕ} (he : e ∈ r.tags) (ht : Tidy e.1)
    (hf : 0 < (r.timers.getD e.2 Acc.new).totalSamples → AllFit A (r.timers.getD e.2 Acc.new)) :
    '\n' ∉ lineText A r e ∧ ∃ row, readLine (lineText A r e) = some row ∧ Describes A es r e.1 row := by
  have hs := run_sound h
  have hv := hs.valid e he
  have htm := timer_valid hv
  have hh := handle_of hs he
  have hcount : (r.timers.getD e.2 Acc.new).totalSamples = (recorded es e.2).length := by
    have := addAll_count _ (C79_recorded h e.2 hv).1
    rw [List.getD_eq_getElem?_getD, List.getElem?_eq_getElem hv]
    simpa [Acc.new] using this
  unfold lineText tagText
  dsimp only
  generalize r.timers.getD e.2 Acc.new = a at hf htm hcount ⊢
  by_cases hn : 0 < a.totalSamples
  · rw [if_pos hn]
    obtain ⟨f1, f2, f3, f4, f5⟩ := hf hn
    obtain ⟨y1, c1, s1⟩ := timeString_cell f1
    obtain ⟨y2, c2, s2⟩ := timeString_cell f2
    obtain ⟨y3, c3, s3⟩ := timeString_cell f3
    obtain ⟨y4, c4, s4⟩ := timeString_cell f4
    obtain ⟨y5, c5, s5⟩ := timeString_cell f5
    refine ⟨?_, _, readLine_full ht _ _ c1 c2 c3 c4 c5, ⟨rfl, ?_, ?_, ?_, ?_⟩⟩
    · have g1 := (tag_free ht (r.maxTagLength - e.1.utf8ByteSize)).2
      have g2 := (count_free a.totalSamples).2
      have g3 := c1.free.2.1
      have g4 := (spread_free c2 c3).2
      have g5 := (range_free c4 c5).2
      intro hm
      simp only [List.mem_append, List.mem_cons] at hm g1
      rcases hm with hm | hm | hm | hm | hm | hm | hm | hm
      · exact g1 hm
      · exact absurd hm (by decide)
      · exact g2 hm
      · exact absurd hm (by decide)
      · exact g3 hm
      · exact absurd hm (by decide)
      · exact g4 hm
      · rcases hm with hm | hm
        · exact absurd hm (by decide)
        · exact g5 hm
    · rw [hh]
      unfold Registry.numSamples
      rw [htm]
      rfl
    · rw [hh]
      exact hcount
    · simp
      omega
    · rw [hh]
      rintro t m d lo hi he
      cases he
      unfold Registry.totalSeconds Registry.meanSeconds Registry.varianceSeconds Registry.minSeconds Registry.maxSeconds
      rw [htm]
      exact ⟨⟨_, rfl, s1⟩, ⟨_, rfl, s2⟩, ⟨_, rfl, s3⟩, ⟨_, rfl, s4⟩, ⟨_, rfl, s5⟩⟩
  · have h0 : a.totalSamples = 0 := by omega
    rw [if_neg hn, h0]
    refine ⟨?_, _, readLine_empty ht _, ⟨rfl, ?_, ?_, by simp, by simp⟩⟩
    · have g1 := (tag_free ht (r.maxTagLength - e.1.utf8ByteSize)).2
      have g2 := (count_free 0).2
      intro hm
      simp only [List.mem_append, List.mem_cons, List.not_mem_nil, or_false] at hm g1
      rcases hm with hm | hm | hm | hm
      · exact g1 hm
      · exact absurd hm (by decide)
      · exact g2 hm
      · exact absurd hm (by decide)
    · rw [hh]
      unfold Registry.numSamples
      rw [htm]
      exact congrArg Outcome.ok h0
    · rw [hh]
      exact h0.symm.trans hcount

/-- After any history the printed table can be read back: a row for every tag looked up since everything was last forgotten, in alphabetical order,
each with the number of its samples and its statistics. -/
theorem C128_table {A : Arith} {es : List Event} {r : Registry} (h : run A es = .ok r) (ht : ∀ t ∈ known es, Tidy t) 
    (hf : ∀ a ∈ r.timers, 0 < a.totalSamples → AllFit A a) :
    ∃ text tags rows, r.print A = .ok text ∧ readTable text = some rows ∧ tags.Pairwise (· < ·) ∧ (∀ t, t ∈ tags ↔ t ∈ known es) ∧
      List.Forall₂ (Describes A es r) tags rows := by
  have hs := run_sound h
  have hk := tags_known h
  by_cases hne : r.tags = []
  · rw [hne] at hk
    refine ⟨[], [], [], ?_, rfl, List.Pairwise.nil, ?_, List.Forall₂.nil⟩
    · unfold Registry.print
      rw [if_pos hne]
    · rw [← hk]
      simp
  · have hp : r.ordered.Perm r.tags := List.perm_insertionSort _ _
    have hl : ∀ e ∈ r.ordered, '\n' ∉ lineText A r e ∧ ∃ row, readLine (lineText A r e) = some row ∧ Describes A es r e.1 row := by
      intro e he
      have he' := hp.mem_iff.1 he
      have hv := hs.valid e he'
      refine line_read h he' (ht _ (by rw [← hk]; exact List.mem_map_of_mem he')) (hf _ ?_)
      rw [List.getD_eq_getElem?_getD, List.getElem?_eq_getElem hv]
      exact List.getElem_mem hv
    have hl' : ∀ e ∈ r.ordered, readLine (lineText A r e) = some ((readLine (lineText A r e)).getD ⟨[], 0, none⟩) ∧
        Describes A es r e.1 ((readLine (lineText A r e)).getD ⟨[], 0, none⟩) := by
      intro e he
      obtain ⟨-, row, h1, h2⟩ := hl e he
      rw [h1]
      exact ⟨rfl, h2⟩
    refine ⟨_, r.ordered.map (·.1), _, print_eq hs hne, readTable_lines r.ordered (lineText A r) _ fun e he => ⟨(hl e he).1, (hl' e he).1⟩, ?_, ?_, ?_⟩
    · have h1 : (r.ordered.map (·.1)).Pairwise (· ≤ ·) := by
        rw [List.pairwise_map]
        exact List.pairwise_insertionSort (fun a b : String × ℕ => a.1 ≤ b.1) r.tags
      have h2 : (r.ordered.map (·.1)).Nodup := (hp.map _).nodup_iff.2 hs.keys
      exact (h1.and h2).imp fun ⟨a, b⟩ => lt_of_le_of_ne a b
    · intro t
      rw [← hk]
      exact (hp.map _).mem_iff
    · rw [List.forall₂_map_left_iff, List.forall₂_map_right_iff, List.forall₂_same]
      exact fun e he => (hl' e he).2

/-- A history with a tag that is not used, one that is, and one that is looked up and forgotten. -/
def sampleHistory : List Event := [.lookup "old", .record 0 (.fin 7), .forget, .lookup "mesh", .lookup "integrate", .record 1 (.fin (1 / 8)), .record 1 (.fin (3 / 8))]

example : known sampleHistory = ["integrate", "mesh"] ∧ (∀ t ∈ known sampleHistory, Tidy t) ∧ ∃ r, run Ieee.float64 sampleHistory = .ok r ∧
    r.print Ieee.float64 = .ok ("SM Timing\n-----------\n".toList ++
      "integrate\t      0\t\nmesh     \t      2\t00.500000\t(00.250000 +- 00.125000)\t[00.125000,00.375000]\n".toList) := by
  have e : known sampleHistory = ["integrate", "mesh"] := by decide +kernel
  refine ⟨e, ?_, ?_⟩
  · rw [e]
    intro t ht
    rcases List.mem_cons.1 ht with rfl | ht
    · exact ⟨by decide +kernel, by decide +kernel, by decide +kernel⟩
    · rw [List.mem_singleton.1 ht]
      exact ⟨by decide +kernel, by decide +kernel, by decide +kernel⟩
  · have h : (match run Ieee.float64 sampleHistory with
        | .ok r => decide (r.print Ieee.float64 = .ok ("SM Timing\n-----------\n".toList ++
            "integrate\t      0\t\nmesh     \t      2\t00.500000\t(00.250000 +- 00.125000)\t[00.125000,00.375000]\n".toList))
        | _ => false) = true := by decide +kernel
    cases hr : run Ieee.float64 sampleHistory with
    | ok r =>
      rw [hr] at h
      exact ⟨r, rfl, of_decide_eq_true h⟩
    | fatal => rw [hr] at h; cases h
    | ub => rw [hr] at h; cases h

example : (match run Ieee.float64 sampleHistory with
    | .ok r => decide (r.timers.length = 3 ∧ ∀ a ∈ r.timers, 0 < a.totalSamples → AllFit Ieee.float64 a)
    | _ => false) = true := by decide +kernel

/-! ### Columns -/

theorem longest {A : Arith} {es : List Event} : ∀ {r : Registry}, run A es = .ok r → ∀ e ∈ r.tags, e.1.utf8ByteSize ≤ r.maxTagLength := by
  induction es using List.reverseRecOn with
  | nil =>
    intro r h
    cases h
    exact fun e he => absurd he (by simp [Registry.new])
  | append_singleton es e ih =>
    intro r h
    obtain ⟨r', h1, h2⟩ := run_snoc h
    have hi := ih h1
    cases e with
    | lookup tag =>
      cases h2
      unfold Registry.getHandle
      split
      · exact hi
      · intro e he
        rcases List.mem_cons.1 he with rfl | he
        · exact le_max_right _ _
        · exact le_trans (hi e he) (le_max_left _ _)
    | record k s =>
      obtain ⟨-, a, -, rfl⟩ := addTime_ok h2
      exact hi
    | forget =>
      cases h2
      exact fun e he => absurd he (by simp [Registry.reset])

theorem bytes_blanks (k : ℕ) : (String.ofList (List.replicate k ' ')).utf8ByteSize = k := by
  induction k with
  | zero => rfl
  | succ k ih =>
    rw [List.replicate_succ, ← List.singleton_append, String.ofList_append, String.utf8ByteSize_append, ih,
      show (String.ofList [' ']).utf8ByteSize = 1 by decide +kernel]
    omega

/-- The columns are aligned: after any history, in every line of the table the first cell has the same number of bytes, and the second, while no timer
has ten million samples, has seven characters. -/
theorem C128_aligned {A : Arith} {es : List Event} {r : Registry} (h : run A es = .ok r) (ht : ∀ t ∈ known es, Tidy t)
    (hc : ∀ a ∈ r.timers, a.totalSamples < 10 ^ 7) : ∃ (w : ℕ) (lines : List (List Char)), (known es ≠ [] → r.print A = .ok ("SM Timing\n-----------\n".toList ++
      lines.flatMap fun l => l ++ ['\n'])) ∧ lines.length = (known es).length ∧ (∀ t ∈ known es, t.utf8ByteSize ≤ w) ∧
      ∀ l ∈ lines, ∃ tag count rest, pieces '\t' l = tag :: count :: rest ∧ (String.ofList tag).utf8ByteSize = w ∧ count.length = 7 := by
  have hs := run_sound h
  have hk := tags_known h
  have hp : r.ordered.Perm r.tags := List.perm_insertionSort _ _
  refine ⟨r.maxTagLength, r.ordered.map (lineText A r), ?_, ?_, ?_, ?_⟩
  · intro hne
    rw [print_eq hs (fun e => hne (by rw [← hk, e]; rfl)), List.flatMap_map]
    rfl
  · rw [List.length_map, hp.length_eq, ← hk, List.length_map]
  · intro t h'
    rw [← hk] at h'
    obtain ⟨e, he, rfl⟩ := List.mem_map.1 h'
    exact longest h e he
  · intro l hl
    obtain ⟨e, he, rfl⟩ := List.mem_map.1 hl
    have he' := hp.mem_iff.1 he
    have hv := hs.valid e he'
    have htidy := ht e.1 (by rw [← hk]; exact List.mem_map_of_mem he')
    unfold lineText tagText
    dsimp only
    rw [pieces_append, pieces_append, pieces_none (tag_free htidy _).1, pieces_none (count_free _).1]
    refine ⟨_, _, _, rfl, ?_, ?_⟩
    · rw [String.ofList_append, String.utf8ByteSize_append, bytes_blanks, String.ofList_toList]
      have := longest h e he'
      omega
    · have hm : r.timers.getD e.2 Acc.new ∈ r.timers := by
        rw [List.getD_eq_getElem?_getD, List.getElem?_eq_getElem hv]
        exact List.getElem_mem hv
      have := natText_length (by norm_num) (hc _ hm)
      unfold countText
      rw [List.length_append, List.length_replicate]
      omega

example : (match run Ieee.float64 sampleHistory with
    | .ok r => decide (r.timers.length = 3 ∧ ∀ a ∈ r.timers, a.totalSamples < 10 ^ 7)
    | _ => false) = true := by decide +kernel

/-- Times below 100 s all take nine characters. -/
theorem C128_width {q : ℚ} (h0 : 0 ≤ q) (h1 : q ≤ 99.999999) : (timeString (.fin q)).length = 9 := by
  have hm := micros_close q
  rw [abs_of_nonneg h0, abs_le] at hm
  have hlt : micros q / 1000000 < 10 ^ 2 := by
    rw [Nat.div_lt_iff_lt_mul (by norm_num)]
    have h2 := hm.2
    norm_num at h1
    have : (micros q : ℚ) < 100000000 := by linarith
    norm_num
    exact_mod_cast this
  have hl := natText_length (by norm_num) hlt
  unfold timeString
  dsimp only
  rw [if_neg (not_lt.2 h0), List.length_take]
  unfold zeroPadded fixedText lastSix chars
  simp only [List.length_append, List.length_replicate, List.length_cons, List.length_nil, List.length_map]
  omega

example : (0 : ℚ) ≤ 1 / 3 ∧ (1 / 3 : ℚ) ≤ 99.999999 ∧ timeString (.fin (1 / 3)) = "00.333333".toList := by
  refine ⟨by norm_num, by norm_num, by decide +kernel⟩

/-! ### The deviation -/

/-- A slow first run and fifty fast ones. -/
def slowStart : List Event := .lookup "update" :: .record 0 (.fin 100) :: List.replicate 50 (.record 0 (.fin 1))

/-- The number behind the mean is the deviation of the last 50 samples only, around another mean: with a first sample of 100 s and fifty of 1 s the table
shows a mean of 2.941176 s, a deviation of 0 and a range from 1 s to 100 s. -/
theorem C128_deviation_violated : ∃ r text rows, run Ieee.float64 slowStart = .ok r ∧ r.print Ieee.float64 = .ok text ∧ readTable text = some rows ∧
    rows = [⟨"update".toList, 51, some (.fin 150, .fin (2941176 / 1000000), .fin 0, .fin 1, .fin 100)⟩] ∧
    recorded slowStart 0 = .fin 100 :: List.replicate 50 (.fin 1) := by
  have h : (match run Ieee.float64 slowStart with
      | .ok r => match r.print Ieee.float64 with
        | .ok text => decide (readTable text = some [⟨"update".toList, 51, some (.fin 150, .fin (2941176 / 1000000), .fin 0, .fin 1, .fin 100)⟩])
        | _ => false
      | _ => false) = true := by decide +kernel
  cases hr : run Ieee.float64 slowStart with
  | ok r =>
    rw [hr] at h
    dsimp only at h
    cases hp : r.print Ieee.float64 with
    | ok text =>
      rw [hp] at h
      exact ⟨r, text, _, rfl, hp, of_decide_eq_true h, rfl, by decide +kernel⟩
    | fatal => rw [hp] at h; cases h
    | ub => rw [hp] at h; cases h
  | fatal => rw [hr] at h; cases h
  | ub => rw [hr] at h; cases h

/-- While a timer has at most 50 samples, and without rounding, the deviation is the root of the variance of all its samples, around the mean that is shown. -/
theorem C128_deviation_partial (sq : ℚ → Fl) {ss : List ℚ} (h0 : ss ≠ []) (hl : ss.length ≤ 50) :
    ∃ a, addAll (Arith.exact sq) kWindow Acc.new (ss.map Fl.fin) = .ok a ∧ a.mean (Arith.exact sq) = .fin (average ss) ∧
      (Arith.exact sq).sqrtFl (a.lazyVariance (Arith.exact sq) kWindow) = sq (variance ss) := by
  obtain ⟨a, h1, -, -, h2, -, h3, -⟩ := C79_statistics (n := kWindow) (by decide) sq (ss := ss) (by omega) h0
  have e : latest kWindow ss = ss := by
    unfold latest kWindow
    rw [Nat.sub_eq_zero_of_le hl]
    rfl
  rw [e] at h3
  refine ⟨a, h1, h2, ?_⟩
  rw [h3]
  show (if _ then _ else _) = _
  rw [if_pos]
  · rfl
  · unfold variance
    refine div_nonneg (List.sum_nonneg ?_) (by positivity)
    intro x hx
    obtain ⟨s, -, rfl⟩ := List.mem_map.1 hx
    positivity

example : ([1, 2, 4] : List ℚ) ≠ [] ∧ ([1, 2, 4] : List ℚ).length ≤ 50 ∧ variance [1, 2, 3] = 2 / 3 := by
  refine ⟨by simp, by norm_num, by decide +kernel⟩

end Vox.Timing
