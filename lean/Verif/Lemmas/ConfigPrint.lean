/-
Lemmas for printed settings.
-/
import Verif.Model.ConfigPrint
import Verif.Spec.ConfigPrint
import Verif.Lemmas.Ply

namespace Vox.ConfigPrint

open Ply PlySpec MeshDisplay

theorem intText_clean (z : ℤ) : Clean (intText z) := by
  have h := natText_clean z.natAbs
  unfold intText
  split_ifs
  · refine ⟨by simp, fun hm => ?_, fun hm => ?_⟩
    · rcases List.mem_cons.1 hm with e | e
      · revert e; decide
      · exact h.space e
    · rcases List.mem_cons.1 hm with e | e
      · revert e; decide
      · exact h.newline e
  · exact h

theorem number_intText (z : ℤ) : numberOf (intText z) = some (.fin z) := by
  unfold intText
  have h := number_natText z.natAbs
  split_ifs with hz
  · obtain ⟨ds, h1, h2, h3, h4⟩ := natText_eq z.natAbs
    obtain ⟨d, ds', rfl⟩ := List.exists_cons_of_ne_nil h2
    have hd : (digit (Nat.digitChar d)).isSome := by rw [digit_char (h3 d (by simp))]; rfl
    have hc : natText z.natAbs = Nat.digitChar d :: chars ds' := h1
    rw [hc, number_digit hd] at h
    rw [hc, number_minus hd]
    obtain ⟨q, hq, e⟩ := Option.map_eq_some_iff.1 h
    rw [hq, Option.map_some]
    have : q = (z.natAbs : ℚ) := by simpa using e
    rw [this]
    congr 2
    have hz' : ((z.natAbs : ℤ) : ℚ) = ((-z : ℤ) : ℚ) := by
      congr 1
      omega
    rw [Int.cast_natCast] at hz'
    rw [hz']
    push_cast
    ring
  · rw [h]
    congr 2
    have hz' : ((z.natAbs : ℤ) : ℚ) = ((z : ℤ) : ℚ) := by
      congr 1
      omega
    rw [Int.cast_natCast] at hz'
    exact hz'

/-- The number read from the text of a setting. -/
def Value.read : Value → Fl
  | .bool b => .fin (if b then 1 else 0)
  | .nat n => .fin n
  | .int z => .fin z
  | .float x => shown x

theorem text_clean (v : Value) : Clean v.text := by
  cases v with
  | bool b => cases b <;> exact ⟨by decide, by decide, by decide⟩
  | nat n => exact natText_clean n
  | int z => exact intText_clean z
  | float x => exact floatText_clean x

theorem number_text (v : Value) : numberOf v.text = some v.read := by
  cases v with
  | bool b => cases b <;> decide +kernel
  | nat n => exact number_natText n
  | int z => exact number_intText z
  | float x => exact number_floatText x

theorem settings_item {label : String} {n : Token} (h : label.toList = label.toList.dropLast ++ [' '] ∧ '\n' ∉ label.toList.dropLast ∧
    words label.toList.dropLast = [['-'], n ++ [':']]) (v : Value) (t : List Char) :
    settings (item label v ++ t) = (n, v.read) :: settings t := by
  obtain ⟨h1, h2, h3⟩ := h
  have hl : Line (label.toList.dropLast ++ ' ' :: v.text) ([['-'], n ++ [':']] ++ [v.text]) := Line.append ⟨h2, h3⟩ (Line.word (text_clean v))
  have e : item label v ++ t = (label.toList.dropLast ++ ' ' :: v.text) ++ '\n' :: t := by
    unfold item
    conv_lhs => rw [h1]
    simp
  unfold settings
  rw [e, hl.rows (by simp)]
  simp [settingOf, number_text]

theorem settings_last {label : String} {n : Token} (h : label.toList = label.toList.dropLast ++ [' '] ∧ '\n' ∉ label.toList.dropLast ∧
    words label.toList.dropLast = [['-'], n ++ [':']]) (v : Value) : settings (item label v) = [(n, v.read)] := by
  have := settings_item h v []
  rw [List.append_nil] at this
  rw [this]
  rfl

theorem settings_line {s : String} {ws : List Token} (h : '\n' ∉ s.toList ∧ words s.toList = ws ∧ settingOf ws = none) (hne : ws ≠ []) (t : List Char) :
    settings (line s ++ t) = settings t := by
  unfold settings
  rw [rows_line ⟨h.1, h.2.1⟩ hne]
  simp [h.2.2]

end Vox.ConfigPrint
