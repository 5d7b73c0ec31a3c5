/-
What timers report, in terms of the recorded samples only.
-/
import Verif.Model.Float
import Mathlib.Algebra.Order.Ring.Rat
import Mathlib.Algebra.BigOperators.Group.List.Basic
import Mathlib.Tactic.NormNum

namespace Vox.TimingSpec

/-- The last `n` of the samples. -/
def latest (n : ℕ) (ss : List ℚ) : List ℚ := ss.drop (ss.length - n)

/-- The arithmetic mean. -/
def average (ss : List ℚ) : ℚ := ss.sum / ss.length

/-- The mean squared distance from the mean. -/
def variance (ss : List ℚ) : ℚ := (ss.map fun s => (s - average ss) ^ 2).sum / ss.length

/-- A duration that a clock can measure, up to `M` seconds: zero, or at least about 10^-18 s. -/
structure Sample (M s : ℚ) : Prop where
  grain : s = 0 ∨ 1 / 2 ^ 60 ≤ s
  high : s ≤ M

theorem Sample.nonneg {M s : ℚ} (h : Sample M s) : 0 ≤ s := by
  rcases h.grain with h | h
  · rw [h]
  · exact le_trans (by norm_num) h

/-- What happens at the registry: a tag is looked up, a sample is recorded for a handle, everything is forgotten. -/
inductive Event where
  | lookup (tag : String)
  | record (handle : ℕ) (seconds : Fl)
  | forget

/-- The samples recorded for a handle. -/
def recorded (es : List Event) (h : ℕ) : List Fl :=
  es.filterMap fun e => match e with
    | .record k s => if k = h then some s else none
    | _ => none

end Vox.TimingSpec
