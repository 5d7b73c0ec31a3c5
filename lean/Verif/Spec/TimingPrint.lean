/-
Reading the table of timers.
-/
import Verif.Spec.Ply
import Verif.Spec.Timing

namespace Vox.TimingSpec

open PlySpec

/-- A line of the table. -/
structure Row where
  tag : List Char
  count : ℕ
  stats : Option (Fl × Fl × Fl × Fl × Fl)
deriving DecidableEq

/-- A number between blanks. -/
def readNumber (l : List Char) : Option Fl :=
  match words l with
  | [w] => numberOf w
  | _ => none

/-- What stands between two brackets. -/
def inside (l r : Char) (t : List Char) : Option (List Char) :=
  match t with
  | [] => none
  | c :: t => if c = l ∧ t.getLast? = some r then some t.dropLast else none

/-- The mean and its deviation. -/
def readSpread (l : List Char) : Option (Fl × Fl) :=
  match words l with
  | [a, s, b] => if s = "+-".toList then do
      let x ← numberOf a
      let y ← numberOf b
      pure (x, y)
    else none
  | _ => none

/-- The range. -/
def readRange (l : List Char) : Option (Fl × Fl) :=
  match pieces ',' l with
  | [a, b] => do
    let x ← readNumber a
    let y ← readNumber b
    pure (x, y)
  | _ => none

/-- The cells with the statistics: nothing, or the total, the mean with deviation in parentheses, the range in brackets. -/
def readStats : List (List Char) → Option (Option (Fl × Fl × Fl × Fl × Fl))
  | [[]] => some none
  | [a, b, c] => do
    let total ← readNumber a
    let ms ← (inside '(' ')' b).bind readSpread
    let mm ← (inside '[' ']' c).bind readRange
    pure (some (total, ms.1, ms.2, mm.1, mm.2))
  | _ => none

/-- Blanks at the end do not count. -/
def trimEnd (l : List Char) : List Char := (l.reverse.dropWhile (· = ' ')).reverse

/-- A line: cells separated by tabulators. -/
def readLine (l : List Char) : Option Row :=
  match pieces '\t' l with
  | tag :: count :: rest =>
    match words count with
    | [w] => do
      let n ← natOf w
      let s ← readStats rest
      pure ⟨trimEnd tag, n, s⟩
    | _ => none
  | _ => none

/-- The table: nothing, or a heading of two lines and the rows, every line ended. -/
def readTable (t : List Char) : Option (List Row) :=
  if t = [] then some []
  else match pieces '\n' t with
    | h :: u :: rest =>
      if h = "SM Timing".toList ∧ u = "-----------".toList ∧ rest.getLast? = some [] then rest.dropLast.mapM readLine else none
    | _ => none

/-- A tag that can be told from its surroundings. -/
structure Tidy (tag : String) : Prop where
  tab : '\t' ∉ tag.toList
  newline : '\n' ∉ tag.toList
  last : tag.toList.getLast? ≠ some ' '

/-- A number was shown with six decimals: the nearest such, and what is not finite as it is. -/
def Shown (x : Fl) (y : Fl) : Prop :=
  match x with
  | .fin q => ∃ k : ℤ, y = .fin (k / 1000000) ∧ |(k : ℚ) / 1000000 - q| ≤ 1 / 2000000
  | x => y = x

/-- A number with at most 247 digits before the point. -/
def Fits (x : Fl) : Prop := ∀ q, x = .fin q → |q| ≤ 10 ^ 247 - 1

instance (x : Fl) : Decidable (Fits x) :=
  match x with
  | .fin q => decidable_of_iff (|q| ≤ 10 ^ 247 - 1) ⟨fun h _ e => by cases e; exact h, fun h => h q rfl⟩
  | .nan => .isTrue fun _ e => by cases e
  | .pinf => .isTrue fun _ e => by cases e
  | .ninf => .isTrue fun _ e => by cases e

/-- The tags looked up since everything was last forgotten. -/
def known (es : List Event) : List String :=
  es.foldl (fun ks e => match e with
    | .lookup t => if t ∈ ks then ks else t :: ks
    | .record _ _ => ks
    | .forget => []) []

end Vox.TimingSpec
