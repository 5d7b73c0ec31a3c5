/-
The table of timers: voxblox/src/utils/timing.cc:169-214, down to the characters written.
-/
import Verif.Model.Timing
import Verif.Model.Ply
import Mathlib.Data.List.Sort
import Mathlib.Data.String.Basic

namespace Vox.Timing

open Ply

/-- The nearest number of millionths, ties to even as in glibc: `%09.6f`, voxblox/src/utils/timing.cc:171. -/
def micros (q : ℚ) : ℕ := (Ieee.roundEven (|q| * 1000000)).toNat

/-- The six digits after the point, `%09.6f`, voxblox/src/utils/timing.cc:171. -/
def lastSix (m : ℕ) : List Char :=
  chars [m / 100000 % 10, m / 10000 % 10, m / 1000 % 10, m / 100 % 10, m / 10 % 10, m % 10]

/-- The digits of a finite number, `%09.6f`, voxblox/src/utils/timing.cc:171. -/
def fixedText (q : ℚ) : List Char := natText (micros q / 1000000) ++ '.' :: lastSix (micros q)

/-- Zeros fill up to nine characters behind the sign, `%09.6f`, voxblox/src/utils/timing.cc:171. -/
def zeroPadded (sign body : List Char) : List Char := sign ++ (List.replicate (9 - (sign.length + body.length)) '0' ++ body)

/-- voxblox/src/utils/timing.cc:169-173 `SecondsToTimeString`: the buffer has 256 bytes of which the last is zero. Infinite values and NaN are filled
with blanks. Simplified: the signs of zeros and NaN are not modelled. -/
def timeString : Fl → List Char
  | .fin q => (zeroPadded (if q < 0 then ['-'] else []) (fixedText q)).take 255
  | .pinf => "      inf".toList
  | .ninf => "     -inf".toList
  | .nan => "      nan".toList

/-- The tag, left in a column that is as wide as the longest tag ever seen, voxblox/src/utils/timing.cc:186-188. -/
def tagText (r : Registry) (tag : String) : List Char := tag.toList ++ List.replicate (r.maxTagLength - tag.utf8ByteSize) ' '

/-- The number of samples, right in a column of seven characters, voxblox/src/utils/timing.cc:189-192. -/
def countText (n : ℕ) : List Char := List.replicate (7 - (natText n).length) ' ' ++ natText n

/-- The statistics, voxblox/src/utils/timing.cc:194-205. -/
def statsText (A : Arith) (r : Registry) (h : ℕ) : Outcome (List Char) := do
  let total ← r.totalSeconds h
  let mean ← r.meanSeconds A h
  let var ← r.varianceSeconds A h
  let min ← r.minSeconds h
  let max ← r.maxSeconds h
  pure (timeString total ++ '\t' :: '(' :: (timeString mean ++ " +- ".toList ++ (timeString (A.sqrtFl var) ++ ')' :: '\t' :: '[' ::
    (timeString min ++ ',' :: (timeString max ++ [']'])))))

/-- A line of the table, voxblox/src/utils/timing.cc:184-207. -/
def rowText (A : Arith) (r : Registry) (e : String × ℕ) : Outcome (List Char) := do
  let n ← r.numSamples e.2
  let stats ← (if 0 < n then statsText A r e.2 else .ok [])
  pure (tagText r e.1 ++ '\t' :: (countText n ++ '\t' :: (stats ++ ['\n'])))

/-- The order of the entries of the `std::map`, voxblox/src/utils/timing.cc:184: by tag. Tags are compared bytewise, which for UTF-8 is the order of
the characters. -/
def Registry.ordered (r : Registry) : List (String × ℕ) := r.tags.insertionSort fun a b => a.1 ≤ b.1

/-- voxblox/src/utils/timing.cc:175-209 `Print`, and :210-214. -/
def Registry.print (A : Arith) (r : Registry) : Outcome (List Char) :=
  if r.tags = [] then .ok []
  else r.ordered.foldlM (fun acc e => do
    let t ← rowText A r e
    pure (acc ++ t)) ("SM Timing\n".toList ++ "-----------\n".toList)

end Vox.Timing
