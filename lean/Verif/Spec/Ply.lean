/-
Reading PLY files, independently of how they are written: the ASCII format with elements made of scalar and list properties.
-/
import Verif.Model.Basic
import Verif.Model.Float

namespace Vox.PlySpec

/-- A word of a line. -/
abbrev Token := List Char

/-- The text between separators. -/
def pieces (sep : Char) : List Char → List Token
  | [] => [[]]
  | c :: cs =>
    if c = sep then [] :: pieces sep cs
    else match pieces sep cs with
      | p :: ps => (c :: p) :: ps
      | [] => [[c]]

/-- The words of a line. -/
def words (l : List Char) : List Token := (pieces ' ' l).filter (· ≠ [])

/-- The lines that are not blank, as words. -/
def rows (t : List Char) : List (List Token) := ((pieces '\n' t).map words).filter (· ≠ [])

/-! ### Numbers -/

/-- A decimal digit. -/
def digit (c : Char) : Option ℕ := if '0' ≤ c ∧ c ≤ '9' then some (c.toNat - 48) else none

/-- A number made of digits only. -/
def natOf (w : Token) : Option ℕ := if w = [] then none else w.foldlM (fun a c => (digit c).map (10 * a + ·)) 0

/-- The text before the first `c` and what follows it. -/
def cutAt (c : Char) : List Char → List Char × Option (List Char)
  | [] => ([], none)
  | d :: ds => if d = c then ([], some ds) else ((d :: (cutAt c ds).1), (cutAt c ds).2)

/-- An exponent with an optional sign. -/
def expOf : Token → Option ℤ
  | '-' :: ds => (natOf ds).map fun (n : ℕ) => -(n : ℤ)
  | '+' :: ds => (natOf ds).map fun (n : ℕ) => (n : ℤ)
  | ds => (natOf ds).map fun (n : ℕ) => (n : ℤ)

/-- The exponent, if there is one. -/
def exponentOf : Option Token → Option ℤ
  | none => some 0
  | some ds => expOf ds

/-- A decimal number without sign: digits, optionally with a point among them and an exponent behind. -/
def decimalOf (w : Token) : Option ℚ := do
  let frac := ((cutAt '.' (cutAt 'e' w).1).2).getD []
  let n ← natOf ((cutAt '.' (cutAt 'e' w).1).1 ++ frac)
  let x ← exponentOf (cutAt 'e' w).2
  pure (n * 10 ^ (x - frac.length))

/-- A number as a float may be written. -/
def numberOf (w : Token) : Option Fl :=
  if w = "nan".toList then some .nan
  else if w = "inf".toList then some .pinf
  else if w = "-inf".toList then some .ninf
  else match w with
    | '-' :: ds => (decimalOf ds).map fun q => .fin (-q)
    | ds => (decimalOf ds).map .fin

/-! ### The file -/

/-- The types used here. -/
inductive Ty where
  | float
  | uchar
  | int
deriving DecidableEq

/-- The name of a type. -/
def tyOf (w : Token) : Option Ty :=
  if w = "float".toList then some .float else if w = "uchar".toList then some .uchar else if w = "int".toList then some .int else none

/-- The value can be held by the type. -/
def fits : Ty → Fl → Bool
  | .float, _ => true
  | .uchar, .fin q => decide (q.den = 1 ∧ 0 ≤ q ∧ q < 256)
  | .int, .fin q => decide (q.den = 1 ∧ -2 ^ 31 ≤ q ∧ q < 2 ^ 31)
  | _, _ => false

/-- A property: its name, its type, and the type of the count if it is a list. -/
structure Property where
  name : Token
  ty : Ty
  count : Option Ty
deriving DecidableEq

/-- An element: its name, how many there are, and its properties. -/
structure Element where
  name : Token
  count : ℕ
  props : List Property
deriving DecidableEq

/-- A further property of the last element. -/
def addProperty (es : List Element) (p : Property) : Option (List Element) :=
  match es.getLast? with
  | none => none
  | some e => some (es.dropLast ++ [{ e with props := e.props ++ [p] }])

/-- One line of the header. -/
def headerLine (es : List Element) : List Token → Option (List Element)
  | [k, a, b] =>
    if k = "element".toList then (natOf b).map fun n => es ++ [⟨a, n, []⟩]
    else if k = "property".toList then (tyOf a).bind fun t => addProperty es ⟨b, t, none⟩
    else none
  | [k, l, c, t, n] =>
    if k = "property".toList ∧ l = "list".toList then (tyOf c).bind fun c => (tyOf t).bind fun t => addProperty es ⟨n, t, some c⟩ else none
  | _ => none

/-- The header after the first two lines: the elements and the lines that follow. -/
def header (es : List Element) : List (List Token) → Option (List Element × List (List Token))
  | [] => none
  | r :: rs => if r = ["end_header".toList] then some (es, rs) else (headerLine es r).bind fun es => header es rs

/-- A value of a type. -/
def valueOf (t : Ty) (w : Token) : Option Fl := (numberOf w).bind fun x => if fits t x then some x else none

/-- The values of one line, property by property. -/
def readRow : List Property → List Token → Option (List (List Fl))
  | [], [] => some []
  | [], _ :: _ => none
  | _ :: _, [] => none
  | p :: ps, w :: ws =>
    match p.count with
    | none => do
      let x ← valueOf p.ty w
      let rest ← readRow ps ws
      pure ([x] :: rest)
    | some t => do
      let _ ← valueOf t w
      let n ← natOf w
      if ws.length < n then none
      else do
        let xs ← (ws.take n).mapM (valueOf p.ty)
        let rest ← readRow ps (ws.drop n)
        pure (xs :: rest)

/-- The lines of all elements; none may be left over. -/
def readBody : List Element → List (List Token) → Option (List (Element × List (List (List Fl))))
  | [], [] => some []
  | [], _ :: _ => none
  | e :: es, rs =>
    if rs.length < e.count then none
    else do
      let here ← (rs.take e.count).mapM (readRow e.props)
      let rest ← readBody es (rs.drop e.count)
      pure ((e, here) :: rest)

/-- The content of a file. -/
abbrev Content := List (Element × List (List (List Fl)))

/-- Reading a file. -/
def readPly (t : List Char) : Option Content :=
  match rows t with
  | a :: b :: rs => if a = ["ply".toList] ∧ b = ["format".toList, "ascii".toList, "1.0".toList] then (header [] rs).bind fun h => readBody h.1 h.2 else none
  | _ => none

/-- The values of a property of an element, line by line; nothing if there is no such element or property. -/
def columnOf (c : Content) (element property : String) : Option (List (List Fl)) := do
  let e ← c.find? fun e => e.1.name = element.toList
  let k ← e.1.props.findIdx? fun p => p.name = property.toList
  e.2.mapM fun r => r[k]?

/-- Numbers are kept to about six digits: what is not finite stays, the relative error is at most 1 / 200000, decimals of at most six digits stay
exactly, and the order is not inverted. -/
structure SixDigits (sh : Fl → Fl) : Prop where
  nan : sh .nan = .nan
  pinf : sh .pinf = .pinf
  ninf : sh .ninf = .ninf
  close : ∀ q, ∃ r, sh (.fin q) = .fin r ∧ |r - q| ≤ |q| / 200000
  exact : ∀ (k j : ℤ), |k| < 10 ^ 6 → sh (.fin (k * 10 ^ j)) = .fin (k * 10 ^ j)
  mono : ∀ q r a b, q ≤ r → sh (.fin q) = .fin a → sh (.fin r) = .fin b → a ≤ b

end Vox.PlySpec
