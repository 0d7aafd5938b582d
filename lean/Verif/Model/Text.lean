import Mathlib.Data.Nat.Notation
import Mathlib.Data.Int.Notation
import Mathlib.Order.Notation
/-!
Text as the C++ library writes and reads it: decimal numbers (`std::to_string`, `fprintf` with `%d` and `%u`), extraction
(`operator>>`) from a stream in the default locale, and the string operations used on file names.  A stream is the list of
the characters left.
-/
namespace Verif.Text

/-- A string. -/
abbrev Str := List Char

/-- A natural number in decimal notation. -/
def dec (n : ℕ) : Str := Nat.toDigits 10 n

/-- An integer in decimal notation, as printed by `%d`. -/
def decInt (z : ℤ) : Str := if z < 0 then '-' :: dec z.natAbs else dec z.natAbs

/-- `std::isspace` in the default locale. -/
def isSpace (c : Char) : Bool := c == ' ' || c == '\n' || c == '\t' || c == '\r' || c == '\x0b' || c == '\x0c'

/-- Leading white space is skipped before every extraction. -/
def skipWs (s : Str) : Str := s.dropWhile isSpace

/-- `stream >> c` for a `char`. -/
def readChar (s : Str) : Option (Char × Str) :=
  match skipWs s with
  | [] => none
  | c :: s => some (c, s)

/-- `stream >> word` for a string. -/
def readWord (s : Str) : Option (Str × Str) :=
  let s := skipWs s
  let w := s.takeWhile (fun c => !isSpace c)
  if w = [] then none else some (w, s.dropWhile (fun c => !isSpace c))

/-- `stream >> n` for an `unsigned int`, without sign; a missing or too large number fails. -/
def readUInt (s : Str) : Option (ℕ × Str) :=
  let s := skipWs s
  let d := s.takeWhile Char.isDigit
  if d = [] then none
  else if Nat.ofDigitChars 10 d 0 < 2 ^ 32 then some (Nat.ofDigitChars 10 d 0, s.dropWhile Char.isDigit)
  else none

/-- `stream >> n` for an `int`, without a plus sign. -/
def readInt (s : Str) : Option (ℤ × Str) :=
  let s := skipWs s
  let neg : Bool := s.head? == some '-'
  let s := if neg then s.tail else s
  let d := s.takeWhile Char.isDigit
  if d = [] then none
  else
    let v : ℤ := if neg then -(Nat.ofDigitChars 10 d 0 : ℤ) else (Nat.ofDigitChars 10 d 0 : ℤ)
    if -2 ^ 31 ≤ v ∧ v < 2 ^ 31 then some (v, s.dropWhile Char.isDigit) else none

/-- `s.find_last_of(c)`: `none` is `npos`. -/
def findLast (c : Char) (s : Str) : Option ℕ :=
  match s.reverse.idxOf? c with
  | none => none
  | some i => some (s.length - 1 - i)

/-- `s.replace(pos, len, w)` at a position inside the string. -/
def replaceAt (pos len : ℕ) (w s : Str) : Str := s.take pos ++ w ++ s.drop (pos + len)

/-- `std::getline` until the end of the file: the lines without their end marks; a last line without end mark counts. -/
def lines : Str → List Str
  | [] => []
  | c :: s =>
    if c = '\n' then [] :: lines s
    else match lines s with
      | [] => [[c]]
      | l :: ls => (c :: l) :: ls

end Verif.Text
