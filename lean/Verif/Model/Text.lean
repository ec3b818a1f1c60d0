import Mathlib.Data.List.Basic
import Verif.Model.Py

/-!
# Python strings

Strings as lists of characters, with the operations of Python's `str` and `int`
that the modelled code uses.  These model the language and its library, not files
in `/repo`.
-/

namespace DiscSolver

/-- A Python `str`. -/
abbrev Text := List Char

namespace Text

/-- `str.isspace` for one character; only the ASCII blanks are modelled. -/
def isSpace (c : Char) : Bool :=
  c = ' ' || c = '\t' || c = '\n' || c = '\r' || c = '\x0b' || c = '\x0c'

/-- `s.lstrip()`. -/
def lstrip (s : Text) : Text := s.dropWhile isSpace

/-- `s.rstrip()`. -/
def rstrip (s : Text) : Text := (s.reverse.dropWhile isSpace).reverse

/-- `s.strip()`. -/
def strip (s : Text) : Text := rstrip (lstrip s)

/-- `','.join(l)`. -/
def joinComma (l : List Text) : Text := [','].intercalate l

/-- `s.split(',')`. -/
def splitComma (s : Text) : List Text := s.splitOn ','

/-- `str(n)` of an integer. -/
def ofInt (n : Int) : Text :=
  if n < 0 then '-' :: Nat.toDigits 10 n.natAbs else Nat.toDigits 10 n.natAbs

/-- The digits of a natural number; underscores between digits, which Python also
accepts, are not modelled. -/
def digits (s : Text) : Option ℕ :=
  if s ≠ [] ∧ s.all Char.isDigit then some (Nat.ofDigitChars 10 s 0) else Option.none

/-- The value of optionally signed digits. -/
def signed : Text → Option Int
  | [] => Option.none
  | c :: t =>
    if c = '-' then (digits t).map fun n => - Int.ofNat n
    else if c = '+' then (digits t).map Int.ofNat
    else (digits (c :: t)).map Int.ofNat

/-- `int(s)`. -/
def toInt (s : Text) : Except PyErr Int :=
  match signed (strip s) with
  | some n => .ok n
  | Option.none => .error .ValueError

/-- The string `"None"`. -/
def none : Text := "None".toList

end Text

end DiscSolver
