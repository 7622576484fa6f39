/-
Python text primitives used by the loaders and the conversion scripts.  Part of the trusted base: it records
how the primitives are read.  Texts are lists of characters; encodings are not modelled.
-/
import Verif.Py.Basic
import Mathlib.Algebra.Order.Field.Basic

namespace Kam.Convert

/-- A Python `str`. -/
abbrev Str := List Char

/-- Universal newlines of a file opened in text mode: `"\r\n"` and `"\r"` are read as `"\n"`. -/
def universal : Str → Str
  | '\r' :: '\n' :: s => '\n' :: universal s
  | '\r' :: s => '\n' :: universal s
  | c :: s => c :: universal s
  | [] => []

/-- The lines of a text, each with its final `"\n"` (the last line may have none). -/
def splitLines : Str → List Str
  | [] => []
  | c :: s =>
    if c = '\n' then ['\n'] :: splitLines s
    else match splitLines s with
      | [] => [[c]]
      | l :: ls => (c :: l) :: ls

/-- `infile.readlines()`. -/
def readlines (s : Str) : List Str := splitLines (universal s)

/-- `s.rstrip(chars)`. -/
def rstrip (p : Char → Bool) (s : Str) : Str := (s.reverse.dropWhile p).reverse

/-- `s.strip(chars)`. -/
def strip (p : Char → Bool) (s : Str) : Str := rstrip p (s.dropWhile p)

/-- `'\r\n'` as the argument of `rstrip`. -/
def isNewline (c : Char) : Bool := c = '\r' || c = '\n'

/-- `line.rstrip('\r\n')`. -/
def chomp (s : Str) : Str := rstrip isNewline s

/-- Puts a character in front of the first piece. -/
def consHead (c : Char) : List Str → List Str
  | [] => [[c]]
  | p :: ps => (c :: p) :: ps

/-- `s.split(c)` for a separator of one character. -/
def split (c : Char) : Str → List Str
  | [] => [[]]
  | x :: s => if x = c then [] :: split c s else consHead x (split c s)

/-- `s.split('::')` (movielens1m.py:105, 150, 202). -/
def splitColons : Str → List Str
  | [] => [[]]
  | ':' :: ':' :: s => [] :: splitColons s
  | x :: s => consHead x (splitColons s)

/-- `sep.join(l)` for a separator of one character. -/
def join (c : Char) : List Str → Str
  | [] => []
  | [s] => s
  | s :: l => s ++ c :: join c l

/-- `l[i]` on a list of fields. -/
def item (l : List Str) (i : Nat) : Res Str :=
  match l[i]? with
  | some s => .ok s
  | none => .error .indexError

/-- White space removed by `int` and `float` (ASCII). -/
def isSpace (c : Char) : Bool := c = ' ' || c = '\t' || c = '\n' || c = '\r' || c = Char.ofNat 11 || c = Char.ofNat 12

/-- A sequence of at least one ASCII digit. -/
def natOf (s : Str) : Option Nat := if s ≠ [] ∧ s.all Char.isDigit then some (Nat.ofDigitChars 10 s 0) else none

/-- A sign and a number read by `f`. -/
def signed {β : Type} [Neg β] (f : Str → Option β) : Str → Option β
  | '-' :: s => (f s).map (fun x => -x)
  | '+' :: s => f s
  | s => f s

/-- `int(s)` of a string, `none` is `ValueError`.  Simplified: no underscores between digits and no digits
outside ASCII. -/
def intOf (s : Str) : Option Int := signed (fun s => (natOf s).map (fun n => (n : Int))) (strip isSpace s)

/-- The exponent part of a number, `none` when the text is not one. -/
def exponent : Str → Option Int
  | [] => some 0
  | c :: s => if c = 'e' ∨ c = 'E' then signed (fun s => (natOf s).map (fun n => (n : Int))) s else none

/-- An unsigned decimal number. -/
def decimal {K : Type} [Field K] (s : Str) : Option K :=
  let ip := s.takeWhile Char.isDigit
  let rest := s.dropWhile Char.isDigit
  let fp := match rest with
    | '.' :: r => r.takeWhile Char.isDigit
    | _ => []
  let rest := match rest with
    | '.' :: r => r.dropWhile Char.isDigit
    | r => r
  if ip = [] ∧ fp = [] then none
  else (exponent rest).map (fun e =>
    (Nat.ofDigitChars 10 (ip ++ fp) 0 : K) / 10 ^ fp.length * 10 ^ e)

/-- `float(s)` of a string, `none` is `ValueError`.  Simplified: exact value, and the texts `nan` and `inf` are not
numbers. -/
def floatOf {K : Type} [Field K] (s : Str) : Option K := signed decimal (strip isSpace s)

/-- `str(n)` of an integer. -/
def showInt (n : Int) : Str := if n < 0 then '-' :: Nat.toDigits 10 n.natAbs else Nat.toDigits 10 n.natAbs

/-- `print(a, b, ..., sep='\t', file=outfile)`. -/
def printTab (fields : List Str) : Str := join '\t' fields ++ ['\n']

end Kam.Convert
