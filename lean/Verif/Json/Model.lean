/-
The text of result files: `json.dumps(info)` with its default arguments (exp_recsys_util.py:330, exp_recsys_fold_merge.py:176,
stats_recsys.py:131) and `json.load(fp, encoding='utf-8')` (exp_recsys_fold_merge.py:93, 124, stats_recsys.py:105).

`dumps` and `loads` follow the encoder and the decoder in Python's module `json` (json/encoder.py, json/decoder.py,
json/scanner.py); part of the trusted base is that they do.  Texts are lists of Unicode characters.  Simplified: a `\u` escape
of half a surrogate pair is refused (Python reads it as half a character), four hexadecimal digits are digits and nothing else,
and there is no limit on the depth of a tree.
-/
import Verif.Scripts.Model
import Verif.Convert.Text

namespace Kam.Json
open Scripts Kam.Convert

/-- The leaves of result files: what `json.dumps` writes as a value other than a list or a dictionary.  `R` are the finite
floats. -/
inductive Atom (R : Type) where
  | null
  | bool (b : Bool)
  | int (n : Int)
  | float (x : R)
  | nan
  | inf
  | ninf
  | str (s : String)

/-- `float.__repr__` and `float` for finite floats. -/
structure Floats (R : Type) where
  repr : R → Str
  read : Str → R

/-! ### json.dumps -/

/-- A hexadecimal digit, as `'{0:04x}'.format` writes it. -/
def hexChar (n : Nat) : Char := if n < 10 then Char.ofNat (48 + n) else Char.ofNat (87 + n)

/-- `'\\u{0:04x}'.format(n)`. -/
def hex4 (n : Nat) : Str :=
  ['\\', 'u', hexChar (n / 4096 % 16), hexChar (n / 256 % 16), hexChar (n / 16 % 16), hexChar (n % 16)]

/-- A character of a string (`py_encode_basestring_ascii`, json/encoder.py). -/
def escape (c : Char) : Str :=
  if c = '"' then ['\\', '"']
  else if c = '\\' then ['\\', '\\']
  else if c = '\n' then ['\\', 'n']
  else if c = '\r' then ['\\', 'r']
  else if c = '\t' then ['\\', 't']
  else if c = Char.ofNat 12 then ['\\', 'f']
  else if c = Char.ofNat 8 then ['\\', 'b']
  else if 32 ≤ c.toNat ∧ c.toNat ≤ 126 then [c]
  else if c.toNat < 65536 then hex4 c.toNat
  else hex4 (55296 + (c.toNat - 65536) / 1024) ++ hex4 (56320 + (c.toNat - 65536) % 1024)

/-- A string in its quotes. -/
def dumpStr (s : String) : Str := '"' :: (s.toList.flatMap escape ++ ['"'])

/-- A value other than a list or a dictionary. -/
def dumpAtom {R : Type} (fl : Floats R) : Atom R → Str
  | .null => "null".toList
  | .bool true => "true".toList
  | .bool false => "false".toList
  | .int n => showInt n
  | .float x => fl.repr x
  | .nan => "NaN".toList
  | .inf => "Infinity".toList
  | .ninf => "-Infinity".toList
  | .str s => dumpStr s

mutual
/-- `json.dumps(x)` (exp_recsys_util.py:330, exp_recsys_fold_merge.py:176, stats_recsys.py:131). -/
def dumps {R : Type} (fl : Floats R) : J (Atom R) → Str
  | .leaf v => dumpAtom fl v
  | .list [] => ['[', ']']
  | .list (j :: l) => '[' :: (dumps fl j ++ dumpItems fl l)
  | .dict [] => ['{', '}']
  | .dict ((k, j) :: d) => '{' :: (dumpStr k ++ (':' :: ' ' :: (dumps fl j ++ dumpPairs fl d)))
/-- The remaining items of a list. -/
def dumpItems {R : Type} (fl : Floats R) : List (J (Atom R)) → Str
  | [] => [']']
  | j :: l => ',' :: ' ' :: (dumps fl j ++ dumpItems fl l)
/-- The remaining items of a dictionary. -/
def dumpPairs {R : Type} (fl : Floats R) : List (String × J (Atom R)) → Str
  | [] => ['}']
  | (k, j) :: d => ',' :: ' ' :: (dumpStr k ++ (':' :: ' ' :: (dumps fl j ++ dumpPairs fl d)))
end

/-! ### json.load -/

/-- White space between tokens (`WHITESPACE`, json/decoder.py). -/
def isWs (c : Char) : Bool := c = ' ' || c = '\t' || c = '\n' || c = '\r'

/-- Skips white space. -/
def skip (s : Str) : Str := s.dropWhile isWs

/-- The value of a hexadecimal digit. -/
def hexVal (c : Char) : Option Nat :=
  if 48 ≤ c.toNat ∧ c.toNat ≤ 57 then some (c.toNat - 48)
  else if 97 ≤ c.toNat ∧ c.toNat ≤ 102 then some (c.toNat - 87)
  else if 65 ≤ c.toNat ∧ c.toNat ≤ 70 then some (c.toNat - 55)
  else none

/-- `_decode_uXXXX` (json/decoder.py): the number and the rest of the text. -/
def uXXXX : Str → Option (Nat × Str)
  | a :: b :: c :: d :: s => do
    let a ← hexVal a
    let b ← hexVal b
    let c ← hexVal c
    let d ← hexVal d
    return (4096 * a + 256 * b + 16 * c + d, s)
  | _ => none

/-- The character with a number, if there is one. -/
def charOf (n : Nat) : Option Char := if n.isValidChar then some (Char.ofNat n) else none

/-- The character after `\u` (`py_scanstring`, json/decoder.py). -/
def unicode (s : Str) : Option (Char × Str) := do
  let (u, s) ← uXXXX s
  if 55296 ≤ u ∧ u ≤ 56319 then
    match s with
    | '\\' :: 'u' :: s => do
      let (v, s) ← uXXXX s
      if 56320 ≤ v ∧ v ≤ 57343 then (charOf (65536 + ((u - 55296) * 1024 + (v - 56320)))).map (fun c => (c, s)) else none
    | _ => none
  else (charOf u).map (fun c => (c, s))

/-- The character after a backslash other than `u` (`BACKSLASH`, json/decoder.py). -/
def unescape (c : Char) : Option Char :=
  if c = '"' then some '"'
  else if c = '\\' then some '\\'
  else if c = '/' then some '/'
  else if c = 'b' then some (Char.ofNat 8)
  else if c = 'f' then some (Char.ofNat 12)
  else if c = 'n' then some '\n'
  else if c = 'r' then some '\r'
  else if c = 't' then some '\t'
  else none

/-- One character of a string and the rest of the text; control characters are refused (`strict`, json/decoder.py). -/
def scanChar (s : Str) : Option (Char × Str) :=
  match s with
  | [] => none
  | c :: s =>
    if c = '\\' then
      match s with
      | [] => none
      | e :: s => if e = 'u' then unicode s else (unescape e).map (fun c => (c, s))
    else if c.toNat < 32 then none else some (c, s)

/-- `py_scanstring` (json/decoder.py), from the character after the opening quote on; `n` bounds the number of characters. -/
def scanChars : Nat → Str → Option (Str × Str)
  | 0, _ => none
  | _ + 1, [] => none
  | n + 1, c :: s =>
    if c = '"' then some ([], s)
    else do
      let (x, s) ← scanChar (c :: s)
      let (xs, s) ← scanChars n s
      return (x :: xs, s)

/-- See `scanChars`. -/
def scanStr (s : Str) : Option (String × Str) := (scanChars (s.length + 1) s).map (fun p => (String.ofList p.1, p.2))

/-- The digits at the front of a text. -/
def digits (s : Str) : Str × Str := (s.takeWhile Char.isDigit, s.dropWhile Char.isDigit)

/-- `-?` of `NUMBER_RE` (json/scanner.py). -/
def signPart : Str → Str × Str
  | '-' :: s => (['-'], s)
  | s => ([], s)

/-- `(?:0|[1-9]\d*)` of `NUMBER_RE`. -/
def intPart : Str → Option (Str × Str)
  | [] => none
  | c :: s =>
    if c = '0' then some (['0'], s)
    else if c.isDigit then some (digits (c :: s))
    else none

/-- `(\.\d+)?` of `NUMBER_RE`. -/
def fracPart : Str → Str × Str
  | [] => ([], [])
  | c :: s => if c = '.' ∧ (digits s).1 ≠ [] then ('.' :: (digits s).1, (digits s).2) else ([], c :: s)

/-- `[-+]?` of `NUMBER_RE`. -/
def expSign : Str → Str × Str
  | [] => ([], [])
  | c :: s => if c = '-' ∨ c = '+' then ([c], s) else ([], c :: s)

/-- `([eE][-+]?\d+)?` of `NUMBER_RE`. -/
def expPart : Str → Str × Str
  | [] => ([], [])
  | c :: s =>
    if (c = 'e' ∨ c = 'E') ∧ (digits (expSign s).2).1 ≠ [] then
      (c :: ((expSign s).1 ++ (digits (expSign s).2).1), (digits (expSign s).2).2)
    else ([], c :: s)

/-- A number (`match_number`, json/scanner.py): a float when it has a fraction or an exponent. -/
def number {R : Type} (fl : Floats R) (s : Str) : Option (Atom R × Str) := do
  let (ip, s2) ← intPart (signPart s).2
  if (fracPart s2).1 = [] ∧ (expPart (fracPart s2).2).1 = [] then
    (intOf ((signPart s).1 ++ ip)).map (fun n => (.int n, s2))
  else
    some (.float (fl.read ((signPart s).1 ++ (ip ++ ((fracPart s2).1 ++ (expPart (fracPart s2).2).1)))),
      (expPart (fracPart s2).2).2)

/-- The constants (json/scanner.py). -/
def constant {R : Type} : Str → Option (Atom R × Str)
  | 'n' :: 'u' :: 'l' :: 'l' :: s => some (.null, s)
  | 't' :: 'r' :: 'u' :: 'e' :: s => some (.bool true, s)
  | 'f' :: 'a' :: 'l' :: 's' :: 'e' :: s => some (.bool false, s)
  | 'N' :: 'a' :: 'N' :: s => some (.nan, s)
  | 'I' :: 'n' :: 'f' :: 'i' :: 'n' :: 'i' :: 't' :: 'y' :: s => some (.inf, s)
  | '-' :: 'I' :: 'n' :: 'f' :: 'i' :: 'n' :: 'i' :: 't' :: 'y' :: s => some (.ninf, s)
  | _ => none

/-- A value other than a string, list or dictionary. -/
def scanAtom {R : Type} (fl : Floats R) (s : Str) : Option (Atom R × Str) :=
  match constant s with
  | some p => some p
  | none => number fl s

mutual
/-- `py_scan_once` (json/scanner.py); `n` bounds the number of calls. -/
def scan {R : Type} (fl : Floats R) : Nat → Str → Option (J (Atom R) × Str)
  | 0, _ => none
  | _ + 1, [] => none
  | n + 1, c :: s =>
    if c = '"' then (scanStr s).map (fun p => (.leaf (.str p.1), p.2))
    else if c = '{' then
      match skip s with
      | [] => none
      | e :: r =>
        if e = '}' then some (.dict [], r)
        else if e = '"' then (members fl n r).map (fun p => (.dict (Dict.ofPairs p.1), p.2))
        else none
    else if c = '[' then
      match skip s with
      | [] => none
      | e :: r =>
        if e = ']' then some (.list [], r)
        else (elements fl n (e :: r)).map (fun p => (.list p.1, p.2))
    else (scanAtom fl (c :: s)).map (fun p => (.leaf p.1, p.2))
/-- `JSONObject` (json/decoder.py), from the character after the opening quote of a key on. -/
def members {R : Type} (fl : Floats R) : Nat → Str → Option (List (String × J (Atom R)) × Str)
  | 0, _ => none
  | n + 1, s => do
    let (k, s) ← scanStr s
    match skip s with
    | [] => none
    | e :: s =>
      if e = ':' then do
        let (j, s) ← scan fl n (skip s)
        match skip s with
        | [] => none
        | e :: s =>
          if e = '}' then some ([(k, j)], s)
          else if e = ',' then
            match skip s with
            | [] => none
            | e :: s => if e = '"' then (members fl n s).map (fun p => ((k, j) :: p.1, p.2)) else none
          else none
      else none
/-- `JSONArray` (json/decoder.py), from the first character of an item on. -/
def elements {R : Type} (fl : Floats R) : Nat → Str → Option (List (J (Atom R)) × Str)
  | 0, _ => none
  | n + 1, s => do
    let (j, s) ← scan fl n s
    match skip s with
    | [] => none
    | e :: s =>
      if e = ']' then some ([j], s)
      else if e = ',' then (elements fl n (skip s)).map (fun p => (j :: p.1, p.2))
      else none
end

/-- `json.load(fp, encoding='utf-8')` (exp_recsys_fold_merge.py:93, 124, stats_recsys.py:105): one value with white space around
it, anything else is a `ValueError`.  The bound on the number of calls is never reached (`scan_fuel`). -/
def loads {R : Type} (fl : Floats R) (s : Str) : Res (J (Atom R)) :=
  match scan fl (2 * s.length + 2) (skip s) with
  | some (j, r) => if skip r = [] then .ok j else .error .valueError
  | none => .error .valueError

end Kam.Json
