/-
The conversion scripts data/*.py as programs on files: where they look for files, where they write, and what is in a file when
a line of the input makes a script raise an exception.

Simplified: every file can be written, and what has been printed when a script raises is in the file in the end (Python closes
the file when it exits).
-/
import Verif.Convert.Model
import Verif.Shell.Model

set_option linter.unusedSectionVars false

namespace Kam.Convert
open Shell (Prog Files Exit)

/-! ### Printing -/

/-- What statements print into `outfile`, and how they end. -/
structure Out (α : Type) where
  text : Str
  res : Res α

/-- One statement after the other; an exception skips the rest. -/
instance : Monad Out where
  pure x := ⟨[], .ok x⟩
  bind m f := match m.res with
    | .ok x => ⟨m.text ++ (f x).text, (f x).res⟩
    | .error e => ⟨m.text, .error e⟩

/-- An expression, which prints nothing. -/
def eval {α : Type} (r : Res α) : Out α := ⟨[], r⟩

/-- `print(a, b, ..., sep='\t', end=e, file=outfile)`. -/
def printEnd (e : Char) (fields : List Str) : Out Unit := ⟨join '\t' fields ++ [e], .ok ()⟩

/-- `for line in infile.readlines(): ...`. -/
def forEach {β : Type} (g : β → Out Unit) : List β → Out Unit
  | [] => pure ()
  | x :: xs => do
    g x
    forEach g xs

/-- `print("# ...", end='', file=outfile)`. -/
def printHead (hd : List String) : Out Unit := ⟨head hd, .ok ()⟩

/-! ### The bodies of the loops -/

/-- data/movielens100k.py:97-99. -/
def ml100kEventOut (line : Str) : Out Unit := printEnd '\n' (split '\t' (chomp line))

/-- The number of the gender (data/movielens100k.py:143-148, data/movielens1m.py:152-157). -/
def genderOut (s : Str) : Out Unit :=
  if s = "M".toList then printEnd '\t' ["0".toList]
  else if s = "F".toList then printEnd '\t' ["1".toList]
  else eval (.error .valueError)

/-- data/movielens100k.py:140-150. -/
def ml100kUserOut (line : Str) : Out Unit := do
  let f := split '|' (chomp line)
  let id ← eval (item f 0)
  let age ← eval (item f 1)
  printEnd '\t' [id, age]
  let g ← eval (item f 2)
  genderOut g
  let o ← eval (item f 3)
  let occ ← eval (occupation.getItem (String.ofList o))
  printEnd '\t' [showInt occ]
  let zip ← eval (item f 4)
  printEnd '\n' [zip]

/-- The date (data/movielens100k.py:193-198): the three numbers are printed by one statement. -/
def dateOut (s : Str) : Out Unit :=
  match split '-' s with
  | [d, m, y] => do
    let d ← eval (pyInt d)
    let m ← eval (month.getItem (String.ofList m))
    let y ← eval (pyInt y)
    printEnd '\t' [showInt d, showInt m, showInt y]
  | _ => printEnd '\t' ["0".toList, "0".toList, "0".toList]

/-- data/movielens100k.py:190-199. -/
def ml100kItemOut (line : Str) : Out Unit := do
  let f := split '|' (chomp line)
  let id ← eval (item f 0)
  let name ← eval (item f 1)
  printEnd '\t' [id, name]
  let d ← eval (item f 2)
  dateOut d
  let url ← eval (item f 4)
  printEnd '\n' [join '\t' ((f.take 24).drop 6), url]

/-- data/movielens1m.py:104-106. -/
def ml1mEventOut (line : Str) : Out Unit := printEnd '\n' (splitColons (chomp line))

/-- data/movielens1m.py:149-158. -/
def ml1mUserOut (line : Str) : Out Unit := do
  let f := splitColons (chomp line)
  let id ← eval (item f 0)
  printEnd '\t' [id]
  let g ← eval (item f 1)
  genderOut g
  let a ← eval (item f 2)
  let a ← eval (age.getItem (String.ofList a))
  let occ ← eval (item f 3)
  let zip ← eval (item f 4)
  printEnd '\n' [showInt a, occ, zip.take 5]

/-- data/movielens1m.py:201-213. -/
def ml1mItemOut (line : Str) : Out Unit := do
  let f := splitColons (chomp line)
  let id ← eval (item f 0)
  let name ← eval (item f 1)
  let name := if id = "3845".toList then ellipsis name else name
  printEnd '\t' [id, name]
  let y ← eval (year name)
  printEnd '\t' [y]
  let d ← eval (item f 2)
  let o ← eval (genres (split '|' d))
  printEnd '\n' o

/-- data/movielens_mini.py:79-84: `print(line, end='')`. -/
def miniOut (line : Str) : Out Unit :=
  if line.head? = some '#' then pure ()
  else do
    let f := split '\t' (chomp line)
    let u ← eval (item f 0)
    let u ← eval (pyInt u)
    if u ≤ 10 then
      let i ← eval (item f 1)
      let i ← eval (pyInt i)
      if i ≤ 10 then ⟨line, .ok ()⟩ else pure ()
    else pure ()

/-- data/flixster.py:97-99. -/
def flixsterOut (line : Str) : Out Unit := do
  let f := split '\t' (chomp line)
  let u ← eval (item f 0)
  let i ← eval (item f 1)
  let s ← eval (item f 2)
  printEnd '\n' [u, i, s]

/-- data/sushi3.py:102-104: one pass of the inner loop. -/
def sushiEntryOut (uid : Nat) (p : Str × Nat) : Out Unit := do
  let r ← eval (pyInt p.1)
  if 0 ≤ r then printEnd '\n' [showInt uid, showInt p.2, p.1] else pure ()

/-- data/sushi3.py:99-105. -/
def sushiEventOut (p : Str × Nat) : Out Unit := forEach (sushiEntryOut p.2) (split ' ' (chomp p.1)).zipIdx

/-- data/sushi3.py:151-155. -/
def sushiUserOut (p : Str × Nat) : Out Unit := printEnd '\n' [showInt p.2, join '\t' (split '\t' (chomp p.1))]

/-- data/sushi3.py:203-205. -/
def sushiItemOut (line : Str) : Out Unit := printEnd '\n' [join '\t' (split '\t' (chomp line))]

/-- Everything that is printed into one file: the comments, then the lines. -/
def fileOut (hd : List String) (g : Str → Out Unit) (text : Str) : Out Unit := do
  printHead hd
  forEach g (readlines text)

/-- The same with the numbers of the lines (`uid`, data/sushi3.py:99-105, 151-155). -/
def fileOutIdx (hd : List String) (g : Str × Nat → Out Unit) (text : Str) : Out Unit := do
  printHead hd
  forEach g (readlines text).zipIdx

/-! ### The scripts -/

/-- The scripts in data/. -/
inductive Converter where
  | movielens100k
  | movielens1m
  | mini
  | flixster
  | sushi3
  deriving DecidableEq

/-- `os.path.join(a, b)` on a POSIX system. -/
def pathJoin (a b : Str) : Str :=
  if b.head? = some '/' then b
  else if a = [] ∨ a.getLast? = some '/' then a ++ b
  else a ++ '/' :: b

/-- `target` (data/movielens100k.py:61-65, and the same lines of the other scripts); `argv` includes the name of the script. -/
def target (pwd : Str) : List Str → Str
  | _ :: t :: _ => t
  | _ => ["..", "kamrecsys", "datasets", "data"].foldl (fun a b => pathJoin a b.toList) pwd

/-- One part of a script: it reads a file and writes another one. -/
structure Part where
  input : Str
  output : Str
  out : Str → Out Unit

/-- The parts of the scripts: data/movielens100k.py:69-102, 106-153, 157-202, data/movielens1m.py:70-109, 113-161, 165-216,
data/movielens_mini.py:65-87, data/flixster.py:71-102, data/sushi3.py:72-108, 112-158, 161-208. -/
def partsOf (c : Converter) (pwd target : Str) : List Part :=
  let src := fun s : String => pathJoin pwd s.toList
  let dst := fun s : String => pathJoin target s.toList
  match c with
  | .movielens100k =>
    [⟨src "u.data", dst "movielens100k.event", fileOut ml100kHeadEvent ml100kEventOut⟩,
     ⟨src "u.user", dst "movielens100k.user", fileOut ml100kHeadUser ml100kUserOut⟩,
     ⟨src "u.item", dst "movielens100k.item", fileOut ml100kHeadItem ml100kItemOut⟩]
  | .movielens1m =>
    [⟨src "ratings.dat", dst "movielens1m.event", fileOut ml1mHeadEvent ml1mEventOut⟩,
     ⟨src "users.dat", dst "movielens1m.user", fileOut ml1mHeadUser ml1mUserOut⟩,
     ⟨src "movies.dat", dst "movielens1m.item", fileOut ml1mHeadItem ml1mItemOut⟩]
  | .mini => [⟨dst "movielens100k.event", dst "movielens_mini.event", fileOut miniHeadEvent miniOut⟩]
  | .flixster => [⟨src "ratings.txt", dst "flixster.event", fileOut flixsterHeadEvent flixsterOut⟩]
  | .sushi3 =>
    [⟨src "sushi3b.5000.10.score", dst "sushi3b_score.event", fileOutIdx sushiHeadEvent sushiEventOut⟩,
     ⟨src "sushi3.udata", dst "sushi3.user", fileOutIdx sushiHeadUser sushiUserOut⟩,
     ⟨src "sushi3.idata", dst "sushi3.item", fileOut sushiHeadItem sushiItemOut⟩]

/-- Contents that the file `f` has one after the other. -/
def putAll (f : Str) (cs : List Str) (k : Prog Str Str) : Prog Str Str := cs.foldr (fun c k => .put f c k) k

/-- One part: `open` for reading raises `IOError` when there is no file, `open` for writing empties the file, and what is
printed gets into the file in pieces (`flush`: what others can find there meanwhile). -/
def Part.prog (flush : Str → List Str) (p : Part) (k : Prog Str Str) : Prog Str Str :=
  .look p.input (fun c => match c with
    | none => .done (.raised .ioError)
    | some text => .put p.output [] (putAll p.output (flush (p.out text).text) (.put p.output (p.out text).text
        (match (p.out text).res with
          | .ok _ => k
          | .error e => .done (.raised e)))))

/-- A script: `-h` and `--help` anywhere among the arguments print a message only (data/movielens100k.py:55-57, and the same
lines of the other scripts). -/
def Converter.prog (flush : Str → List Str) (c : Converter) (pwd : Str) (argv : List Str) : Prog Str Str :=
  if "-h".toList ∈ argv ∨ "--help".toList ∈ argv then .done .success
  else (partsOf c pwd (target pwd argv)).foldr (fun p k => p.prog flush k) (.done .success)

end Kam.Convert
