/-
Specification of the conversion scripts as programs on files (C136).
-/
import Verif.Convert.Script
import Verif.Shell.Props

set_option linter.unusedSectionVars false

namespace Kam.Convert.Spec
open Kam.Convert

/-- A file a script makes: the file it comes from, its name, and what is in it (the conversions of C75 to C80). -/
structure Step where
  input : Str
  output : Str
  conv : Str → Res Str

/-- The files a script makes, in this order; `src` are the files beside the script, `dst` those in the target directory. -/
def plan (src dst : String → Str) : Converter → List Step
  | .movielens100k =>
    [⟨src "u.data", dst "movielens100k.event", fun t => .ok (convMl100kEvent t)⟩,
     ⟨src "u.user", dst "movielens100k.user", convMl100kUser⟩,
     ⟨src "u.item", dst "movielens100k.item", convMl100kItem⟩]
  | .movielens1m =>
    [⟨src "ratings.dat", dst "movielens1m.event", fun t => .ok (convMl1mEvent t)⟩,
     ⟨src "users.dat", dst "movielens1m.user", convMl1mUser⟩,
     ⟨src "movies.dat", dst "movielens1m.item", convMl1mItem⟩]
  | .mini => [⟨dst "movielens100k.event", dst "movielens_mini.event", convMini⟩]
  | .flixster => [⟨src "ratings.txt", dst "flixster.event", convFlixster⟩]
  | .sushi3 =>
    [⟨src "sushi3b.5000.10.score", dst "sushi3b_score.event", convSushiEvent⟩,
     ⟨src "sushi3.udata", dst "sushi3.user", fun t => .ok (convSushiUser t)⟩,
     ⟨src "sushi3.idata", dst "sushi3.item", fun t => .ok (convSushiItem t)⟩]

/-- The file with a name in a directory; the empty text is the current directory. -/
def inside (dir : Str) (name : String) : Str :=
  if dir = [] then name.toList else if dir.getLast? = some '/' then dir ++ name.toList else dir ++ "/".toList ++ name.toList

/-- Where a script writes: the directory that is its first argument, or that of the package.  `argv` begins with the name of the
script; further arguments are ignored. -/
def whereTo (pwd : Str) (argv : List Str) : Str :=
  (argv[1]?).getD (inside (inside (inside (inside pwd "..") "kamrecsys") "datasets") "data")

/-- What is left of the record of a line the script cannot convert: nothing, or the identifier and some more columns on one
line. -/
def Unfinished (bad v : Str) : Prop :=
  '\n' ∉ v ∧ (v = [] ∨ ∃ id r, bad = id ++ r ∧ id ++ ['\t'] <+: v ∧ r.head? ∈ [none, some '|', some ':', some '\n'])

/-- What a script leaves that meets a line it cannot convert: what it makes of the lines before (`t`), and the beginning of the
record of that line, or (sushi3) what it makes of the beginning of that line. -/
def Broken (conv : Str → Res Str) (text : Str) (e : Exc) (left : Str) : Prop :=
  ∃ ls bad rest t v, readlines text = ls ++ bad :: rest ∧ conv ls.flatten = .ok t ∧ conv (ls.flatten ++ bad) = .error e ∧
    left = t ++ v ∧ (Unfinished bad v ∨ ∃ b, b <+: bad ∧ conv (ls.flatten ++ b) = .ok left)

end Kam.Convert.Spec
