/-
Model of kamrecsys/datasets/*.py (loaders of text files) and data/*.py (conversion scripts).
-/
import Verif.Convert.Text
import Verif.Convert.Head
import Verif.Score.Model
import Mathlib.Data.Char
import Mathlib.Data.List.Lex

namespace Kam.Convert

variable {K φ ε : Type} [Field K] [LinearOrder K] [FloorRing K]

/-! ### np.genfromtxt -/

/-- The type of one column of a flattened dtype: `int` (also `'i1'`), `float` or `'U<n>'`. -/
inductive FType
  | int
  | float
  | str (n : Nat)
  deriving DecidableEq

/-- A value of a column. -/
inductive Cell (K : Type)
  | int (n : Int)
  | num (x : K)
  | str (s : Str)
  deriving DecidableEq

/-- What `np.genfromtxt` returns: `squeeze()` makes an array of one record 0-dimensional. -/
inductive Recs (K : Type)
  | one (r : List (Cell K))
  | many (rs : List (List (Cell K)))
  deriving DecidableEq

/-- The fields of a line: comments are cut off, blanks and line ends stripped, and an empty line has no field
(numpy's `LineSplitter`). -/
def fieldsOf (line : Str) : List Str :=
  let s := strip (fun c => c = ' ' || isNewline c) (line.takeWhile (fun c => c ≠ '#'))
  if s = [] then [] else split '\t' s

/-- Conversion of a field (`StringConverter._loose_call`): a text that is not a number becomes the default, `-1` or
`nan`; a string is cut to the length of its type. -/
def convert (nan : K) : FType → Str → Cell K
  | .int, s => .int ((intOf s).getD (-1))
  | .float, s => .num ((floatOf s).getD nan)
  | .str n, s => .str (s.take n)

/-- `np.genfromtxt(fname=infile, delimiter='\t', dtype=dtype)` for a dtype with at least two flattened columns,
modelled after numpy 1.16: lines without fields are skipped, all other lines must have as many fields as the first
one, and fields beyond the dtype are ignored. -/
def genfromtxt (nan : K) (types : List FType) (text : Str) : Res (Recs K) :=
  let rows := ((readlines text).map fieldsOf).filter (fun r => r ≠ [])
  match rows with
  | [] => .ok (.many [])
  | first :: _ =>
    if rows.any (fun r => r.length ≠ first.length) then .error .valueError
    else if first.length < types.length then .error .valueError
    else
      match rows.map (List.zipWith (convert nan) types) with
      | [r] => .ok (.one r)
      | rs => .ok (.many rs)

/-- The integer in a cell; the callers read integer columns only. -/
def Cell.toInt : Cell K → Int
  | .int n => n
  | _ => 0

/-- The number in a cell; the callers read float columns only. -/
def Cell.toNum : Cell K → K
  | .num x => x
  | _ => 0

/-! ### Loading events -/

/-- `s_events` (datasets/base.py:86, 138). -/
def sEvents (nOtypes : Int) : OtypesArg → Nat
  | .none => nOtypes.toNat
  | .arr _ entries => entries.length

/-- `x['event']` as `set_event` uses it: `event[:, ...]` raises `IndexError` on an array of one dimension, which is
what one record gives, and what a subarray of length one gives (`('event', int, 1)` is `('event', int)`). -/
def eventColumn (s : Nat) : Recs K → Res (Arr2 Int)
  | .one _ => .error .indexError
  | .many rs => if s = 1 then .error .indexError else .ok ⟨s, rs.map (fun r => (r.take s).map Cell.toInt)⟩

/-- The columns from `k` on, as rows (`x['event_feature']`); one record is not reached by the callers. -/
def columnsFrom (k : Nat) : Recs K → List (List (Cell K))
  | .one r => [r.drop k]
  | .many rs => rs.map (fun r => r.drop k)

/-- The float column `k` (`x['score']`); one record is not reached by the callers. -/
def numColumn (k : Nat) : Recs K → List K
  | .one r => (r[k]?.map Cell.toNum).toList
  | .many rs => rs.filterMap (fun r => r[k]?.map Cell.toNum)

/-- An exception without the object it was raised in. -/
def dropState {σ β : Type} (r : Mut σ β) : Res β :=
  match r with
  | .ok x => .ok x
  | .error (e, _) => .error e

/-- `load_event` (datasets/base.py:57-101).  For one column in all (one object type, no features) numpy takes another
way, which also ends in an array of one dimension. -/
def loadEvent (nan : K) (text : Str) (nOtypes : Int) (arg : OtypesArg) (ftypes : Option (List FType)) :
    Res (EventData Int φ (List (Cell K))) := do
  let s := sEvents nOtypes arg
  let x ← genfromtxt nan (List.replicate s .int ++ ftypes.getD []) text
  let data ← EventData.init nOtypes arg
  let event ← eventColumn s x
  dropState (data.setEvent event (ftypes.map (fun _ => columnsFrom s x)))

/-- `load_event_with_score` (datasets/base.py:104-155). -/
def loadEventWithScore (nan : K) (text : Str) (nOtypes : Int) (arg : OtypesArg) (dom : Option (List K))
    (ftypes : Option (List FType)) : Res (ScoreData K Int φ (List (Cell K))) := do
  let s := sEvents nOtypes arg
  let x ← genfromtxt nan (List.replicate s .int ++ .float :: ftypes.getD []) text
  let data ← ScoreData.init nOtypes arg
  let event ← eventColumn s x
  dropState (data.setEvent event (numColumn s x) dom (ftypes.map (fun _ => columnsFrom (s + 1) x)))

/-- `x = np.genfromtxt(...); data.set_feature(otype, x['eid'], x['feature'])` (movielens.py:165-167, 177-180,
295-297, 304-307, sushi3.py:191-193, 206-209): `len(eid)` raises `TypeError` for one record. -/
def loadFeature (nan : K) (text : Str) (types : List FType) (d : ScoreData K Int (List (Cell K)) ε) (otype : Nat) :
    Res (ScoreData K Int (List (Cell K)) ε) := do
  match ← genfromtxt nan (.int :: types) text with
  | .one _ => .error .typeError
  | .many rs => d.setFeature otype (rs.map (fun r => ((r.head?.map Cell.toInt).getD 0))) (rs.map List.tail)

/-! ### The data sets -/

/-- `event_dtype_timestamp` (datasets/base.py:42). -/
def timestamp : List FType := [.int]

/-- The features of users of MovieLens 100k (movielens.py:163-164). -/
def ml100kUser : List FType := [.int, .int, .int, .str 5]

/-- The features of items of MovieLens 100k (movielens.py:171-176). -/
def ml100kItem : List FType := [.str 81, .int, .int, .int] ++ List.replicate 18 .int ++ [.str 134]

/-- `load_movielens100k` (movielens.py:82-182) with the contents of the three files. -/
def loadMovielens100k (nan : K) (event user item : Str) (ftypes : Option (List FType)) :
    Res (ScoreData K Int (List (Cell K)) (List (Cell K))) := do
  let data ← loadEventWithScore nan event 2 (.arr 1 [0, 1]) (some [1, 5, 1]) ftypes
  let data ← loadFeature nan user ml100kUser data 0
  loadFeature nan item ml100kItem data 1

/-- `load_movielens_mini` (movielens.py:185-206) with the contents of the small event file and of the two feature files
of MovieLens 100k. -/
def loadMovielensMini (nan : K) (event user item : Str) : Res (ScoreData K Int (List (Cell K)) (List (Cell K))) :=
  loadMovielens100k nan event user item (some timestamp)

/-- The features of users of MovieLens 1m (movielens.py:293-294). -/
def ml1mUser : List FType := [.int, .int, .int, .str 5]

/-- The features of items of MovieLens 1m (movielens.py:301-303). -/
def ml1mItem : List FType := [.str 82, .int] ++ List.replicate 18 .int

/-- `load_movielens1m` (movielens.py:209-309) with the contents of the three files. -/
def loadMovielens1m (nan : K) (event user item : Str) (ftypes : Option (List FType)) :
    Res (ScoreData K Int (List (Cell K)) (List (Cell K))) := do
  let data ← loadEventWithScore nan event 2 (.arr 1 [0, 1]) (some [1, 5, 1]) ftypes
  let data ← loadFeature nan user ml1mUser data 0
  loadFeature nan item ml1mItem data 1

/-- `load_flixster_rating` (flixster.py:49-90) with the content of the file. -/
def loadFlixster (nan : K) (event : Str) (ftypes : Option (List FType)) :
    Res (ScoreData K Int φ (List (Cell K))) :=
  loadEventWithScore nan event 2 (.arr 1 [0, 1]) (some [1 / 2, 5, 1 / 2]) ftypes

/-- The features of users of sushi3 (sushi3.py:179-190). -/
def sushiUser : List FType := List.replicate 11 .int

/-- The features of items of sushi3 (sushi3.py:197-205). -/
def sushiItem : List FType := [.str 20, .int, .int, .int, .float, .float, .float, .float]

/-- `load_sushi3b_score` (sushi3.py:89-211) with the contents of the three files. -/
def loadSushi3bScore (nan : K) (event user item : Str) (ftypes : Option (List FType)) :
    Res (ScoreData K Int (List (Cell K)) (List (Cell K))) := do
  let data ← loadEventWithScore nan event 2 (.arr 1 [0, 1]) (some [0, 4, 1]) ftypes
  let data ← loadFeature nan user sushiUser data 0
  loadFeature nan item sushiItem data 1

/-- The text in a cell; the callers read text columns only. -/
def Cell.toStr : Cell K → Str
  | .str s => s
  | _ => []

/-- `x['event']` of the names of users and items as `set_event` uses it, see `eventColumn`. -/
def nameColumn : Recs K → Res (Arr2 Str)
  | .one _ => .error .indexError
  | .many rs => .ok ⟨2, rs.map (fun r => (r.take 2).map Cell.toStr)⟩

/-- `load_pci_sample` (others.py:48-86) with the content of the file: users and items are named by texts, which are
compared as lists of characters. -/
def loadPci (nan : K) (text : Str) : Res (ScoreData K Str φ ε) := do
  let x ← genfromtxt nan [.str 18, .str 18, .float] text
  let data ← ScoreData.init 2 (.arr 1 [0, 1])
  let event ← nameColumn x
  dropState (data.setEvent event (numColumn 2 x) (some [1, 5, 1 / 2]) none)

/-! ### The conversion scripts

Each script is a function from the content of an input file to the content of the output file, which starts with a
block of comments. -/

/-- The comment block. -/
def head (ls : List String) : Str := ls.flatMap (fun l => l.toList ++ ['\n'])

/-- data/movielens100k.py:97-99: one line of the event file. -/
def ml100kEventLine (line : Str) : Str := printTab (split '\t' (chomp line))

/-- data/movielens100k.py:73-99. -/
def convMl100kEvent (text : Str) : Str := head ml100kHeadEvent ++ (readlines text).flatMap ml100kEventLine

/-- data/movielens100k.py:133-138. -/
def occupation : Dict String Nat :=
  [("none", 0), ("other", 1), ("administrator", 2), ("artist", 3), ("doctor", 4), ("educator", 5), ("engineer", 6),
   ("entertainment", 7), ("executive", 8), ("healthcare", 9), ("homemaker", 10), ("lawyer", 11), ("librarian", 12),
   ("marketing", 13), ("programmer", 14), ("retired", 15), ("salesman", 16), ("scientist", 17), ("student", 18),
   ("technician", 19), ("writer", 20)]

/-- The letter of the gender (data/movielens100k.py:143-148, data/movielens1m.py:152-157). -/
def gender (s : Str) : Res Str :=
  if s = "M".toList then .ok "0".toList else if s = "F".toList then .ok "1".toList else .error .valueError

/-- data/movielens100k.py:140-150: one line of the user file. -/
def ml100kUserLine (line : Str) : Res Str := do
  let f := split '|' (chomp line)
  let id ← item f 0
  let age ← item f 1
  let g ← gender (← item f 2)
  let occ ← occupation.getItem (String.ofList (← item f 3))
  let zip ← item f 4
  return printTab [id, age, g, showInt occ, zip]

/-- data/movielens100k.py:110-150. -/
def convMl100kUser (text : Str) : Res Str := do
  return head ml100kHeadUser ++ (← (readlines text).mapM ml100kUserLine).flatten

/-- data/movielens100k.py:187-188. -/
def month : Dict String Nat :=
  [("Jan", 1), ("Feb", 2), ("Mar", 3), ("Apr", 4), ("May", 5), ("Jun", 6), ("Jul", 7), ("Aug", 8), ("Sep", 9),
   ("Oct", 10), ("Nov", 11), ("Dec", 12)]

/-- `int(s)`. -/
def pyInt (s : Str) : Res Int :=
  match intOf s with
  | some n => .ok n
  | none => .error .valueError

/-- The release date (data/movielens100k.py:193-198). -/
def date (s : Str) : Res (List Str) :=
  match split '-' s with
  | [d, m, y] => do
    let d ← pyInt d
    let m ← month.getItem (String.ofList m)
    let y ← pyInt y
    return [showInt d, showInt m, showInt y]
  | _ => .ok ["0".toList, "0".toList, "0".toList]

/-- data/movielens100k.py:190-199: one line of the item file. -/
def ml100kItemLine (line : Str) : Res Str := do
  let f := split '|' (chomp line)
  let id ← item f 0
  let name ← item f 1
  let d ← date (← item f 2)
  let url ← item f 4
  return printTab ([id, name] ++ d ++ [join '\t' ((f.take 24).drop 6), url])

/-- data/movielens100k.py:161-199. -/
def convMl100kItem (text : Str) : Res Str := do
  return head ml100kHeadItem ++ (← (readlines text).mapM ml100kItemLine).flatten

/-- data/movielens1m.py:104-106: one line of the event file. -/
def ml1mEventLine (line : Str) : Str := printTab (splitColons (chomp line))

/-- data/movielens1m.py:74-106. -/
def convMl1mEvent (text : Str) : Str := head ml1mHeadEvent ++ (readlines text).flatMap ml1mEventLine

/-- data/movielens1m.py:147. -/
def age : Dict String Nat := [("1", 0), ("18", 1), ("25", 2), ("35", 3), ("45", 4), ("50", 5), ("56", 6)]

/-- data/movielens1m.py:149-158: one line of the user file. -/
def ml1mUserLine (line : Str) : Res Str := do
  let f := splitColons (chomp line)
  let id ← item f 0
  let g ← gender (← item f 1)
  let a ← age.getItem (String.ofList (← item f 2))
  let occ ← item f 3
  let zip ← item f 4
  return printTab [id, g, showInt a, occ, zip.take 5]

/-- data/movielens1m.py:117-158. -/
def convMl1mUser (text : Str) : Res Str := do
  return head ml1mHeadUser ++ (← (readlines text).mapM ml1mUserLine).flatten

/-- data/movielens1m.py:193-197. -/
def genre : Dict String Nat :=
  [("Action", 0), ("Adventure", 1), ("Animation", 2), ("Children's", 3), ("Comedy", 4), ("Crime", 5),
   ("Documentary", 6), ("Drama", 7), ("Fantasy", 8), ("Film-Noir", 9), ("Horror", 10), ("Musical", 11),
   ("Mystery", 12), ("Romance", 13), ("Sci-Fi", 14), ("Thriller", 15), ("War", 16), ("Western", 17)]

/-- `year_p.search(s).group(1)` with `year_p = re.compile(r'\((\d\d\d\d)\)$')` (data/movielens1m.py:199, 207) on a
string without line ends: the last six characters, or `AttributeError`. -/
def year (s : Str) : Res Str :=
  match s.reverse with
  | ')' :: a :: b :: c :: d :: '(' :: _ =>
    if [a, b, c, d].all Char.isDigit then .ok [d, c, b, a] else .error .attributeError
  | _ => .error .attributeError

/-- `re.sub('&#8230;', '…', s)` (data/movielens1m.py:204-205). -/
def ellipsis : Str → Str
  | '&' :: '#' :: '8' :: '2' :: '3' :: '0' :: ';' :: s => Char.ofNat 0x2026 :: ellipsis s
  | c :: s => c :: ellipsis s
  | [] => []

/-- `o = ['0'] * 18; for i in d: o[genre[i]] = '1'` (data/movielens1m.py:209-212). -/
def genres (d : List Str) : Res (List Str) :=
  d.foldlM (fun o i => do
    let k ← genre.getItem (String.ofList i)
    return o.set k "1".toList) (List.replicate 18 "0".toList)

/-- data/movielens1m.py:201-213: one line of the item file. -/
def ml1mItemLine (line : Str) : Res Str := do
  let f := splitColons (chomp line)
  let id ← item f 0
  let name ← item f 1
  let name := if id = "3845".toList then ellipsis name else name
  let y ← year name
  let o ← genres (split '|' (← item f 2))
  return printTab ([id, name, y] ++ o)

/-- data/movielens1m.py:169-213. -/
def convMl1mItem (text : Str) : Res Str := do
  return head ml1mHeadItem ++ (← (readlines text).mapM ml1mItemLine).flatten

/-- data/movielens_mini.py:79-84: what is written for one line. -/
def miniLine (line : Str) : Res Str :=
  if line.head? = some '#' then .ok []
  else do
    let f := split '\t' (chomp line)
    let u ← pyInt (← item f 0)
    if u ≤ 10 then
      let i ← pyInt (← item f 1)
      if i ≤ 10 then .ok line else .ok []
    else .ok []

/-- data/movielens_mini.py:69-84. -/
def convMini (text : Str) : Res Str := do
  return head miniHeadEvent ++ (← (readlines text).mapM miniLine).flatten

/-- data/flixster.py:97-99: one line. -/
def flixsterLine (line : Str) : Res Str := do
  let f := split '\t' (chomp line)
  return printTab [← item f 0, ← item f 1, ← item f 2]

/-- data/flixster.py:75-99. -/
def convFlixster (text : Str) : Res Str := do
  return head flixsterHeadEvent ++ (← (readlines text).mapM flixsterLine).flatten

/-- data/sushi3.py:102-104: one entry of the rating matrix. -/
def sushiEntry (uid : Nat) (p : Str × Nat) : Res Str := do
  let r ← pyInt p.1
  return if 0 ≤ r then printTab [showInt uid, showInt p.2, p.1] else []

/-- data/sushi3.py:101-104: one line. -/
def sushiLine (p : Str × Nat) : Res Str := do
  return (← (split ' ' (chomp p.1)).zipIdx.mapM (sushiEntry p.2)).flatten

/-- data/sushi3.py:76-105. -/
def convSushiEvent (text : Str) : Res Str := do
  return head sushiHeadEvent ++ (← (readlines text).zipIdx.mapM sushiLine).flatten

/-- data/sushi3.py:116-155. -/
def convSushiUser (text : Str) : Str :=
  head sushiHeadUser ++ (readlines text).zipIdx.flatMap (fun p => printTab [showInt p.2, join '\t' (split '\t' (chomp p.1))])

/-- data/sushi3.py:165-205. -/
def convSushiItem (text : Str) : Str :=
  head sushiHeadItem ++ (readlines text).flatMap (fun l => printTab [join '\t' (split '\t' (chomp l))])

end Kam.Convert
