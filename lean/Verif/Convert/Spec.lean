/-
Vocabulary of the properties of text files, independent of the readers in the model.
-/
import Verif.Convert.Model

namespace Kam.Convert.Spec

variable {K : Type} [Field K] [LinearOrder K] [FloorRing K]

/-- A text whose lines are `ls`: the lines end in `"\n"` or `"\r\n"`, the last one may have no end. -/
inductive Text : List Str → Str → Prop
  | nil : Text [] []
  | last {l : Str} : l ≠ [] → Text [l] l
  | lf {l : Str} {ls : List Str} {t : Str} : Text ls t → Text (l :: ls) (l ++ '\n' :: t)
  | crlf {l : Str} {ls : List Str} {t : Str} : Text ls t → Text (l :: ls) (l ++ '\r' :: '\n' :: t)

/-- A line without line ends. -/
def Plain (l : Str) : Prop := '\n' ∉ l ∧ '\r' ∉ l

/-- A field: no tabulator, no line end and no comment sign. -/
def Clean (f : Str) : Prop := '\t' ∉ f ∧ '\n' ∉ f ∧ '\r' ∉ f ∧ '#' ∉ f

/-- Fields that make a line which is not empty and neither starts nor ends in a blank. -/
structure Tidy (fs : List Str) : Prop where
  clean : ∀ f ∈ fs, Clean f
  ne : join '\t' fs ≠ []
  first : (join '\t' fs).head? ≠ some ' '
  last : (join '\t' fs).getLast? ≠ some ' '

/-- `Rows ls rows`: the lines `ls` are blank lines, comments, and the rows of fields, in this order; a row may have
blanks around it and a comment behind. -/
inductive Rows : List Str → List (List Str) → Prop
  | nil : Rows [] []
  | blank {n : Nat} {ls : List Str} {rows : List (List Str)} :
      Rows ls rows → Rows (List.replicate n ' ' :: ls) rows
  | comment {n : Nat} {c : Str} {ls : List Str} {rows : List (List Str)} :
      Rows ls rows → Rows ((List.replicate n ' ' ++ '#' :: c) :: ls) rows
  | row {fs : List Str} {ls : List Str} {rows : List (List Str)} :
      Tidy fs → Rows ls rows → Rows (join '\t' fs :: ls) (fs :: rows)
  | padded {a b : Nat} {fs : List Str} {ls : List Str} {rows : List (List Str)} :
      Tidy fs → Rows ls rows → Rows ((List.replicate a ' ' ++ join '\t' fs ++ List.replicate b ' ') :: ls) (fs :: rows)
  | remark {a b : Nat} {fs : List Str} {c : Str} {ls : List Str} {rows : List (List Str)} :
      Tidy fs → Rows ls rows →
      Rows ((List.replicate a ' ' ++ join '\t' fs ++ List.replicate b ' ' ++ '#' :: c) :: ls) (fs :: rows)

/-- A data file with the rows of fields. -/
def File (text : Str) (rows : List (List Str)) : Prop :=
  ∃ ls, Text ls text ∧ (∀ l ∈ ls, Plain l) ∧ Rows ls rows

/-- The decimal numeral of `m / 10 ^ k`, with `k` digits behind the point. -/
def showDec (m : Int) (k : Nat) : Str :=
  let digits := Nat.toDigits 10 m.natAbs
  let padded := List.replicate (k + 1 - digits.length) '0' ++ digits
  let body := if k = 0 then padded else padded.take (padded.length - k) ++ '.' :: padded.drop (padded.length - k)
  if m < 0 then '-' :: body else body

/-- `Shows t s c`: the text `s` stands for the value `c` in a column of type `t`. -/
inductive Shows : FType → Str → Cell K → Prop
  | int (n : Int) : Shows .int (showInt n) (.int n)
  | num (m : Int) (k : Nat) : Shows .float (showDec m k) (.num ((m : K) / 10 ^ k))
  | str {n : Nat} {s : Str} : s.length ≤ n → Shows (.str n) s (.str s)

/-- The fields stand for the values of the columns; there may be more fields than columns. -/
inductive Written : List FType → List Str → List (Cell K) → Prop
  | nil (extra : List Str) : Written [] extra []
  | cons {t : FType} {s : Str} {c : Cell K} {ts : List FType} {ss : List Str} {cs : List (Cell K)} :
      Shows t s c → Written ts ss cs → Written (t :: ts) (s :: ss) (c :: cs)

/-- The values in a line of an event file. -/
structure Entry (K : Type) where
  ids : List Int
  score : K
  feats : List (Cell K)

/-- The columns of a scored event. -/
def Entry.cells (e : Entry K) : List (Cell K) := e.ids.map Cell.int ++ .num e.score :: e.feats

/-- The columns of an event without score. -/
def Entry.bare (e : Entry K) : List (Cell K) := e.ids.map Cell.int ++ e.feats

/-- External events, as `to_eid_event` gives them. -/
def Reads {α φ ε : Type} [LinearOrder α] (d : EventData α φ ε) (rows : List (List α)) : Prop :=
  ∃ iev, d.event = some iev ∧ d.toEidEvent (.mat ⟨d.sEvent, iev⟩) = .ok (.mat ⟨d.sEvent, rows⟩)

/-- A line of an event file: a comment, or two ids and further fields. -/
inductive MiniLine
  | comment (c : Str)
  | event (u i : Int) (rest : List Str)

/-- The text of the line. -/
def MiniLine.text : MiniLine → Str
  | .comment c => '#' :: c
  | .event u i rest => join '\t' (showInt u :: showInt i :: rest)

/-- The events of the small data set. -/
def MiniLine.kept : MiniLine → Bool
  | .comment _ => false
  | .event u i _ => u ≤ 10 && i ≤ 10

/-- No line end, and no tabulator inside of a field. -/
def MiniLine.Ok : MiniLine → Prop
  | .comment c => Plain c
  | .event _ _ rest => ∀ f ∈ rest, '\t' ∉ f ∧ Plain f

end Kam.Convert.Spec
