/-
How argparse reads the strings of a command line: `ArgumentParser.parse_args` with the arguments the scripts declare
(exp_recsys_sp.py:186-236, exp_recsys_if.py:191-241, exp_recsys_fold_merge.py:204-225, stats_recsys.py:161-190).

The scripts need a Python before 3.9 (`json.load(..., encoding=)`); the model follows argparse.py of these releases
(`_parse_known_args`, `_parse_optional`, `_get_option_tuples`, `_match_argument`, `_match_arguments_partial`), which is part
of the trusted base.  Here the strings are divided among the arguments that are declared, as a list of the actions argparse
takes; Verif/Args/Scripts converts the strings and takes the actions.
Simplified: digits of negative numbers are ASCII, a string does not end with a newline, and `--` as an explicit argument
(`--out=--`), of which argparse makes an empty list, is left as it is.
-/
import Verif.Convert.Text

namespace Kam.Args
open Kam.Convert (Str)

/-- The positional arguments of a script: at most `n` (each of them declared with `nargs='?'`), or one that takes all of them
and needs one (`nargs='+'`). -/
inductive Positionals where
  | upTo (n : Nat)
  | oneOrMore
  deriving DecidableEq

/-- The arguments declared by a script: the option strings with the options they belong to
(`_option_string_actions`), the number of strings an option takes, and the positional arguments. -/
structure Parser (A : Type) where
  table : List (Str × A)
  arity : A → Nat
  positionals : Positionals

variable {A : Type}

/-- What argparse takes a string for: an argument, the string `--`, an option with what is attached to it, or an option
that is not declared. -/
inductive Tok (A : Type) where
  | arg
  | dashes
  | opt (a : A) (name : Str) (explicit : Option Str)
  | unknown

/-- `option_string in self._option_string_actions`. -/
def lookup (table : List (Str × A)) (s : Str) : Option A := (table.find? (fun p => p.1 == s)).map (·.2)

/-- `_negative_number_matcher`: `^-\d+$|^-\d*\.\d+$`. -/
def negative (s : Str) : Bool :=
  match s with
  | '-' :: r => match r.dropWhile Char.isDigit with
    | [] => !r.isEmpty
    | '.' :: es => !es.isEmpty && es.all Char.isDigit
    | _ => false
  | _ => false

/-- `arg_string.split('=', 1)`, when there is a `=`. -/
def splitEq (s : Str) : Option (Str × Str) :=
  match s.dropWhile (· != '=') with
  | [] => none
  | _ :: v => some (s.takeWhile (· != '='), v)

/-- `_get_option_tuples`. -/
def tuples (table : List (Str × A)) (s : Str) : List (A × Str × Option Str) :=
  match s with
  | '-' :: '-' :: _ =>
    let (pre, e) : Str × Option Str := match splitEq s with
      | some (n, v) => (n, some v)
      | none => (s, none)
    table.filterMap (fun p => if pre.isPrefixOf p.1 then some (p.2, p.1, e) else none)
  | _ => table.filterMap (fun p =>
    if p.1 == s.take 2 then some (p.2, p.1, some (s.drop 2))
    else if s.isPrefixOf p.1 then some (p.2, p.1, none) else none)

/-- `option_string, explicit_arg = arg_string.split('=', 1)` with `option_string in self._option_string_actions`. -/
def withEq (table : List (Str × A)) (s : Str) : Option (A × Str × Str) :=
  match splitEq s with
  | some (n, v) => (lookup table n).map (fun a => (a, n, v))
  | none => none

/-- `_parse_optional`; `none`: the option is ambiguous. -/
def classify (table : List (Str × A)) (s : Str) : Option (Tok A) :=
  match s with
  | '-' :: r =>
    match lookup table s with
    | some a => some (.opt a s none)
    | none =>
      if r.isEmpty then some .arg
      else match withEq table s with
        | some (a, n, v) => some (.opt a n (some v))
        | none => match tuples table s with
          | [(a, n, e)] => some (.opt a n e)
          | [] => if negative s || s.contains ' ' then some .arg else some .unknown
          | _ => none
  | _ => some .arg

/-- The kinds of all the strings (the first loop of `_parse_known_args`): after `--` there are arguments only. -/
def scan (table : List (Str × A)) : List Str → Option (List (Str × Tok A))
  | [] => some []
  | s :: ss =>
    if s = ['-', '-'] then some ((s, .dashes) :: ss.map (fun x => (x, .arg)))
    else match classify table s with
      | none => none
      | some t => (scan table ss).map ((s, t) :: ·)

/-- An action: an option with its arguments, or a positional argument, by its number, with its strings. -/
inductive Act (A : Type) where
  | opt (a : A) (args : List Str)
  | pos (i : Nat) (args : List Str)
  deriving DecidableEq

/-- How the division of the strings ends: all is well, a message about the usage, or an exception from inside argparse. -/
inductive End where
  | ok
  | usage
  | indexError
  deriving DecidableEq

/-- `match_argument` for `n` arguments: the strings, and what follows. -/
def takeArgs : Nat → List (Str × Tok A) → Option (List Str × List (Str × Tok A))
  | 0, ts => some ([], ts)
  | n + 1, (s, .arg) :: ts => (takeArgs n ts).map (fun p => (s :: p.1, p.2))
  | _ + 1, _ => none

/-- The loop of `consume_optional` while something is attached to a short option: options that take no argument may be
written together. -/
def attached (p : Parser A) (ts : List (Str × Tok A)) : Str → A → Str → Except End (List (Act A) × List (Str × Tok A))
  | [], a, name =>
    if p.arity a = 1 then .ok ([.opt a [[]]], ts)
    else if p.arity a = 0 ∧ name.tail.head? ≠ some '-' then .error .indexError
    else .error .usage
  | c :: e, a, name =>
    if p.arity a = 1 then .ok ([.opt a [c :: e]], ts)
    else if p.arity a = 0 ∧ name.tail.head? ≠ some '-' then
      match lookup p.table ['-', c] with
      | none => .error .usage
      | some b =>
        (if e.isEmpty then
          match takeArgs (p.arity b) ts with
          | none => .error .usage
          | some (args, ts') => .ok ([.opt b args], ts')
        else attached p ts e b ['-', c]).map (fun q => (.opt a [] :: q.1, q.2))
    else .error .usage

/-- `consume_optional`. -/
def optional (p : Parser A) (a : A) (name : Str) (explicit : Option Str) (ts : List (Str × Tok A)) :
    Except End (List (Act A) × List (Str × Tok A)) :=
  match explicit with
  | some e => attached p ts e a name
  | none => match takeArgs (p.arity a) ts with
    | none => .error .usage
    | some (args, ts') => .ok ([.opt a args], ts')

/-- A token that is no option. -/
def Tok.plain : Tok A → Bool
  | .arg => true
  | .dashes => true
  | _ => false

/-- A token that is `--`. -/
def Tok.isDashes : Tok A → Bool
  | .dashes => true
  | _ => false

/-- The strings that `nargs='?'` takes: the pattern `-*A?-*`. -/
def takeOne (ts : List (Str × Tok A)) : List Str × List (Str × Tok A) :=
  let d := ts.takeWhile (fun t => t.2.isDashes)
  let ts := ts.dropWhile (fun t => t.2.isDashes)
  match ts with
  | (s, .arg) :: ts =>
    (d.map (·.1) ++ s :: (ts.takeWhile (fun t => t.2.isDashes)).map (·.1), ts.dropWhile (fun t => t.2.isDashes))
  | _ => (d.map (·.1), ts)

/-- `arg_strings.remove('--')` in `_get_values`. -/
def values (args : List Str) : List Str := args.erase ['-', '-']

/-- Positional arguments `i`, `i + 1`, ..., `n` of them, declared with `nargs='?'`. -/
def takeUpTo : Nat → Nat → List (Str × Tok A) → List (Act A) × List (Str × Tok A)
  | 0, _, ts => ([], ts)
  | n + 1, i, ts =>
    let (args, ts) := takeOne ts
    let (acts, ts) := takeUpTo n (i + 1) ts
    (.pos i (values args) :: acts, ts)

/-- `consume_positionals`, while no positional argument has been taken: the actions, what follows, and whether positional
arguments are left to be taken.  The pattern of `nargs='+'` is `-*A[A-]*`. -/
def positional (ps : Positionals) (ts : List (Str × Tok A)) : List (Act A) × List (Str × Tok A) × Bool :=
  match ps with
  | .upTo n =>
    let (acts, ts) := takeUpTo n 0 ts
    (acts, ts, false)
  | .oneOrMore =>
    let block := ts.takeWhile (fun t => t.2.plain)
    if block.all (fun t => t.2.isDashes) then ([], ts, true)
    else ([.pos 0 (values (block.map (·.1)))], ts.dropWhile (fun t => t.2.plain), false)

lemma takeArgs_length : ∀ {n : Nat} {ts ts' : List (Str × Tok A)} {args : List Str}, takeArgs n ts = some (args, ts') →
    ts'.length + n = ts.length
  | 0, ts, ts', args, h => by cases h; rfl
  | n + 1, [], ts', args, h => by cases h
  | n + 1, (s, t) :: ts, ts', args, h => by
    cases t with
    | arg =>
      rw [takeArgs] at h
      cases h2 : takeArgs n ts with
      | none => rw [h2] at h; cases h
      | some q =>
        rw [h2] at h
        cases h
        have := takeArgs_length (ts' := q.2) (args := q.1) h2
        simp only [List.length_cons]
        omega
    | dashes => cases h
    | opt a n e => cases h
    | unknown => cases h

lemma attached_length (p : Parser A) (ts : List (Str × Tok A)) : ∀ (e : Str) (a : A) (name : Str)
    {q : List (Act A) × List (Str × Tok A)}, attached p ts e a name = .ok q → q.2.length ≤ ts.length
  | [], a, name, q, h => by
    rw [attached] at h
    split at h
    · cases h; exact le_refl _
    · split at h <;> cases h
  | c :: e, a, name, q, h => by
    rw [attached] at h
    split at h
    · cases h; exact le_refl _
    · split at h
      · cases hl : lookup p.table ['-', c] with
        | none => rw [hl] at h; cases h
        | some b =>
          rw [hl] at h
          simp only [] at h
          split at h
          · cases ht : takeArgs (p.arity b) ts with
            | none => rw [ht] at h; cases h
            | some r =>
              rw [ht] at h
              cases h
              have := takeArgs_length ht
              simp only []
              omega
          · cases ha : attached p ts e b ['-', c] with
            | error x => rw [ha] at h; cases h
            | ok r =>
              rw [ha] at h
              cases h
              exact attached_length p ts e b ['-', c] (q := r) ha
      · cases h

lemma optional_length {p : Parser A} {a : A} {name : Str} {e : Option Str} {ts : List (Str × Tok A)}
    {q : List (Act A) × List (Str × Tok A)} (h : optional p a name e ts = .ok q) : q.2.length ≤ ts.length := by
  unfold optional at h
  cases e with
  | some e => exact attached_length p ts e a name h
  | none =>
    simp only [] at h
    cases ht : takeArgs (p.arity a) ts with
    | none => rw [ht] at h; cases h
    | some r =>
      rw [ht] at h
      cases h
      have := takeArgs_length ht
      simp only []
      omega

lemma takeOne_length (ts : List (Str × Tok A)) : (takeOne ts).2.length ≤ ts.length := by
  unfold takeOne
  have h1 : (ts.dropWhile (fun t => t.2.isDashes)).length ≤ ts.length := (List.dropWhile_sublist _).length_le
  simp only []
  split
  · rename_i s ts' h
    rw [h] at h1
    have h2 : (ts'.dropWhile (fun t => t.2.isDashes)).length ≤ ts'.length := (List.dropWhile_sublist _).length_le
    simp only [List.length_cons] at h1
    simp only []
    omega
  · exact h1

lemma takeUpTo_length : ∀ (n i : Nat) (ts : List (Str × Tok A)), (takeUpTo n i ts).2.length ≤ ts.length
  | 0, _, ts => le_refl _
  | n + 1, i, ts => by
    rw [takeUpTo]
    simp only []
    exact (takeUpTo_length n (i + 1) _).trans (takeOne_length ts)

lemma positional_length (ps : Positionals) (ts : List (Str × Tok A)) : (positional ps ts).2.1.length ≤ ts.length := by
  unfold positional
  cases ps with
  | upTo n => exact takeUpTo_length n 0 ts
  | oneOrMore =>
    simp only []
    split
    · exact le_refl _
    · exact (List.dropWhile_sublist _).length_le

/-- The loop of `_parse_known_args` and the check of `parse_args`: `left` says whether positional arguments are still to be
taken, `extra` whether a string was left over. -/
def loop (p : Parser A) (left extra : Bool) (ts : List (Str × Tok A)) : List (Act A) × End :=
  match ts with
  | [] => ([], if extra || (left && p.positionals == .oneOrMore) then .usage else .ok)
  | (s, .opt a name e) :: ts =>
    match h : optional p a name e ts with
    | .error x => ([], x)
    | .ok (acts, ts') =>
      have : ts'.length ≤ ts.length := optional_length h
      let r := loop p left extra ts'
      (acts ++ r.1, r.2)
  | (_, .unknown) :: ts => loop p left true ts
  | (s, t) :: ts =>
    if left then
      have : (positional p.positionals ((s, t) :: ts)).2.1.length ≤ ts.length + 1 := positional_length _ _
      if (positional p.positionals ((s, t) :: ts)).2.1.length = ts.length + 1 then
        let r := loop p (positional p.positionals ((s, t) :: ts)).2.2 true ts
        ((positional p.positionals ((s, t) :: ts)).1 ++ r.1, r.2)
      else
        let r := loop p (positional p.positionals ((s, t) :: ts)).2.2 extra (positional p.positionals ((s, t) :: ts)).2.1
        ((positional p.positionals ((s, t) :: ts)).1 ++ r.1, r.2)
    else loop p false true ts
termination_by ts.length
decreasing_by all_goals simp_all only [List.length_cons]; omega

/-- `parse_args`: the actions taken, and how it ends. -/
def parse (p : Parser A) (argv : List Str) : List (Act A) × End :=
  match scan p.table argv with
  | none => ([], .usage)
  | some ts => loop p true false ts

end Kam.Args
