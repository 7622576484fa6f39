/-
Which command lines there are, and how each of them is read: a grammar that says nothing about how argparse goes about it.
-/
import Verif.Args.Model

namespace Kam.Args
open Kam.Convert (Str)

variable {A : Type}

/-- The option strings of the scripts are `-c`, where `c` is no digit, and `--word`, and they are different from each other;
there are two positional arguments that may be left out, or there is one that takes several strings. -/
structure WellFormed (p : Parser A) : Prop where
  name : ∀ q ∈ p.table, (∃ c, c ≠ '-' ∧ c ≠ '=' ∧ c.isDigit = false ∧ q.1 = ['-', c]) ∨
    (∃ w, w ≠ [] ∧ '=' ∉ w ∧ q.1 = '-' :: '-' :: w)
  nodup : (p.table.map (·.1)).Nodup
  positionals : p.positionals = .upTo 2 ∨ p.positionals = .oneOrMore

/-- A negative number without an exponent, such as `-5`, `-0.5` or `-.5`. -/
def Negative (s : Str) : Prop :=
  ∃ ds : Str, (∀ c ∈ ds, c.isDigit) ∧
    ((ds ≠ [] ∧ s = '-' :: ds) ∨ ∃ es : Str, es ≠ [] ∧ (∀ c ∈ es, c.isDigit) ∧ s = '-' :: ds ++ '.' :: es)

/-- Strings that look like an option: what is before the first `=` begins an option string of two dashes, or the first two
characters are an option string. -/
def OptionLike (p : Parser A) (s : Str) : Prop :=
  ∃ q ∈ p.table, (['-', '-'] <+: s ∧ s.takeWhile (· != '=') <+: q.1) ∨ (¬ ['-', '-'] <+: s ∧ q.1 <+: s)

/-- Strings that are arguments: they do not begin with a dash, or are a dash, or do not look like an option and are a
negative number or contain a space. -/
def Plain (p : Parser A) (s : Str) : Prop :=
  s.head? ≠ some '-' ∨ s = ['-'] ∨ (¬ OptionLike p s ∧ (Negative s ∨ ' ' ∈ s))

/-- `c...` after a dash: flags, and at the end an option with its argument attached, or with its arguments following. -/
inductive Bundle (p : Parser A) : Str → List Str → List (Act A) → Prop
  | last {c a args} : (['-', c], a) ∈ p.table → args.length = p.arity a → (∀ x ∈ args, Plain p x) →
      Bundle p [c] args [.opt a args]
  | value {c a v} : (['-', c], a) ∈ p.table → p.arity a = 1 → v ≠ [] → Bundle p (c :: v) [] [.opt a [v]]
  | flag {c a cs args acts} : (['-', c], a) ∈ p.table → p.arity a = 0 → Bundle p cs args acts →
      Bundle p (c :: cs) args (.opt a [] :: acts)

/-- `--w` is an option string, or begins one option string only. -/
def Long (p : Parser A) (w : Str) (a : A) : Prop :=
  ('-' :: '-' :: w, a) ∈ p.table ∨
  ('=' ∉ w ∧ (∀ b, ('-' :: '-' :: w, b) ∉ p.table) ∧
    ∃ n, (n, a) ∈ p.table ∧ '-' :: '-' :: w <+: n ∧ ∀ q ∈ p.table, '-' :: '-' :: w <+: q.1 → q = (n, a))

/-- An option, or several written together, with the arguments. -/
inductive Item (p : Parser A) : List Str → List (Act A) → Prop
  | short {c cs args acts} : c ≠ '-' → cs.head? ≠ some '=' → Bundle p (c :: cs) args acts →
      Item p (('-' :: c :: cs) :: args) acts
  | equals {c a v} : (['-', c], a) ∈ p.table → p.arity a = 1 → Item p ['-' :: c :: '=' :: v] [.opt a [v]]
  | flagEquals {c a cs args acts} : (['-', c], a) ∈ p.table → p.arity a = 0 → Bundle p cs args acts →
      Item p (('-' :: c :: '=' :: cs) :: args) (.opt a [] :: acts)
  | long {w a args} : w ≠ [] → Long p w a → args.length = p.arity a → (∀ x ∈ args, Plain p x) →
      Item p (('-' :: '-' :: w) :: args) [.opt a args]
  | longEquals {w a v} : Long p w a → p.arity a = 1 → Item p ['-' :: '-' :: w ++ '=' :: v] [.opt a [v]]

/-- Options one after the other. -/
inductive Options (p : Parser A) : List Str → List (Act A) → Prop
  | nil : Options p [] []
  | cons {xs ys as bs} : Item p xs as → Options p ys bs → Options p (xs ++ ys) (as ++ bs)

/-- The two optional positional arguments; `--` cannot be the second one. -/
def two : List Str → List (Act A)
  | [] => [.pos 0 [], .pos 1 []]
  | [x] => [.pos 0 [x], .pos 1 []]
  | x :: y :: _ => [.pos 0 [x], .pos 1 (if y = ['-', '-'] then [] else [y])]

/-- The command lines of a script: options, the positional arguments in one block, and options again; or options and
positional arguments with a `--`, after which there are positional arguments only. -/
inductive Line (p : Parser A) : List Str → List (Act A) → Prop
  | options {l as} : p.positionals = .upTo 2 → Options p l as → Line p l as
  | two {l r pos as bs} : p.positionals = .upTo 2 → Options p l as → pos ≠ [] → pos.length ≤ 2 → (∀ x ∈ pos, Plain p x) →
      Options p r bs → Line p (l ++ pos ++ r) (as ++ two pos ++ bs)
  | twoDashes {l pos pos' as} : p.positionals = .upTo 2 → Options p l as → (∀ x ∈ pos, Plain p x) →
      (pos ++ pos').length ≤ 2 → Line p (l ++ pos ++ ['-', '-'] :: pos') (as ++ Args.two (pos ++ pos'))
  | more {l r pos as bs} : p.positionals = .oneOrMore → Options p l as → pos ≠ [] → (∀ x ∈ pos, Plain p x) →
      Options p r bs → Line p (l ++ pos ++ r) (as ++ [.pos 0 pos] ++ bs)
  | moreDashes {l pos pos' as} : p.positionals = .oneOrMore → Options p l as → (∀ x ∈ pos, Plain p x) →
      pos ++ pos' ≠ [] → Line p (l ++ pos ++ ['-', '-'] :: pos') (as ++ [.pos 0 (pos ++ pos')])

end Kam.Args
