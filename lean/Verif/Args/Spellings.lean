/-
The options as they are documented at the head of each script (exp_recsys_sp.py:35-84, exp_recsys_if.py:35-82,
exp_recsys_fold_merge.py:19-27, stats_recsys.py:29-41), and the theorems that a command line of documented options does what
the documentation says.  Nothing here looks at the tables of the parsers.
-/
import Verif.Args.Order
import Verif.Args.Files

set_option linter.unusedSectionVars false

namespace Kam.Args
open Kam.Convert (Str)
open Shell
open Exp (Arg Namespace Seen parseArg defaults Script)

variable {F C A σ : Type}

/-- A value that is written after an option. -/
abbrev Value (p : Parser A) (s : Str) : Prop := Plain p s

/-- A name of a file that is written after an option. -/
def FileName (p : Parser A) (s : Str) : Prop := Plain p s ∧ s ≠ ['-']

/-- The documented options of the experiment scripts, with `--verbose`, which the documentation leaves out. -/
inductive ExpDoc (rd : Reader F) : List Str → Arg F → Prop
  | input {o s} : o ∈ ["-i".toList, "--in".toList] → FileName expParser s → ExpDoc rd [o, s] (.infile (rd.file s))
  | test {o s} : o ∈ ["-t".toList, "--test".toList] → FileName expParser s → ExpDoc rd [o, s] (.testfile (rd.file s))
  | output {o s} : o ∈ ["-o".toList, "--out".toList] → FileName expParser s → ExpDoc rd [o, s] (.outfile (rd.file s))
  | method {o s} : o ∈ ["-m".toList, "--method".toList] → Value expParser s → ExpDoc rd [o, s] (.method (String.ofList s))
  | validation {o s} : o ∈ ["-v".toList, "--validation".toList] → Value expParser s →
      ExpDoc rd [o, s] (.validation (String.ofList s))
  | fold {o s n} : o ∈ ["-f".toList, "--fold".toList] → Value expParser s → rd.int s = some n → ExpDoc rd [o, s] (.fold n)
  | foldNo {o s n} : o ∈ ["-n".toList, "--fold-no".toList] → Value expParser s → rd.int s = some n → ExpDoc rd [o, s] (.foldNo n)
  | noTimestamp : ExpDoc rd ["--no-timestamp".toList] .noTimestamp
  | timestamp : ExpDoc rd ["--timestamp".toList] .timestamp
  | domain {o r s t x y z} : o ∈ ["-d".toList, "--domain".toList] → Value expParser r → Value expParser s → Value expParser t →
      rd.float r = some x → rd.float s = some y → rd.float t = some z → ExpDoc rd [o, r, s, t] (.domain x y z)
  | regularization {o s x} : o ∈ ["-C".toList, "--lambda".toList] → Value expParser s → rd.float s = some x →
      ExpDoc rd [o, s] (.C x)
  | dim {o s n} : o ∈ ["-k".toList, "--dim".toList] → Value expParser s → rd.int s = some n → ExpDoc rd [o, s] (.dim n)
  | alpha {s x} : Value expParser s → rd.float s = some x → ExpDoc rd ["--alpha".toList, s] (.alpha x)
  | tol {s x} : Value expParser s → rd.float s = some x → ExpDoc rd ["--tol".toList, s] (.tol x)
  | maxiter {s n} : Value expParser s → rd.int s = some n → ExpDoc rd ["--maxiter".toList, s] (.maxiter n)
  | quiet {o} : o ∈ ["-q".toList, "--quiet".toList] → ExpDoc rd [o] .quiet
  | verbose : ExpDoc rd ["--verbose".toList] .verbose
  | rseed {s n} : Value expParser s → rd.int s = some n → ExpDoc rd ["--rseed".toList, s] (.rseed n)

/-- The documented options of exp_recsys_fold_merge.py, with `--verbose`, which the documentation leaves out. -/
inductive MergeDoc (rd : Reader F) : List Str → MergeArg F → Prop
  | output {o s} : o ∈ ["-o".toList, "--out".toList] → FileName mergeParser s → MergeDoc rd [o, s] (.outfile (rd.file s))
  | quiet {o} : o ∈ ["-q".toList, "--quiet".toList] → MergeDoc rd [o] .quiet
  | verbose : MergeDoc rd ["--verbose".toList] .verbose

/-- The documented options of stats_recsys.py, with `--rseed`, which the documentation leaves out. -/
inductive StatsDoc (rd : Reader F) : List Str → StatsArg F → Prop
  | input {o s} : o ∈ ["-i".toList, "--in".toList] → FileName statsParser s → StatsDoc rd [o, s] (.infile (rd.file s))
  | output {o s} : o ∈ ["-o".toList, "--out".toList] → FileName statsParser s → StatsDoc rd [o, s] (.outfile (rd.file s))
  | noKeepdata : StatsDoc rd ["--no-keepdata".toList] .noKeepdata
  | keepdata : StatsDoc rd ["--keepdata".toList] .keepdata
  | rseed {s n} : Value statsParser s → rd.int s = some n → StatsDoc rd ["--rseed".toList, s] (.rseed n)

/-- An option string followed by its values. -/
lemma spelled_item {p : Parser A} (hp : WellFormed p) {o : Str} {a : A} {args : List Str} (ho : (o, a) ∈ p.table)
    (hn : args.length = p.arity a) (ha : ∀ x ∈ args, Plain p x) : Item p (o :: args) [.opt a args] := by
  rcases hp.name _ ho with ⟨c, hc, _, _, h⟩ | ⟨w, hw, _, h⟩
  · simp only at h
    subst h
    exact .short hc (by simp) (.last ho hn ha)
  · simp only at h
    subst h
    exact .long hw (.inl ho) hn ha

lemma item_append {p : Parser A} {xs ys : List Str} {a : Act A} {as : List (Act A)} (h : Item p xs [a]) (hs : Options p ys as) :
    Options p (xs ++ ys) (a :: as) := .cons h hs

lemma expDoc_item {rd : Reader F} {xs : List Str} {b : Arg F} (h : ExpDoc rd xs b) :
    ∃ a, Item expParser xs [a] ∧ ExpMeans rd a b := by
  have two : ∀ {o x y : Str} {a : ExpOpt}, o ∈ [x, y] → (x, a) ∈ expParser.table → (y, a) ∈ expParser.table →
      (o, a) ∈ expParser.table := by
    intro o x y a h hx hy
    rcases List.mem_cons.1 h with rfl | h
    · exact hx
    · rw [List.mem_singleton.1 h]; exact hy
  have one : ∀ {s : Str}, Plain expParser s → ∀ x ∈ [s], Plain expParser x := by
    intro s hs x hx
    rw [List.mem_singleton.1 hx]; exact hs
  have three : ∀ {r s t : Str}, Plain expParser r → Plain expParser s → Plain expParser t → ∀ x ∈ [r, s, t], Plain expParser x := by
    intro r s t hr hs ht x hx
    simp only [List.mem_cons, List.not_mem_nil, or_false] at hx
    rcases hx with rfl | rfl | rfl <;> assumption
  have W := expParser_wellFormed
  cases h with
  | input ho hs => exact ⟨_, spelled_item W (a := .infile) (two ho (by decide +kernel) (by decide +kernel)) rfl (one hs.1), .infile hs.2⟩
  | test ho hs => exact ⟨_, spelled_item W (a := .testfile) (two ho (by decide +kernel) (by decide +kernel)) rfl (one hs.1), .testfile hs.2⟩
  | output ho hs => exact ⟨_, spelled_item W (a := .outfile) (two ho (by decide +kernel) (by decide +kernel)) rfl (one hs.1), .outfile hs.2⟩
  | method ho hs => exact ⟨_, spelled_item W (a := .method) (two ho (by decide +kernel) (by decide +kernel)) rfl (one hs), .method⟩
  | validation ho hs => exact ⟨_, spelled_item W (a := .validation) (two ho (by decide +kernel) (by decide +kernel)) rfl (one hs), .validation⟩
  | fold ho hs hn => exact ⟨_, spelled_item W (a := .fold) (two ho (by decide +kernel) (by decide +kernel)) rfl (one hs), .fold hn⟩
  | foldNo ho hs hn => exact ⟨_, spelled_item W (a := .foldNo) (two ho (by decide +kernel) (by decide +kernel)) rfl (one hs), .foldNo hn⟩
  | noTimestamp => exact ⟨_, spelled_item W (a := .noTimestamp) (by decide +kernel) rfl (by simp), .noTimestamp⟩
  | timestamp => exact ⟨_, spelled_item W (a := .timestamp) (by decide +kernel) rfl (by simp), .timestamp⟩
  | domain ho hr hs ht h1 h2 h3 =>
    exact ⟨_, spelled_item W (a := .domain) (two ho (by decide +kernel) (by decide +kernel)) rfl (three hr hs ht), .domain h1 h2 h3⟩
  | regularization ho hs hn => exact ⟨_, spelled_item W (a := .C) (two ho (by decide +kernel) (by decide +kernel)) rfl (one hs), .C hn⟩
  | dim ho hs hn => exact ⟨_, spelled_item W (a := .dim) (two ho (by decide +kernel) (by decide +kernel)) rfl (one hs), .dim hn⟩
  | alpha hs hn => exact ⟨_, spelled_item W (a := .alpha) (by decide +kernel) rfl (one hs), .alpha hn⟩
  | tol hs hn => exact ⟨_, spelled_item W (a := .tol) (by decide +kernel) rfl (one hs), .tol hn⟩
  | maxiter hs hn => exact ⟨_, spelled_item W (a := .maxiter) (by decide +kernel) rfl (one hs), .maxiter hn⟩
  | quiet ho => exact ⟨_, spelled_item W (a := .quiet) (two ho (by decide +kernel) (by decide +kernel)) rfl (by simp), .quiet⟩
  | verbose => exact ⟨_, spelled_item W (a := .verbose) (by decide +kernel) rfl (by simp), .verbose⟩
  | rseed hs hn => exact ⟨_, spelled_item W (a := .rseed) (by decide +kernel) rfl (one hs), .rseed hn⟩

lemma mergeDoc_item {rd : Reader F} {xs : List Str} {b : MergeArg F} (h : MergeDoc rd xs b) :
    ∃ a, Item mergeParser xs [a] ∧ MergeMeans rd a b := by
  have W := mergeParser_wellFormed
  cases h with
  | output ho hs =>
    refine ⟨.opt .outfile _, spelled_item W ?_ rfl (by intro x hx; rw [List.mem_singleton.1 hx]; exact hs.1), .outfile hs.2⟩
    simp only [List.mem_cons, List.not_mem_nil, or_false] at ho
    rcases ho with rfl | rfl <;> decide +kernel
  | quiet ho =>
    refine ⟨.opt .quiet [], spelled_item W ?_ rfl (by simp), .quiet⟩
    simp only [List.mem_cons, List.not_mem_nil, or_false] at ho
    rcases ho with rfl | rfl <;> decide +kernel
  | verbose => exact ⟨_, spelled_item W (a := .verbose) (by decide +kernel) rfl (by simp), .verbose⟩

lemma statsDoc_item {rd : Reader F} {xs : List Str} {b : StatsArg F} (h : StatsDoc rd xs b) :
    ∃ a, Item statsParser xs [a] ∧ StatsMeans rd a b := by
  have W := statsParser_wellFormed
  have one : ∀ {s : Str}, Plain statsParser s → ∀ x ∈ [s], Plain statsParser x := by
    intro s hs x hx
    rw [List.mem_singleton.1 hx]; exact hs
  cases h with
  | input ho hs =>
    refine ⟨.opt .infile _, spelled_item W ?_ rfl (one hs.1), .infile hs.2⟩
    simp only [List.mem_cons, List.not_mem_nil, or_false] at ho
    rcases ho with rfl | rfl <;> decide +kernel
  | output ho hs =>
    refine ⟨.opt .outfile _, spelled_item W ?_ rfl (one hs.1), .outfile hs.2⟩
    simp only [List.mem_cons, List.not_mem_nil, or_false] at ho
    rcases ho with rfl | rfl <;> decide +kernel
  | noKeepdata => exact ⟨_, spelled_item W (a := .noKeepdata) (by decide +kernel) rfl (by simp), .noKeepdata⟩
  | keepdata => exact ⟨_, spelled_item W (a := .keepdata) (by decide +kernel) rfl (by simp), .keepdata⟩
  | rseed hs hn => exact ⟨_, spelled_item W (a := .rseed) (by decide +kernel) rfl (one hs), .rseed hn⟩

/-- Pieces of a line, each of which is one option with its values. -/
lemma pieces {B : Type} {p : Parser A} {D : List Str → B → Prop} {M : Act A → B → Prop}
    (hD : ∀ {xs b}, D xs b → ∃ a, Item p xs [a] ∧ M a b) {l : List (List Str)} {args : List B} (h : List.Forall₂ D l args) :
    ∃ as, Options p l.flatten as ∧ List.Forall₂ M as args := by
  induction h with
  | nil => exact ⟨[], .nil, .nil⟩
  | cons h1 _ ih =>
    obtain ⟨a, ha, hm⟩ := hD h1
    obtain ⟨as, has, hms⟩ := ih
    exact ⟨a :: as, item_append ha has, .cons hm hms⟩

variable [DecidableEq F] {α φ ε V T γ : Type} [LinearOrder α]

/-- C128: an experiment script called with documented options and with file names after them does what is documented for these
options and files. -/
theorem C128_documented_experiment (S : Setup F C α φ ε V T γ) (m : Machine V T) (rd : Reader F) (sc : Script)
    {l : List (List Str)} {pos : List Str} {args : List (Arg F)} (hl : List.Forall₂ (ExpDoc rd) l args)
    (hpos : ∀ x ∈ pos, FileName expParser x) (hlen : pos.length ≤ 2) :
    expLine S m rd sc (l.flatten ++ pos) = (Command.exp sc args (pos.map rd.file)).prog S m := by
  obtain ⟨as, h1, h2⟩ := pieces (fun h => expDoc_item h) hl
  exact C128_experiment S m rd sc h1 h2 hpos hlen

/-- C128: the same for exp_recsys_fold_merge.py. -/
theorem C128_documented_merge (S : Setup F C α φ ε V T γ) (m : Machine V T) (rd : Reader F) {l : List (List Str)} {pos : List Str}
    {args : List (MergeArg F)} (hl : List.Forall₂ (MergeDoc rd) l args) (hpos : ∀ x ∈ pos, FileName mergeParser x) (h0 : pos ≠ []) :
    mergeLine S rd (l.flatten ++ pos) = (Command.merge args (pos.map rd.file)).prog S m := by
  obtain ⟨as, h1, h2⟩ := pieces (fun h => mergeDoc_item h) hl
  exact C128_merge S m rd h1 h2 hpos h0

/-- C128: the same for stats_recsys.py. -/
theorem C128_documented_stats (S : Setup F C α φ ε V T γ) (m : Machine V T) (rd : Reader F) {l : List (List Str)} {pos : List Str}
    {args : List (StatsArg F)} (hl : List.Forall₂ (StatsDoc rd) l args) (hpos : ∀ x ∈ pos, FileName statsParser x)
    (hlen : pos.length ≤ 2) :
    statsLine S rd (l.flatten ++ pos) = (Command.stats args (pos.map rd.file)).prog S m := by
  obtain ⟨as, h1, h2⟩ := pieces (fun h => statsDoc_item h) hl
  exact C128_stats S m rd h1 h2 hpos hlen

/-! ### Strings that end the script, and strings that are no options -/

/-- C128: `-h`, `--help` and `--version` end every script at once, before any file is opened. -/
theorem C128_help (S : Setup F C α φ ε V T γ) (m : Machine V T) (rd : Reader F) (sc : Script) {o : Str}
    (ho : o ∈ ["-h".toList, "--help".toList, "--version".toList]) :
    expLine S m rd sc [o] = .done .success ∧ mergeLine S rd [o] = .done .success ∧ statsLine S rd [o] = .done .success := by
  have he : ∃ a ∈ [ExpOpt.help, .version], parse expParser [o] = ([.opt a []], .ok) := by
    simp only [List.mem_cons, List.not_mem_nil, or_false] at ho
    rcases ho with rfl | rfl | rfl
    · exact ⟨.help, by simp, by decide +kernel⟩
    · exact ⟨.help, by simp, by decide +kernel⟩
    · exact ⟨.version, by simp, by decide +kernel⟩
  have hm : ∃ a ∈ [MergeOpt.help, .version], (parse mergeParser [o]).1 = [.opt a []] := by
    simp only [List.mem_cons, List.not_mem_nil, or_false] at ho
    rcases ho with rfl | rfl | rfl
    · exact ⟨.help, by simp, by decide +kernel⟩
    · exact ⟨.help, by simp, by decide +kernel⟩
    · exact ⟨.version, by simp, by decide +kernel⟩
  have hs : ∃ a ∈ [StatsOpt.help, .version], parse statsParser [o] = ([.opt a []], .ok) := by
    simp only [List.mem_cons, List.not_mem_nil, or_false] at ho
    rcases ho with rfl | rfl | rfl
    · exact ⟨.help, by simp, by decide +kernel⟩
    · exact ⟨.help, by simp, by decide +kernel⟩
    · exact ⟨.version, by simp, by decide +kernel⟩
  obtain ⟨a, ha, he⟩ := he
  obtain ⟨b, hb, hm⟩ := hm
  obtain ⟨c, hc, hs⟩ := hs
  refine ⟨?_, ?_, ?_⟩
  · unfold expLine
    rw [he]
    simp only [List.mem_cons, List.not_mem_nil, or_false] at ha
    rcases ha with rfl | rfl <;> rfl
  · unfold mergeLine
    simp only [hm]
    simp only [List.mem_cons, List.not_mem_nil, or_false] at hb
    rcases hb with rfl | rfl <;> rfl
  · unfold statsLine
    rw [hs]
    simp only [List.mem_cons, List.not_mem_nil, or_false] at hc
    rcases hc with rfl | rfl <;> rfl

/-- The option strings of the experiment scripts. -/
def expNames : List String := ["-i", "--in", "-t", "--test", "-o", "--out", "-m", "--method", "-v", "--validation", "-f", "--fold",
  "-n", "--fold-no", "--no-timestamp", "--timestamp", "-d", "--domain", "-C", "--lambda", "-k", "--dim", "--alpha", "--tol",
  "--maxiter", "-q", "--quiet", "--verbose", "--rseed", "-h", "--help", "--version"]

/-- The option strings of exp_recsys_fold_merge.py. -/
def mergeNames : List String := ["-o", "--out", "-q", "--quiet", "--verbose", "-h", "--help", "--version"]

/-- The option strings of stats_recsys.py. -/
def statsNames : List String := ["-i", "--in", "-o", "--out", "--no-keepdata", "--keepdata", "--rseed", "-h", "--help", "--version"]

/-- The strings that argparse may take for an option: those of the list, and what begins with one of them or abbreviates one of
them. -/
def LooksLike (names : List String) (s : Str) : Prop :=
  ∃ n ∈ names, (['-', '-'] <+: s ∧ s.takeWhile (· != '=') <+: n.toList) ∨ (¬ ['-', '-'] <+: s ∧ n.toList <+: s)

lemma before_dashes {d s : Str} {r t : List Str} : ∀ {l b : List Str}, l ++ s :: r = b ++ d :: t → d ∉ l → s ≠ d → s ∈ b
  | [], [], h, _, hs => by
    simp only [List.nil_append, List.cons.injEq] at h
    exact absurd h.1 hs
  | [], x :: b, h, _, _ => by
    simp only [List.nil_append, List.cons_append, List.cons.injEq] at h
    rw [h.1]; exact List.mem_cons_self
  | x :: l, [], h, hl, _ => by
    simp only [List.cons_append, List.nil_append, List.cons.injEq] at h
    exact absurd (h.1 ▸ List.mem_cons_self) hl
  | x :: l, y :: b, h, hl, hs => by
    simp only [List.cons_append, List.cons.injEq] at h
    exact List.mem_cons_of_mem _ (before_dashes h.2 (fun hd => hl (List.mem_cons_of_mem _ hd)) hs)

lemma takeWhile_append_eq (u v : Str) : (u ++ '=' :: v).takeWhile (· != '=') <+: u := by
  induction u with
  | nil => simp
  | cons c u ih =>
    rw [List.cons_append, List.takeWhile_cons]
    split
    · obtain ⟨t, ht⟩ := ih
      exact ⟨t, by rw [List.cons_append, ht]⟩
    · exact List.nil_prefix

lemma bundle_plain {p : Parser A} {cs : Str} {args : List Str} {as : List (Act A)} (h : Bundle p cs args as) :
    (∀ x ∈ args, Plain p x) := by
  induction h with
  | last _ _ h => exact h
  | value => intro x hx; cases hx
  | flag _ _ _ ih => exact ih

lemma bundle_head {p : Parser A} {c : Char} {cs : Str} {args : List Str} {as : List (Act A)} (h : Bundle p (c :: cs) args as) :
    ∃ a, (['-', c], a) ∈ p.table := by
  cases h with
  | last h _ _ => exact ⟨_, h⟩
  | value h _ _ => exact ⟨_, h⟩
  | flag h _ _ => exact ⟨_, h⟩

lemma item_strings {p : Parser A} (hp : WellFormed p) {xs : List Str} {as : List (Act A)} (h : Item p xs as) :
    ∀ s ∈ xs, OptionLike p s ∨ Plain p s := by
  have nd : ∀ {c : Char} {r : Str} {a : A}, (['-', c], a) ∈ p.table → OptionLike p ('-' :: c :: r) := by
    intro c r a hc
    refine ⟨_, hc, .inr ⟨?_, ⟨r, rfl⟩⟩⟩
    rintro ⟨t, ht⟩
    simp only [List.cons_append, List.nil_append, List.cons.injEq] at ht
    rcases hp.name _ hc with ⟨d, hd, _, _, h⟩ | ⟨w, hw, _, h⟩
    · simp only [List.cons.injEq] at h
      exact hd (h.2.1.symm.trans ht.2.1.symm)
    · simp only [List.cons.injEq] at h
      exact hw h.2.2.symm
  have lg : ∀ {w : Str} {a : A}, Long p w a → ∃ q ∈ p.table, '-' :: '-' :: w <+: q.1 := by
    intro w a h
    rcases h with h | ⟨_, _, n, hn, hw, _⟩
    · exact ⟨_, h, List.prefix_rfl⟩
    · exact ⟨_, hn, hw⟩
  intro s hs
  cases h with
  | short _ _ hb =>
    rcases List.mem_cons.1 hs with rfl | hs
    · obtain ⟨a, ha⟩ := bundle_head hb
      exact .inl (nd ha)
    · exact .inr (bundle_plain hb s hs)
  | equals hc _ =>
    rw [List.mem_singleton.1 hs]
    exact .inl (nd hc)
  | flagEquals hc _ hb =>
    rcases List.mem_cons.1 hs with rfl | hs
    · exact .inl (nd hc)
    · exact .inr (bundle_plain hb s hs)
  | long _ hw _ ha =>
    rcases List.mem_cons.1 hs with rfl | hs
    · obtain ⟨q, hq, h⟩ := lg hw
      exact .inl ⟨q, hq, .inl ⟨⟨_, rfl⟩, (List.takeWhile_prefix _).trans h⟩⟩
    · exact .inr (ha s hs)
  | @longEquals w a v hw _ =>
    rw [List.mem_singleton.1 hs]
    obtain ⟨q, hq, h⟩ := lg hw
    exact .inl ⟨q, hq, .inl ⟨⟨_, rfl⟩, (takeWhile_append_eq ('-' :: '-' :: w) v).trans h⟩⟩

lemma options_strings {p : Parser A} (hp : WellFormed p) {xs : List Str} {as : List (Act A)} (h : Options p xs as) :
    ∀ s ∈ xs, OptionLike p s ∨ Plain p s := by
  induction h with
  | nil => intro s hs; cases hs
  | cons h1 _ ih =>
    intro s hs
    rcases List.mem_append.1 hs with hs | hs
    · exact item_strings hp h1 s hs
    · exact ih s hs

/-- The strings of a command line before a `--` are options or arguments. -/
lemma line_strings {p : Parser A} (hp : WellFormed p) {argv : List Str} {as : List (Act A)} (h : Line p argv as) {l r : List Str}
    {s : Str} (ha : argv = l ++ s :: r) (hl : ['-', '-'] ∉ l) (hs : s ≠ ['-', '-']) : OptionLike p s ∨ Plain p s := by
  have hm : s ∈ argv := by rw [ha]; simp
  cases h with
  | options _ h => exact options_strings hp h s hm
  | two _ h1 _ _ h2 h3 =>
    rcases List.mem_append.1 hm with hm | hm
    · rcases List.mem_append.1 hm with hm | hm
      · exact options_strings hp h1 s hm
      · exact .inr (h2 s hm)
    · exact options_strings hp h3 s hm
  | twoDashes _ h1 h2 _ =>
    rcases List.mem_append.1 (before_dashes ha.symm hl hs) with hm | hm
    · exact options_strings hp h1 s hm
    · exact .inr (h2 s hm)
  | more _ h1 _ h2 h3 =>
    rcases List.mem_append.1 hm with hm | hm
    · rcases List.mem_append.1 hm with hm | hm
      · exact options_strings hp h1 s hm
      · exact .inr (h2 s hm)
    · exact options_strings hp h3 s hm
  | moreDashes _ h1 h2 _ =>
    rcases List.mem_append.1 (before_dashes ha.symm hl hs) with hm | hm
    · exact options_strings hp h1 s hm
    · exact .inr (h2 s hm)

/-- A script that is refused, or that is asked for help, does not do more to a file than to empty it. -/
lemma perform_refused (empty : C) {act : Act A → σ → Effect F σ} {k : σ → Prog F C} (hk : ∀ st, ∃ x, k st = .done x) (f : F) :
    ∀ (as : List (Act A)) (st : σ) (w : Files F C),
      ((perform empty act as st k).run w).2 f = w f ∨ ((perform empty act as st k).run w).2 f = some empty := by
  have reads : ∀ (p : Prog F C), (∀ w : Files F C, (p.run w).2 f = w f ∨ (p.run w).2 f = some empty) → ∀ (rs : List F) (w : Files F C),
      ((openReads rs p).run w).2 f = w f ∨ ((openReads rs p).run w).2 f = some empty := by
    intro p hp rs
    induction rs with
    | nil => exact hp
    | cons x xs ih =>
      intro w
      simp only [openReads, openRead, Prog.run]
      cases w x with
      | none => exact .inl rfl
      | some _ => exact ih w
  have writes : ∀ (p : Prog F C), (∀ w : Files F C, (p.run w).2 f = w f ∨ (p.run w).2 f = some empty) → ∀ (ws : List F) (w : Files F C),
      ((openWrites empty ws p).run w).2 f = w f ∨ ((openWrites empty ws p).run w).2 f = some empty := by
    intro p hp ws
    induction ws with
    | nil => exact hp
    | cons x xs ih =>
      intro w
      simp only [openWrites, openWrite, Prog.run]
      rcases ih (Function.update w x (some empty)) with h | h
      · by_cases hx : f = x
        · subst hx
          right
          rw [h, Function.update_self]
        · left
          rw [h, Function.update_of_ne hx]
      · exact .inr h
  intro as
  induction as with
  | nil =>
    intro st w
    obtain ⟨x, hx⟩ := hk st
    rw [perform, hx]
    exact .inl rfl
  | cons a as ih =>
    intro st w
    rw [perform]
    cases act a st with
    | stop x => exact .inl rfl
    | next rs ws st' =>
      refine reads _ (fun w => writes _ (fun w => ?_) ws w) rs w
      cases st' with
      | none => exact .inl rfl
      | some st' => exact ih st' w

/-- What a string is to a script with these option strings: an argument, or it is or abbreviates one of them, or has something
attached to it. -/
def Known (names : List String) (s : Str) : Prop :=
  s.head? ≠ some '-' ∨ s = ['-'] ∨ Negative s ∨ ' ' ∈ s ∨ LooksLike names s

lemma known_of {p : Parser A} {names : List String} (hn : ∀ q ∈ p.table, q.1 ∈ names.map String.toList) {s : Str}
    (h : OptionLike p s ∨ Plain p s) : Known names s := by
  rcases h with ⟨q, hq, h⟩ | h | h | ⟨_, h | h⟩
  · obtain ⟨n, hn, hq⟩ := List.mem_map.1 (hn q hq)
    rw [← hq] at h
    exact .inr (.inr (.inr (.inr ⟨n, hn, h⟩)))
  · exact .inl h
  · exact .inr (.inl h)
  · exact .inr (.inr (.inl h))
  · exact .inr (.inr (.inr (.inl h)))

/-- The option strings of a script. -/
def Call.names : Call → List String
  | .exp _ _ => expNames
  | .merge _ => mergeNames
  | .stats _ => statsNames

/-- C128: a script that leaves more in a file than was there, or than an empty file, was called with documented options only. -/
theorem C128_only_documented (S : Setup F C α φ ε V T γ) (m : Machine V T) (rd : Reader F) (c : Call) (w : Files F C) (f : F)
    (h1 : ((c.prog S m rd).run w).2 f ≠ w f) (h2 : ((c.prog S m rd).run w).2 f ≠ some S.empty) {l r : List Str} {s : Str}
    (hc : c.argv = l ++ s :: r) (hl : ['-', '-'] ∉ l) (hs : s ≠ ['-', '-']) : Known c.names s := by
  have fin : ∀ {x : End}, x ≠ .ok → ∀ k : Prog F C, ∃ y, finish x k = .done y := by
    intro x hx k
    cases x with
    | ok => exact absurd rfl hx
    | usage => exact ⟨_, rfl⟩
    | indexError => exact ⟨_, rfl⟩
  cases c with
  | exp sc argv =>
    have hok : (parse expParser argv).2 = .ok := by
      by_contra hx
      rcases perform_refused S.empty (act := expAct rd S.stdin S.stdout sc) (fun st => fin hx (expTask S m sc st.1)) f
        (parse expParser argv).1 (defaults sc S.stdin S.stdout, ⟨false, false, false, false⟩) w with h | h
      · exact h1 h
      · exact h2 h
    have hline := (C127_grammar expParser_wellFormed argv (parse expParser argv).1).mp (by rw [← hok])
    exact known_of (names := expNames) (by decide +kernel) (line_strings expParser_wellFormed hline hc hl hs)
  | merge argv =>
    have hok : (parse mergeParser argv).2 = .ok := by
      by_contra hx
      rcases perform_refused S.empty (act := mergeAct rd S.stdin S.stdout) (fun st => fin hx (mergeTask S st.2.2.1 st.2.2.2)) f
        (parse mergeParser argv).1 (false, false, S.stdout, []) w with h | h
      · exact h1 h
      · exact h2 h
    have hline := (C127_grammar mergeParser_wellFormed argv (parse mergeParser argv).1).mp (by rw [← hok])
    exact known_of (names := mergeNames) (by decide +kernel) (line_strings mergeParser_wellFormed hline hc hl hs)
  | stats argv =>
    have hok : (parse statsParser argv).2 = .ok := by
      by_contra hx
      rcases perform_refused S.empty (act := statsAct rd S.stdin S.stdout)
        (fun st => fin hx (statsTask S (st.1.infile.getD st.2.1) (st.1.outfile.getD st.2.2) st.1.keep)) f
        (parse statsParser argv).1 (⟨none, none, false, false, false⟩, S.stdin, S.stdout) w with h | h
      · exact h1 h
      · exact h2 h
    have hline := (C127_grammar statsParser_wellFormed argv (parse statsParser argv).1).mp (by rw [← hok])
    exact known_of (names := statsNames) (by decide +kernel) (line_strings statsParser_wellFormed hline hc hl hs)

end Kam.Args
