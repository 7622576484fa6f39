/-
Concrete command lines: the hypotheses of C127 to C129 and C135 are met.
-/
import Verif.Args.Order
import Verif.Args.Order2
import Verif.Args.Refused
import Verif.Args.Spellings
import Verif.Args.Numbers
import Verif.Shell.Examples

set_option linter.unusedSectionVars false

namespace Kam.Args
open Kam.Convert (Str)
open Shell
open Scripts (J)
open Exp (Arg Script)

namespace Ex
open Shell.Ex (setup machine files Content)
open Exp.Ex (Val)

/-- Strings of a command line. -/
def strs (l : List String) : List Str := l.map String.toList

/-! ### How command lines are read -/

/-- Flags and an option with its argument in one string. -/
example : parse expParser (strs ["-qmpmf", "-oout", "data"]) =
    ([.opt .quiet [], .opt .method ["pmf".toList], .opt .outfile ["out".toList], .pos 0 ["data".toList], .pos 1 []], .ok) := by
  decide +kernel

/-- `-o=x` gives the value `x`, but after a flag `=` belongs to the value. -/
example : parse expParser (strs ["-o=x"]) = ([.opt .outfile ["x".toList]], .ok) ∧
    parse expParser (strs ["-qo=x"]) = ([.opt .quiet [], .opt .outfile ["=x".toList]], .ok) := by decide +kernel

/-- Abbreviations, also with `=`; an option string that begins another one is not ambiguous. -/
example : parse expParser (strs ["--no", "--meth=pmf", "--fold", "3", "--fold-n=1"]) =
    ([.opt .noTimestamp [], .opt .method ["pmf".toList], .opt .fold ["3".toList], .opt .foldNo ["1".toList]], .ok) := by decide +kernel

/-- Negative numbers are arguments, with an exponent they are taken for options. -/
example : parse expParser (strs ["-d", "-1.5", "1.5", "-.5"]) =
      ([.opt .domain ["-1.5".toList, "1.5".toList, "-.5".toList]], .ok) ∧
    (parse expParser (strs ["-d", "-1e0", "1.5", "0.5"])).2 = .usage ∧
    (parse expParser (strs ["-k", "-dim"])).2 = .usage := by decide +kernel

/-- File names before and between the options are read, but not in two places. -/
example : parse expParser (strs ["data", "out", "-m", "pmf"]) =
      ([.pos 0 ["data".toList], .pos 1 ["out".toList], .opt .method ["pmf".toList]], .ok) ∧
    (parse expParser (strs ["data", "-m", "pmf", "out"])).2 = .usage ∧
    parse mergeParser (strs ["r1", "r2", "-q"]) = ([.pos 0 ["r1".toList, "r2".toList], .opt .quiet []], .ok) ∧
    (parse mergeParser (strs ["r1", "-q", "r2"])).2 = .usage ∧
    (parse mergeParser (strs ["-q"])).2 = .usage := by decide +kernel

/-- `--`: file names that begin with a dash. -/
example : parse statsParser (strs ["--keep", "--", "-r"]) = ([.opt .keepdata [], .pos 0 ["-r".toList], .pos 1 []], .ok) ∧
    parse mergeParser (strs ["-o", "out", "r", "--", "-r"]) =
      ([.opt .outfile ["out".toList], .pos 0 ["r".toList, "-r".toList]], .ok) := by decide +kernel

/-- C127_raises is not vacuous: an exception from inside argparse. -/
example : (parse expParser (strs ["-o", "out", "-q="])).2 = .indexError := by decide +kernel

/-- C127_one_reading is not vacuous: the line has a reading. -/
example : Line mergeParser (strs ["r1", "r2", "-q"]) [.pos 0 ["r1".toList, "r2".toList], .opt .quiet []] :=
  (C127_grammar mergeParser_wellFormed _ _).mp (by decide +kernel)

/-! ### Command lines as they are typed -/

/-- Digits as numbers; the file of a name is the name. -/
noncomputable def reader : Reader String where
  int s := match s with
    | [c] => if c.isDigit then some (c.toNat - 48) else none
    | _ => none
  float s := match s with
    | [c] => if c.isDigit then some ((c.toNat - 48 : Int) : ℝ) else none
    | _ => none
  file := String.ofList

lemma options_of_parse {A : Type} {p : Parser A} (hp : WellFormed p) {l : List Str} {as : List (Act A)} (h : parse p l = (as, .ok))
    (hu : p.positionals = .upTo 2) (ho : ∀ s, Act.pos 0 s ∉ as) : Options p l as := by
  have hl := (C127_grammar hp _ _).mp h
  have two_has : ∀ q : List Str, ∃ s, (Act.pos 0 s : Act A) ∈ Args.two q := by
    intro q
    rcases q with _ | ⟨x, _ | ⟨y, r⟩⟩
    · exact ⟨[], by simp [Args.two]⟩
    · exact ⟨[x], by simp [Args.two]⟩
    · exact ⟨[x], by simp [Args.two]⟩
  clear h
  cases hl with
  | options _ h => exact h
  | @two l r pos as bs _ _ _ _ _ _ =>
    obtain ⟨s, hs⟩ := two_has pos
    exact absurd (List.mem_append_left _ (List.mem_append_right _ hs)) (ho s)
  | @twoDashes l pos pos' as _ _ _ _ =>
    obtain ⟨s, hs⟩ := two_has (pos ++ pos')
    exact absurd (List.mem_append_right _ hs) (ho s)
  | more h _ _ _ _ => rw [hu] at h; cases h
  | moreDashes h _ _ _ => rw [hu] at h; cases h

/-- The first options of the examples of Verif/Shell, abbreviated and with `=`. -/
def before : List Str := strs ["-v", "cv", "--fold=3", "--rs", "5"]

/-- The last options. -/
def after (m : String) : List Str := strs ["-d", "1", "5", "1"] ++ ["-m".toList, m.toList] ++ strs ["-ofull"]

lemma before_options : Options expParser before [.opt .validation ["cv".toList], .opt .fold ["3".toList], .opt .rseed ["5".toList]] :=
  options_of_parse expParser_wellFormed (by decide +kernel) rfl (by simp)

lemma after_options {m : String} (hm : m = "pmf" ∨ m = "plsam" ∨ m = "plsamm" ∨ m = "lpmf") :
    Options expParser (after m) [.opt .domain ["1".toList, "5".toList, "1".toList], .opt .method [m.toList], .opt .outfile ["full".toList]] := by
  rcases hm with rfl | rfl | rfl | rfl <;>
    exact options_of_parse expParser_wellFormed (by decide +kernel) rfl (by simp)

lemma before_means : List.Forall₂ (ExpMeans reader) [.opt .validation ["cv".toList], .opt .fold ["3".toList], .opt .rseed ["5".toList]]
    [.validation "cv", .fold 3, .rseed 5] :=
  .cons (.validation) (.cons (.fold (by rfl)) (.cons (.rseed (by rfl)) .nil))

lemma float1 : reader.float "1".toList = some 1 := by
  show (if ('1' : Char).isDigit then some ((('1' : Char).toNat - 48 : Int) : ℝ) else none) = some 1
  rw [if_pos (by decide)]
  norm_num [show ('1' : Char).toNat = 49 from rfl]

lemma float5 : reader.float "5".toList = some 5 := by
  show (if ('5' : Char).isDigit then some ((('5' : Char).toNat - 48 : Int) : ℝ) else none) = some 5
  rw [if_pos (by decide)]
  norm_num [show ('5' : Char).toNat = 53 from rfl]

lemma after_means (m : String) : List.Forall₂ (ExpMeans reader)
    [.opt .domain ["1".toList, "5".toList, "1".toList], .opt .method [m.toList], .opt .outfile ["full".toList]]
    [.domain 1 5 1, .method m, .outfile "full"] := by
  refine .cons (.domain float1 float5 float1) (.cons ?_ (.cons ?_ .nil))
  · have := ExpMeans.method (rd := reader) (s := m.toList)
    rwa [String.ofList_toList] at this
  · exact ExpMeans.outfile (rd := reader) (s := "full".toList) (by decide)

lemma names : Names expParser [("data" : String).toList] := by
  intro x hx
  rw [List.mem_singleton.1 hx]
  exact ⟨.inl (by decide), by decide⟩

lemma choice (sc : Script) {m : String} (hm : m ∈ sc.choices) : m = "pmf" ∨ m = "plsam" ∨ m = "plsamm" ∨ m = "lpmf" := by
  cases sc <;> simp [Script.choices] at hm <;> tauto

/-- C128 and C129 are not vacuous: a script called with these strings ends by itself and leaves a result in one file. -/
example (sc : Script) (m : String) (hm : m ∈ sc.choices) (n : Nat) :
    ∃ j, ((Call.exp sc (before ++ after m ++ strs ["data"])).prog setup (machine n) reader).run files =
      (.success, Function.update files "full" (some (.json j))) := by
  obtain ⟨j, hj, _⟩ := Shell.Ex.experiment sc m hm n
  refine ⟨j, ?_⟩
  rw [← hj]
  have := C128_experiment setup (machine n) reader sc (before_options.append (after_options (choice sc hm)))
    (List.rel_append before_means (after_means m)) names (by simp)
  exact congrArg (fun p => Prog.run p files) this

/-- The same with the file name between the options. -/
example (sc : Script) (m : String) (hm : m ∈ sc.choices) (n : Nat) :
    ∃ j, ((Call.exp sc (before ++ strs ["data"] ++ after m)).prog setup (machine n) reader).run files =
      (.success, Function.update files "full" (some (.json j))) := by
  obtain ⟨j, hj, _⟩ := Shell.Ex.experiment sc m hm n
  refine ⟨j, ?_⟩
  rw [← hj]
  obtain ⟨o, ho, _⟩ := Shell.Ex.runs sc m hm "full" (machine n).clock (machine n).environment
  exact C128_any_order setup (machine n) reader sc before_options (after_options (choice sc hm)) before_means (after_means m)
    (pos := ["data".toList]) names (by simp) ho (by
      intro f hf
      have : f = "data" := by
        have h : f ∈ ["data"] := hf
        simpa using h
      subst this
      simp [files])

/-- C128_merge is not vacuous. -/
example : ((Call.merge (strs ["-qo", "merged", "r1", "r2"])).prog setup (machine 0) reader)
    = (Command.merge [.quiet, .outfile "merged"] ["r1", "r2"]).prog setup (machine 0) :=
  C128_merge setup (machine 0) reader (l := strs ["-qo", "merged"]) (pos := strs ["r1", "r2"])
    (.cons (xs := strs ["-qo", "merged"]) (as := [.opt .quiet [], .opt .outfile ["merged".toList]])
      (.short (by decide) (by decide) (.flag (c := 'q') (a := MergeOpt.quiet) (by decide +kernel) rfl
        (.last (c := 'o') (a := MergeOpt.outfile) (args := ["merged".toList]) (by decide +kernel) rfl (by
          intro x hx
          rw [List.mem_singleton.1 hx]
          exact .inl (by decide))))) .nil)
    (.cons .quiet (.cons (.outfile (s := "merged".toList) (by decide)) .nil))
    (by
      intro x hx
      have : x = "r1".toList ∨ x = "r2".toList := by simpa [strs] using hx
      rcases this with rfl | rfl <;> exact ⟨.inl (by decide), by decide⟩)
    (by simp [strs])

/-- C128_stats is not vacuous. -/
example : ((Call.stats (strs ["--keep", "--out=s", "r"])).prog setup (machine 0) reader)
    = (Command.stats [.keepdata, .outfile "s"] ["r"]).prog setup (machine 0) :=
  C128_stats setup (machine 0) reader (l := strs ["--keep", "--out=s"]) (pos := strs ["r"])
    (options_of_parse (as := [.opt .keepdata [], .opt .outfile ["s".toList]]) statsParser_wellFormed (by decide +kernel) rfl (by simp))
    (.cons .keepdata (.cons (.outfile (s := "s".toList) (by decide)) .nil))
    (by
      intro x hx
      have : x = "r".toList := by simpa [strs] using hx
      subst this
      exact ⟨.inl (by decide), by decide⟩)
    (by simp [strs])

/-- C128_merge_any_order is not vacuous: the files to be merged before the options. -/
example {w : Files String Content} (h1 : w "r1" ≠ none) (h2 : w "r2" ≠ none) :
    ((Call.merge (strs ["r1", "r2", "-qo", "merged"])).prog setup (machine 0) reader).run w
      = ((Command.merge [.quiet, .outfile "merged"] ["r1", "r2"]).prog setup (machine 0)).run w :=
  C128_merge_any_order setup (machine 0) reader (l := []) (pos := strs ["r1", "r2"]) (r := strs ["-qo", "merged"]) .nil
    (.cons (xs := strs ["-qo", "merged"]) (as := [.opt .quiet [], .opt .outfile ["merged".toList]])
      (.short (by decide) (by decide) (.flag (c := 'q') (a := MergeOpt.quiet) (by decide +kernel) rfl
        (.last (c := 'o') (a := MergeOpt.outfile) (args := ["merged".toList]) (by decide +kernel) rfl (by
          intro x hx
          rw [List.mem_singleton.1 hx]
          exact .inl (by decide))))) .nil)
    .nil (.cons .quiet (.cons (.outfile (s := "merged".toList) (by decide)) .nil))
    (by
      intro x hx
      have : x = "r1".toList ∨ x = "r2".toList := by simpa [strs] using hx
      rcases this with rfl | rfl <;> exact ⟨.inl (by decide), by decide⟩)
    (by simp [strs])
    (by
      intro f hf
      have h : f ∈ ["r1", "r2"] := hf
      have : f = "r1" ∨ f = "r2" := by simpa using h
      rcases this with rfl | rfl
      · exact h1
      · exact h2)

/-- C128_stats_any_order is not vacuous: the file name between the options. -/
example {w : Files String Content} (h1 : w "r" ≠ none) :
    ((Call.stats (strs ["--keep", "r", "--out=s"])).prog setup (machine 0) reader).run w
      = ((Command.stats [.keepdata, .outfile "s"] ["r"]).prog setup (machine 0)).run w :=
  C128_stats_any_order setup (machine 0) reader (l := strs ["--keep"]) (pos := strs ["r"]) (r := strs ["--out=s"])
    (args := [.keepdata]) (args' := [.outfile "s"])
    (options_of_parse (as := [.opt .keepdata []]) statsParser_wellFormed (by decide +kernel) rfl (by simp))
    (options_of_parse (as := [.opt .outfile ["s".toList]]) statsParser_wellFormed (by decide +kernel) rfl (by simp))
    (.cons .keepdata .nil) (.cons (.outfile (s := "s".toList) (by decide)) .nil)
    (by
      intro x hx
      have : x = "r".toList := by simpa [strs] using hx
      subst this
      exact ⟨.inl (by decide), by decide⟩)
    (by simp [strs]) (by simp)
    (by
      intro f hf
      have h : f ∈ ["r"] := hf
      have : f = "r" := by simpa using h
      subst this
      exact h1)

/-- C128_documented_experiment is not vacuous: documented options, short and long. -/
example (sc : Script) : expLine setup (machine 0) reader sc (strs ["-n", "1", "--lambda", "5", "-q", "data"]) =
    (Command.exp sc [.foldNo 1, .C 5, .quiet] ["data"]).prog setup (machine 0) := by
  have plain : ∀ {s : String}, s.toList.head? ≠ some '-' → Plain expParser s.toList := fun h => .inl h
  exact C128_documented_experiment setup (machine 0) reader sc (l := [strs ["-n", "1"], strs ["--lambda", "5"], strs ["-q"]])
    (pos := strs ["data"])
    (.cons (.foldNo (o := "-n".toList) (s := "1".toList) (by decide +kernel) (plain (by decide)) (by rfl))
      (.cons (.regularization (o := "--lambda".toList) (s := "5".toList) (by decide +kernel) (plain (by decide)) float5)
        (.cons (.quiet (o := "-q".toList) (by decide +kernel)) .nil)))
    (by
      intro x hx
      have : x = "data".toList := by simpa [strs] using hx
      subst this
      exact ⟨plain (by decide), by decide⟩)
    (by simp [strs])

/-- C128_documented_merge and C128_documented_stats are not vacuous. -/
example : mergeLine setup reader (strs ["--out", "merged", "r1"]) =
      (Command.merge [.outfile "merged"] ["r1"]).prog setup (machine 0) ∧
    statsLine setup reader (strs ["--no-keepdata", "-o", "s"]) = (Command.stats [.noKeepdata, .outfile "s"] []).prog setup (machine 0) :=
  ⟨C128_documented_merge setup (machine 0) reader (l := [strs ["--out", "merged"]]) (pos := strs ["r1"])
    (.cons (.output (o := "--out".toList) (s := "merged".toList) (by decide +kernel) ⟨.inl (by decide), by decide⟩) .nil)
    (by
      intro x hx
      have : x = "r1".toList := by simpa [strs] using hx
      subst this
      exact ⟨.inl (by decide), by decide⟩)
    (by simp [strs]),
   C128_documented_stats setup (machine 0) reader (l := [strs ["--no-keepdata"], strs ["-o", "s"]]) (pos := [])
    (.cons .noKeepdata (.cons (.output (o := "-o".toList) (s := "s".toList) (by decide +kernel) ⟨.inl (by decide), by decide⟩) .nil))
    (by simp) (by simp)⟩

/-- C128_only_documented is not vacuous: a call that leaves a result. -/
example (sc : Script) (m : String) (hm : m ∈ sc.choices) (n : Nat) :
    ∃ f, (((Call.exp sc (before ++ after m ++ strs ["data"])).prog setup (machine n) reader).run files).2 f ≠ files f ∧
      (((Call.exp sc (before ++ after m ++ strs ["data"])).prog setup (machine n) reader).run files).2 f ≠ some setup.empty := by
  obtain ⟨j, hj, _⟩ := Shell.Ex.experiment sc m hm n
  refine ⟨"full", ?_⟩
  have := C128_experiment setup (machine n) reader sc (before_options.append (after_options (choice sc hm)))
    (List.rel_append before_means (after_means m)) names (by simp)
  have := congrArg (fun p => (Prog.run p files).2 "full") this
  have hr : (((Call.exp sc (before ++ after m ++ strs ["data"])).prog setup (machine n) reader).run files).2 "full"
      = some (.json j) := by
    refine this.trans ?_
    have := congrArg (fun q => q.2 "full") hj
    exact this.trans (by simp)
  rw [hr]
  exact ⟨by simp [files], by simp [setup]⟩

/-- C129_ambiguous is not vacuous: `--t` could be three options; the output file stays as it is. -/
example (w : Files String Content) :
    ((Call.exp .sp (strs ["-o", "out", "--t", "x"])).prog setup (machine 0) reader).run w = (.usage, w) := by
  rw [C129_ambiguous setup (machine 0) reader (.exp .sp (strs ["-o", "out", "--t", "x"])) (l := strs ["-o", "out"]) (s := "--t".toList)
    (r := strs ["x"]) (by decide +kernel) (by decide) rfl
    ⟨by decide +kernel, by decide +kernel, ("--test".toList, .testfile), by decide +kernel, ("--tol".toList, .tol), by decide +kernel,
      by decide +kernel, by decide +kernel, by decide +kernel⟩]
  rfl

/-- Other refused lines empty the output file; it is one of the files of C129_touched. -/
example (w : Files String Content) :
    ((Call.exp .sp (strs ["-oout", "-m", "none"])).prog setup (machine 0) reader).run w =
      (.usage, Function.update w "out" (some .nothing)) := by
  have h : parse expParser (strs ["-oout", "-m", "none"]) = ([.opt .outfile ["out".toList], .opt .method ["none".toList]], .ok) := by
    decide +kernel
  show (expLine setup (machine 0) reader .sp _).run w = _
  unfold expLine
  rw [h]
  rfl

/-! ### Numbers -/

/-- C135_numbers is not vacuous: a domain from -1.5 to 2 with stride 0.5, and a negative seed. -/
example (sc : Script) : expLine setup (machine 0) (textReader String.ofList) sc
      (strs ["-d", "-1.5", "2", "0.5", "--rseed", "-7", "data"]) =
    (Command.exp sc [.domain ((-15 : Int) / 10 ^ 1) ((2 : Int) / 10 ^ 0) ((5 : Int) / 10 ^ 1), .rseed (-7)] ["data"]).prog setup (machine 0) := by
  have h := C135_numbers setup (machine 0) String.ofList sc
    (.cons (.inl (.domain (o := "-d".toList) (-15) 2 5 1 0 1 (by decide +kernel))) (.cons (.inl (.rseed (-7))) .nil))
    (pos := strs ["data"])
    (by
      intro x hx
      have : x = "data".toList := by simpa [strs] using hx
      subst this
      exact ⟨.inl (by decide), by decide⟩)
    (by simp [strs])
  have e : ([["-d".toList, Convert.Spec.showDec (-15) 1, Convert.Spec.showDec 2 0, Convert.Spec.showDec 5 1],
      ["--rseed".toList, Convert.showInt (-7)]] : List (List Str)).flatten ++ strs ["data"] =
      strs ["-d", "-1.5", "2", "0.5", "--rseed", "-7", "data"] := by decide +kernel
  rw [e] at h
  exact h

/-- C135_stats is not vacuous. -/
example : statsLine setup (textReader String.ofList) (["--rseed".toList, Convert.showInt 5] ++ strs []) =
    (Command.stats [.rseed 5] []).prog setup (machine 0) :=
  C135_stats setup (machine 0) String.ofList (l := [["--rseed".toList, Convert.showInt 5]]) (pos := [])
    (.cons (.inl ⟨5, rfl, rfl⟩) .nil) (by simp) (by simp)

/-- C135_not_an_integer is not vacuous: `1.5` is not a number of folds. -/
example (sc : Script) (w : Files String Content) :
    ((expLine setup (machine 0) (textReader String.ofList) sc (strs ["-q", "--fold", "1.5", "data"])).run w).1 = .usage := by
  refine C135_not_an_integer setup (machine 0) String.ofList sc (l := [strs ["-q"]]) (r := []) (o := "--fold".toList) (s := "1.5".toList)
    (pos := strs ["data"]) (.cons (.quiet (by decide +kernel)) .nil) .nil ?_ (by simp [strs]) (by decide +kernel) (.inl (by decide)) ?_ w
  · intro x hx
    have : x = "data".toList := by simpa [strs] using hx
    subst this
    exact ⟨.inl (by decide), by decide⟩
  · rw [← Convert.intOf_iff]
    rintro ⟨n, hn⟩
    have : Convert.intOf "1.5".toList = none := by decide +kernel
    rw [this] at hn
    cases hn

/-- C135_negative_exponent is not vacuous. -/
example (sc : Script) (w : Files String Content) (f : String) :
    (((Call.exp sc (strs ["--tol", "-1e0", "data"])).prog setup (machine 0) reader).run w).2 f = w f ∨
      (((Call.exp sc (strs ["--tol", "-1e0", "data"])).prog setup (machine 0) reader).run w).2 f = some setup.empty := by
  refine C135_negative_exponent setup (machine 0) reader _ w f (l := strs ["--tol"]) (d := '1') (s := "e0".toList) (r := strs ["data"])
    rfl (by decide) rfl ?_ (by decide)
  rintro ⟨r, h1, ⟨_, h2⟩ | ⟨t, _, h3, h2⟩⟩
  · simp only [List.cons.injEq, true_and] at h2
    subst h2
    exact absurd (h1 'e' (by decide)) (by decide)
  · have hd : '.' ∈ ("-1e0".toList) := by
      have : "-1e0".toList = '-' :: '1' :: "e0".toList := rfl
      rw [this, h2]
      simp
    exact absurd hd (by decide)

end Ex
end Kam.Args
