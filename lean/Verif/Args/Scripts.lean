/-
The scripts as they are called, with the strings of the command line: the arguments each script declares, how their strings
are converted, and the actions argparse takes.

Simplified: the help and the version are not part of standard output.  `--out=--`, of which argparse makes an empty list, is
read as a file named `--`.
-/
import Verif.Args.Model
import Verif.Shell.Model

set_option linter.unusedSectionVars false

namespace Kam.Args
open Kam.Convert (Str)
open Shell
open Exp (Arg Namespace Seen parseArg defaults Script)

/-! ### Arguments that are declared -/

/-- The options of exp_recsys_sp.py:192-233 and exp_recsys_if.py:197-238; `-h` is declared by argparse. -/
inductive ExpOpt where
  | help | version | verbose | quiet | rseed | infile | outfile | testfile | method | validation | fold | foldNo | domain
  | noTimestamp | timestamp | C | dim | alpha | tol | maxiter
  deriving DecidableEq

/-- exp_recsys_sp.py:188-233 and exp_recsys_if.py:193-238. -/
def expParser : Parser ExpOpt where
  table := [("-h".toList, .help), ("--help".toList, .help), ("--version".toList, .version), ("--verbose".toList, .verbose),
    ("-q".toList, .quiet), ("--quiet".toList, .quiet), ("--rseed".toList, .rseed), ("-i".toList, .infile), ("--in".toList, .infile),
    ("-o".toList, .outfile), ("--out".toList, .outfile), ("-t".toList, .testfile), ("--test".toList, .testfile),
    ("-m".toList, .method), ("--method".toList, .method), ("-v".toList, .validation), ("--validation".toList, .validation),
    ("-f".toList, .fold), ("--fold".toList, .fold), ("-n".toList, .foldNo), ("--fold-no".toList, .foldNo),
    ("-d".toList, .domain), ("--domain".toList, .domain), ("--no-timestamp".toList, .noTimestamp),
    ("--timestamp".toList, .timestamp), ("-C".toList, .C), ("--lambda".toList, .C), ("-k".toList, .dim), ("--dim".toList, .dim),
    ("--alpha".toList, .alpha), ("--tol".toList, .tol), ("--maxiter".toList, .maxiter)]
  arity
    | .help | .version | .verbose | .quiet | .noTimestamp | .timestamp => 0
    | .domain => 3
    | _ => 1
  positionals := .upTo 2

/-- The options of exp_recsys_fold_merge.py:212-222. -/
inductive MergeOpt where
  | help | version | verbose | quiet | outfile
  deriving DecidableEq

/-- exp_recsys_fold_merge.py:206-224. -/
def mergeParser : Parser MergeOpt where
  table := [("-h".toList, .help), ("--help".toList, .help), ("--version".toList, .version), ("--verbose".toList, .verbose),
    ("-q".toList, .quiet), ("--quiet".toList, .quiet), ("-o".toList, .outfile), ("--out".toList, .outfile)]
  arity
    | .outfile => 1
    | _ => 0
  positionals := .oneOrMore

/-- The options of stats_recsys.py:166-187. -/
inductive StatsOpt where
  | help | version | rseed | infile | outfile | noKeepdata | keepdata
  deriving DecidableEq

/-- stats_recsys.py:161-187. -/
def statsParser : Parser StatsOpt where
  table := [("-h".toList, .help), ("--help".toList, .help), ("--version".toList, .version), ("--rseed".toList, .rseed),
    ("-i".toList, .infile), ("--in".toList, .infile), ("-o".toList, .outfile), ("--out".toList, .outfile),
    ("--no-keepdata".toList, .noKeepdata), ("--keepdata".toList, .keepdata)]
  arity
    | .rseed | .infile | .outfile => 1
    | _ => 0
  positionals := .upTo 2

/-! ### Actions -/

/-- How strings are converted: `int(s)`, `float(s)`, and the file of a name. -/
structure Reader (F : Type) where
  int : Str → Option Int
  float : Str → Option ℝ
  file : Str → F

/-- What an action does: it ends the script, or opens files and goes on with another state; `none`: it is refused. -/
inductive Effect (F σ : Type) where
  | stop (x : Exit)
  | next (reads writes : List F) (st : Option σ)

variable {F C A σ : Type}

/-- Files that are opened for writing, one after the other. -/
def openWrites (empty : C) : List F → Prog F C → Prog F C
  | [], k => k
  | f :: fs, k => openWrite empty f (openWrites empty fs k)

/-- `take_action`, for one action after the other. -/
def perform (empty : C) (act : Act A → σ → Effect F σ) : List (Act A) → σ → (σ → Prog F C) → Prog F C
  | [], st, k => k st
  | a :: as, st, k => match act a st with
    | .stop x => .done x
    | .next rs ws st => openReads rs (openWrites empty ws (match st with
      | none => .done .usage
      | some st => perform empty act as st k))

/-- How the script goes on after the actions. -/
def finish (x : End) (k : Prog F C) : Prog F C :=
  match x with
  | .ok => k
  | .usage => .done .usage
  | .indexError => .done (.raised .indexError)

/-- `argparse.FileType`: `-` is a standard stream, which is not opened. -/
def opens (rd : Reader F) (s : Str) : List F := if s = ['-'] then [] else [rd.file s]

/-- The file of `argparse.FileType`. -/
def fileOf (rd : Reader F) (std : F) (s : Str) : F := if s = ['-'] then std else rd.file s

/-- An option with its value (exp_recsys_sp.py:192-233, exp_recsys_if.py:197-238); `none`: the value cannot be converted. -/
def expArg (rd : Reader F) (stdin stdout : F) : ExpOpt → List Str → Option (Arg F)
  | .verbose, _ => some .verbose
  | .quiet, _ => some .quiet
  | .rseed, [s] => (rd.int s).map .rseed
  | .infile, [s] => some (.infile (fileOf rd stdin s))
  | .outfile, [s] => some (.outfile (fileOf rd stdout s))
  | .testfile, [s] => some (.testfile (fileOf rd stdin s))
  | .method, [s] => some (.method (String.ofList s))
  | .validation, [s] => some (.validation (String.ofList s))
  | .fold, [s] => (rd.int s).map .fold
  | .foldNo, [s] => (rd.int s).map .foldNo
  | .domain, [r, s, t] => do some (.domain (← rd.float r) (← rd.float s) (← rd.float t))
  | .noTimestamp, _ => some .noTimestamp
  | .timestamp, _ => some .timestamp
  | .C, [s] => (rd.float s).map .C
  | .dim, [s] => (rd.int s).map .dim
  | .alpha, [s] => (rd.float s).map .alpha
  | .tol, [s] => (rd.float s).map .tol
  | .maxiter, [s] => (rd.int s).map .maxiter
  | _, _ => none

/-- The actions of exp_recsys_sp.py and exp_recsys_if.py. -/
def expAct (rd : Reader F) (stdin stdout : F) (sc : Script) : Act ExpOpt → Namespace F × Seen → Effect F (Namespace F × Seen)
  | .opt .help _, _ => .stop .success
  | .opt .version _, _ => .stop .success
  | .opt a args, st => match expArg rd stdin stdout a args with
    | none => .stop .usage
    | some b =>
      .next (if a = .infile ∨ a = .testfile then args.flatMap (opens rd) else [])
        (if a = .outfile then args.flatMap (opens rd) else []) (parseArg sc st b)
  | .pos 0 [s], (o, seen) => .next (opens rd s) [] (some ({ o with infilep := fileOf rd stdin s }, seen))
  | .pos 1 [s], (o, seen) => .next [] (opens rd s) (some ({ o with outfilep := fileOf rd stdout s }, seen))
  | .pos _ _, st => .next [] [] (some st)

/-- The actions of exp_recsys_fold_merge.py; the state is the members of the group met so far, the output file and the files
to be merged. -/
def mergeAct (rd : Reader F) (stdin stdout : F) : Act MergeOpt → Bool × Bool × F × List F → Effect F (Bool × Bool × F × List F)
  | .opt .help _, _ => .stop .success
  | .opt .version _, _ => .stop .success
  | .opt .verbose _, (_, q, u, fs) => .next [] [] (if q then none else some (true, q, u, fs))
  | .opt .quiet _, (v, _, u, fs) => .next [] [] (if v then none else some (v, true, u, fs))
  | .opt .outfile args, (v, q, u, fs) => .next [] (args.flatMap (opens rd))
      (some (v, q, (args.head?.map (fileOf rd stdout)).getD u, fs))
  | .pos _ args, (v, q, u, _) => .next (args.flatMap (opens rd)) [] (some (v, q, u, args.map (fileOf rd stdin)))

/-- The actions of stats_recsys.py; the state has the two positional arguments also. -/
def statsAct (rd : Reader F) (stdin stdout : F) : Act StatsOpt → StatsOpts F × F × F → Effect F (StatsOpts F × F × F)
  | .opt .help _, _ => .stop .success
  | .opt .version _, _ => .stop .success
  | .opt .rseed args, st => match args.head?.bind rd.int with
    | none => .stop .usage
    | some _ => .next [] [] (some st)
  | .opt .infile args, (o, i, u) => .next (args.flatMap (opens rd)) []
      (some ({ o with infile := args.head?.map (fileOf rd stdin) }, i, u))
  | .opt .outfile args, (o, i, u) => .next [] (args.flatMap (opens rd))
      (some ({ o with outfile := args.head?.map (fileOf rd stdout) }, i, u))
  | .opt .noKeepdata _, (o, i, u) =>
      .next [] [] (if o.seenKeep then none else some ({ o with keep := false, seenNo := true }, i, u))
  | .opt .keepdata _, (o, i, u) =>
      .next [] [] (if o.seenNo then none else some ({ o with keep := true, seenKeep := true }, i, u))
  | .pos 0 [s], (o, _, u) => .next (opens rd s) [] (some (o, fileOf rd stdin s, u))
  | .pos 1 [s], (o, i, _) => .next [] (opens rd s) (some (o, i, fileOf rd stdout s))
  | .pos _ _, st => .next [] [] (some st)

/-! ### The scripts -/

variable [DecidableEq F] {α φ ε V T γ : Type} [LinearOrder α]

/-- exp_recsys_sp.py and exp_recsys_if.py, called with the strings `argv`. -/
noncomputable def expLine (S : Setup F C α φ ε V T γ) (m : Machine V T) (rd : Reader F) (sc : Script) (argv : List Str) : Prog F C :=
  let r := parse expParser argv
  perform S.empty (expAct rd S.stdin S.stdout sc) r.1 (defaults sc S.stdin S.stdout, ⟨false, false, false, false⟩)
    (fun st => finish r.2 (expTask S m sc st.1))

/-- exp_recsys_fold_merge.py, called with the strings `argv`. -/
def mergeLine (S : Setup F C α φ ε V T γ) (rd : Reader F) (argv : List Str) : Prog F C :=
  let r := parse mergeParser argv
  perform S.empty (mergeAct rd S.stdin S.stdout) r.1 (false, false, S.stdout, [])
    (fun st => finish r.2 (mergeTask S st.2.2.1 st.2.2.2))

/-- stats_recsys.py, called with the strings `argv`. -/
noncomputable def statsLine (S : Setup F C α φ ε V T γ) (rd : Reader F) (argv : List Str) : Prog F C :=
  let r := parse statsParser argv
  perform S.empty (statsAct rd S.stdin S.stdout) r.1 (⟨none, none, false, false, false⟩, S.stdin, S.stdout)
    (fun st => finish r.2 (statsTask S (st.1.infile.getD st.2.1) (st.1.outfile.getD st.2.2) st.1.keep))

end Kam.Args
