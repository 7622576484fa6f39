/-
Model of the scripts as programs on files: the command lines of scripts/exp_recsys_sp.py, exp_recsys_if.py,
exp_recsys_fold_merge.py and stats_recsys.py with the files argparse opens, the files the scripts read and the one they
write, run alone or together.

Simplified: positional arguments come after the options, and every file can be written.
`sys.stdin` and `sys.stdout` are names of files like the others.
-/
import Verif.Exp.Model
import Verif.Scripts.Stats

set_option linter.unusedSectionVars false

namespace Kam.Shell
open Scripts
open Exp (Arg Namespace Seen parseArg defaults Script Lib)

variable {F C : Type}

/-! ### Programs on files -/

/-- How a script ends: by itself, by argparse after a message about the usage, or by an exception. -/
inductive Exit where
  | success
  | usage
  | raised (e : Exc)
  deriving DecidableEq

/-- What a script does with files: it ends, looks at a file (`none`: there is none), or writes one. -/
inductive Prog (F C : Type) where
  | done (x : Exit)
  | look (f : F) (k : Option C → Prog F C)
  | put (f : F) (c : C) (k : Prog F C)

/-- The files of a machine and what is in them. -/
abbrev Files (F C : Type) := F → Option C

variable [DecidableEq F]

/-- The next step of a program. -/
def Prog.step (p : Prog F C) (w : Files F C) : Prog F C × Files F C :=
  match p with
  | .done x => (.done x, w)
  | .look f k => (k (w f), w)
  | .put f c k => (k, Function.update w f (some c))

/-- A program that is run alone to its end. -/
def Prog.run : Prog F C → Files F C → Exit × Files F C
  | .done x, w => (x, w)
  | .look f k, w => (k (w f)).run w
  | .put f c k, w => k.run (Function.update w f (some c))

/-- The programs `ps`, of which the scheduler lets one make a step at a time. -/
def together (ps : Nat → Prog F C) (w : Files F C) : List Nat → (Nat → Prog F C) × Files F C
  | [] => (ps, w)
  | i :: is => together (Function.update ps i ((ps i).step w).1) ((ps i).step w).2 is

/-! ### The scripts -/

variable {α φ ε V T γ : Type} [LinearOrder α]

/-- What the scripts take from the outside: that of Verif/Exp and Verif/Scripts, what is in a file just opened for writing,
how a file is read as a table or as JSON, how JSON is written (`parts`: what others can find in the file before all of it is
written), and the files of the process. -/
structure Setup (F C α φ ε V T γ : Type) where
  env : Env ℝ α ε F V T γ
  lib : Lib α φ ε V γ
  se : StatsEnv V
  tru : V
  empty : C
  table : Bool → C → Res (Table ℝ α ε)
  encode : J V → C
  parts : J V → List C
  decode : C → Res (J V)
  stdin : F
  stdout : F

/-- What differs between two calls of a script: the time and the machine. -/
structure Machine (V T : Type) where
  clock : Nat → T
  environment : Dict String (J V)

/-- `argparse.FileType('r')` and `FileType('rb')`: a file that is not there is a wrong argument. -/
def openRead (f : F) (k : Prog F C) : Prog F C :=
  .look f (fun c => match c with
    | none => .done .usage
    | some _ => k)

/-- `argparse.FileType('w')`: the file is made, or emptied, while the command line is parsed. -/
def openWrite (empty : C) (f : F) (k : Prog F C) : Prog F C := .put f empty k

/-- The file of an option (exp_recsys_sp.py:204-213, exp_recsys_if.py:209-218). -/
def openArg (empty : C) (a : Arg F) (k : Prog F C) : Prog F C :=
  match a with
  | .infile f => openRead f k
  | .testfile f => openRead f k
  | .outfile f => openWrite empty f k
  | _ => k

/-- The options from left to right: the argument is converted, then the action of the option is taken. -/
def parseArgs (empty : C) (sc : Script) : List (Arg F) → Namespace F × Seen → (Namespace F → Prog F C) → Prog F C
  | [], st, k => k st.1
  | a :: as, st, k => openArg empty a (match parseArg sc st a with
    | none => .done .usage
    | some st => parseArgs empty sc as st k)

/-- The positional arguments (exp_recsys_sp.py:206-211, exp_recsys_if.py:211-216); further ones are refused at the end. -/
def parsePos (empty : C) (pos : List F) (o : Namespace F) (k : Namespace F → Prog F C) : Prog F C :=
  match pos with
  | [] => k o
  | [i] => openRead i (k { o with infilep := i })
  | [i, u] => openRead i (openWrite empty u (k { o with infilep := i, outfilep := u }))
  | i :: u :: _ => openRead i (openWrite empty u (.done .usage))

/-- The arrays of an opened file. -/
def arrays (S : Setup F C α φ ε V T γ) (b : Bool) (c : Option C) : Res (Table ℝ α ε) :=
  match c with
  | some c => S.table b c
  | none => .error .ioError

/-- A file that gets one content after the other. -/
def puts (f : F) : List C → Prog F C → Prog F C
  | [], k => k
  | c :: cs, k => .put f c (puts f cs k)

/-- What a script writes (`outfile.write(json.dumps(info))`, exp_recsys_util.py:329-332, exp_recsys_fold_merge.py:175-178,
stats_recsys.py:131-138), bit by bit, or the exception that ends it. -/
def output (S : Setup F C α φ ε V T γ) (out : F) (r : Res (J V)) : Prog F C :=
  match r with
  | .ok j => puts out (S.parts j) (.put out (S.encode j) (.done .success))
  | .error e => .done (.raised e)

/-- `init_info` and `do_task` of an experiment script (exp_recsys_sp.py:324-334, exp_recsys_if.py:311-321).  Simplified: the test file is read right
after the training file. -/
noncomputable def expTask (S : Setup F C α φ ε V T γ) (m : Machine V T) (sc : Script) (o : Namespace F) : Prog F C :=
  let i := o.infile.getD o.infilep
  let u := o.outfile.getD o.outfilep
  let o' : Namespace F := { o with infile := some i, outfile := some u }
  .look i (fun c =>
    match o.testfile with
    | none => output S u (Exp.task S.env S.lib m.clock m.environment (fun b _ => arrays S b c) sc o')
    | some t => .look t (fun d =>
      output S u (Exp.task S.env S.lib m.clock m.environment
        (fun b f => if f = i then arrays S b c else arrays S b d) sc o')))

/-- exp_recsys_sp.py and exp_recsys_if.py. -/
noncomputable def expProg (S : Setup F C α φ ε V T γ) (m : Machine V T) (sc : Script) (args : List (Arg F)) (pos : List F) : Prog F C :=
  parseArgs S.empty sc args (defaults sc S.stdin S.stdout, ⟨false, false, false, false⟩) (fun o =>
    parsePos S.empty pos o (expTask S m sc))

/-! ### exp_recsys_fold_merge.py -/

/-- An option of exp_recsys_fold_merge.py:209-222. -/
inductive MergeArg (F : Type) where
  | verbose
  | quiet
  | outfile (f : F)

/-- The options of exp_recsys_fold_merge.py; the state is the members of the group met so far and the output file. -/
def parseMergeArgs (empty : C) : List (MergeArg F) → Bool × Bool × F → (F → Prog F C) → Prog F C
  | [], (_, _, u), k => k u
  | .verbose :: as, (_, q, u), k => if q then .done .usage else parseMergeArgs empty as (true, q, u) k
  | .quiet :: as, (v, _, u), k => if v then .done .usage else parseMergeArgs empty as (v, true, u) k
  | .outfile f :: as, (v, q, _), k => openWrite empty f (parseMergeArgs empty as (v, q, f) k)

/-- Files opened one after the other. -/
def openReads : List F → Prog F C → Prog F C
  | [], k => k
  | f :: fs, k => openRead f (openReads fs k)

/-- `json.load(fp)` of an opened file. -/
def load (S : Setup F C α φ ε V T γ) (c : Option C) : Res (J V) :=
  match c with
  | some c => S.decode c
  | none => .error .ioError

/-- The loop over the further files (exp_recsys_fold_merge.py:166-169) and the output (174-178). -/
def mergeRest (S : Setup F C α φ ε V T γ) (u : F) : List F → J V → Prog F C
  | [], cv => output S u (cv.setItem2 "condition" "out_file" (.leaf (S.env.file (some u))))
  | f :: fs, cv => .look f (fun c => match load S c >>= fun j => restFold j cv with
    | .ok cv => mergeRest S u fs cv
    | .error e => .done (.raised e))

/-- `do_task` of exp_recsys_fold_merge.py:148-178. -/
def mergeTask (S : Setup F C α φ ε V T γ) (u : F) (fs : List F) : Prog F C :=
  match fs with
  | [] => .done (.raised .indexError)
  | f :: fs => .look f (fun c => match load S c >>= firstFold S.tru with
    | .ok cv => mergeRest S u fs cv
    | .error e => .done (.raised e))

/-- The positional arguments: `nargs='+'` asks for a file at least (exp_recsys_fold_merge.py:221-222). -/
def mergePos (S : Setup F C α φ ε V T γ) (pos : List F) (u : F) : Prog F C :=
  match pos with
  | [] => .done .usage
  | _ => openReads pos (mergeTask S u pos)

/-- exp_recsys_fold_merge.py:236-243. -/
def mergeProg (S : Setup F C α φ ε V T γ) (args : List (MergeArg F)) (pos : List F) : Prog F C :=
  parseMergeArgs S.empty args (false, false, S.stdout) (mergePos S pos)

/-! ### stats_recsys.py -/

/-- An option of stats_recsys.py:166-187. -/
inductive StatsArg (F : Type) where
  | rseed (n : Int)
  | infile (f : F)
  | outfile (f : F)
  | noKeepdata
  | keepdata

/-- `argparse.Namespace` of stats_recsys.py (166-187), with the members of the group met so far. -/
structure StatsOpts (F : Type) where
  infile : Option F
  outfile : Option F
  keep : Bool
  seenKeep : Bool
  seenNo : Bool

/-- The options of stats_recsys.py. -/
def parseStatsArgs (empty : C) : List (StatsArg F) → StatsOpts F → (StatsOpts F → Prog F C) → Prog F C
  | [], o, k => k o
  | .rseed _ :: as, o, k => parseStatsArgs empty as o k
  | .infile f :: as, o, k => openRead f (parseStatsArgs empty as { o with infile := some f } k)
  | .outfile f :: as, o, k => openWrite empty f (parseStatsArgs empty as { o with outfile := some f } k)
  | .noKeepdata :: as, o, k =>
    if o.seenKeep then .done .usage else parseStatsArgs empty as { o with keep := false, seenNo := true } k
  | .keepdata :: as, o, k =>
    if o.seenNo then .done .usage else parseStatsArgs empty as { o with keep := true, seenKeep := true } k

/-- `do_task` of stats_recsys.py:91-138. -/
noncomputable def statsTask (S : Setup F C α φ ε V T γ) (i u : F) (keep : Bool) : Prog F C :=
  .look i (fun c => output S u (load S c >>= stats S.se keep))

/-- The positional arguments of stats_recsys.py, used where there is no option (stats_recsys.py:194-200). -/
noncomputable def statsPos (S : Setup F C α φ ε V T γ) (pos : List F) (o : StatsOpts F) : Prog F C :=
  match pos with
  | [] => statsTask S (o.infile.getD S.stdin) (o.outfile.getD S.stdout) o.keep
  | [i] => openRead i (statsTask S (o.infile.getD i) (o.outfile.getD S.stdout) o.keep)
  | [i, u] => openRead i (openWrite S.empty u (statsTask S (o.infile.getD i) (o.outfile.getD u) o.keep))
  | i :: u :: _ => openRead i (openWrite S.empty u (.done .usage))

/-- stats_recsys.py:205-212; `--no-keepdata` is the default (stats_recsys.py:183). -/
noncomputable def statsProg (S : Setup F C α φ ε V T γ) (args : List (StatsArg F)) (pos : List F) : Prog F C :=
  parseStatsArgs S.empty args ⟨none, none, false, false, false⟩ (statsPos S pos)

/-! ### Commands -/

/-- A command of the shell. -/
inductive Command (F : Type) where
  | exp (sc : Script) (args : List (Arg F)) (pos : List F)
  | merge (args : List (MergeArg F)) (pos : List F)
  | stats (args : List (StatsArg F)) (pos : List F)

/-- The program of a command. -/
noncomputable def Command.prog (S : Setup F C α φ ε V T γ) (m : Machine V T) : Command F → Prog F C
  | .exp sc args pos => expProg S m sc args pos
  | .merge args pos => mergeProg S args pos
  | .stats args pos => statsProg S args pos

end Kam.Shell
