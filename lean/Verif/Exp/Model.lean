/-
Model of the command line of scripts/exp_recsys_sp.py and scripts/exp_recsys_if.py, and of the recommenders
the scripts make from it: options, `init_info`, the constructors and `do_task` with the models of the
recommenders (Verif/MF, Verif/PLSA) in place of the abstract one of Verif/Scripts.

The command line is given as the list of its options with converted arguments, and its positional arguments:
how argparse splits and converts strings (abbreviated names, `--C=1`) is left out.  The files it opens are in Verif/Shell.
-/
import Verif.Scripts.Model
import Verif.MF.Model
import Verif.PLSA.Model
import Verif.Opt.Model

set_option linter.unusedSectionVars false

namespace Kam.Exp
open Scripts

/-- The two scripts: score predictors and item finders. -/
inductive Script where
  | sp
  | itemFinder
  deriving DecidableEq

/-- An option of the command line (exp_recsys_sp.py:192-233, exp_recsys_if.py:197-238). -/
inductive Arg (F : Type) where
  | verbose
  | quiet
  | rseed (n : Int)
  | infile (f : F)
  | outfile (f : F)
  | testfile (f : F)
  | method (m : String)
  | validation (v : String)
  | fold (n : Int)
  | foldNo (n : Int)
  | domain (lo hi st : ℝ)
  | noTimestamp
  | timestamp
  | C (x : ℝ)
  | dim (n : Int)
  | alpha (x : ℝ)
  | tol (x : ℝ)
  | maxiter (n : Int)

/-- `argparse.Namespace` (exp_recsys_sp.py:236-245, exp_recsys_if.py:241-250). -/
structure Namespace (F : Type) where
  verbose : Bool
  rseed : Option Int
  infile : Option F
  infilep : F
  outfile : Option F
  outfilep : F
  testfile : Option F
  method : String
  validation : String
  fold : Int
  foldNo : Option Int
  domain : List ℝ
  timestamp : Bool
  C : ℝ
  k : Int
  alpha : ℝ
  tol : ℝ
  maxiter : Option Int

/-- The default of `--method` (exp_recsys_sp.py:216, exp_recsys_if.py:221). -/
def Script.method : Script → String
  | .sp => "pmf"
  | .itemFinder => "lpmf"

/-- The choices of `--method` (exp_recsys_sp.py:217, exp_recsys_if.py:222). -/
def Script.choices : Script → List String
  | .sp => ["pmf", "plsam", "plsamm"]
  | .itemFinder => ["lpmf"]

variable {F : Type}

/-- The defaults (exp_recsys_sp.py:192-233, exp_recsys_if.py:197-238); `stdin` and `stdout` are the default files. -/
noncomputable def defaults (sc : Script) (stdin stdout : F) : Namespace F where
  verbose := true
  rseed := none
  infile := none
  infilep := stdin
  outfile := none
  outfilep := stdout
  testfile := none
  method := sc.method
  validation := "holdout"
  fold := 5
  foldNo := none
  domain := [0, 0, 0]
  timestamp := true
  C := 0.01
  k := 1
  alpha := 1.0
  tol := 1e-05
  maxiter := none

/-- The members of the mutually exclusive groups met so far (exp_recsys_sp.py:196-199, 224-227,
exp_recsys_if.py:201-204, 229-232). -/
structure Seen where
  verbose : Bool
  quiet : Bool
  noTimestamp : Bool
  timestamp : Bool

/-- One option; `none`: argparse prints the usage and ends the script. -/
def parseArg (sc : Script) (st : Namespace F × Seen) (a : Arg F) : Option (Namespace F × Seen) :=
  let (o, s) := st
  match a with
  | .verbose => if s.quiet then none else some ({ o with verbose := true }, { s with verbose := true })
  | .quiet => if s.verbose then none else some ({ o with verbose := false }, { s with quiet := true })
  | .rseed n => some ({ o with rseed := some n }, s)
  | .infile f => some ({ o with infile := some f }, s)
  | .outfile f => some ({ o with outfile := some f }, s)
  | .testfile f => some ({ o with testfile := some f }, s)
  | .method m => if m ∈ sc.choices then some ({ o with method := m }, s) else none
  | .validation v => if v ∈ ["holdout", "cv"] then some ({ o with validation := v }, s) else none
  | .fold n => some ({ o with fold := n }, s)
  | .foldNo n => some ({ o with foldNo := some n }, s)
  | .domain lo hi st => some ({ o with domain := [lo, hi, st] }, s)
  | .noTimestamp => if s.timestamp then none else some ({ o with timestamp := false }, { s with noTimestamp := true })
  | .timestamp => if s.noTimestamp then none else some ({ o with timestamp := true }, { s with timestamp := true })
  | .C x => some ({ o with C := x }, s)
  | .dim n => some ({ o with k := n }, s)
  | .alpha x => some ({ o with alpha := x }, s)
  | .tol x => some ({ o with tol := x }, s)
  | .maxiter n => some ({ o with maxiter := some n }, s)

/-- `command_line_parser` (exp_recsys_sp.py:175-257, exp_recsys_if.py:180-262) for the options `args` and the positional arguments `pos`:
`infile` and `outfile` take the positional argument where there is no option (exp_recsys_sp.py:240-245, exp_recsys_if.py:245-250). -/
noncomputable def commandLine (sc : Script) (stdin stdout : F) (args : List (Arg F)) (pos : List F) : Option (Namespace F) := do
  let o := defaults sc stdin stdout
  let (o, _) ← args.foldlM (parseArg sc) (o, ⟨false, false, false, false⟩)
  let o ← match pos with
    | [] => some o
    | [i] => some { o with infilep := i }
    | [i, u] => some { o with infilep := i, outfilep := u }
    | _ => none
  return { o with infile := some (o.infile.getD o.infilep), outfile := some (o.outfile.getD o.outfilep) }

/-- The values in `info['model']['options']` and elsewhere in `info`. -/
inductive OptVal where
  | none
  | bool (b : Bool)
  | int (n : Int)
  | real (x : ℝ)
  | str (s : String)

/-- The classes of the recommenders. -/
inductive Class where
  | pmf
  | plsa
  | logistic
  deriving DecidableEq

/-- `info` as `init_info` leaves it: files, model and condition. -/
structure Info (F : Type) where
  trainFile : F
  outFile : F
  testFile : Option F
  cls : Class
  method : String
  options : Dict String OptVal
  scoreDomain : List ℝ
  hasTimestamp : Bool
  scheme : String
  nFolds : Int

/-- `if opt.maxiter is not None: info['model']['options']['maxiter'] = opt.maxiter` (exp_recsys_sp.py:289-290,
298-299, 307-308, exp_recsys_if.py:294-295). -/
def addMaxiter (o : Namespace F) (options : Dict String OptVal) : Dict String OptVal :=
  match o.maxiter with
  | none => options
  | some n => options.set "maxiter" (.int n)

/-- The class, the name of the method and the options (exp_recsys_sp.py:284-311, exp_recsys_if.py:289-298). -/
def initModel (sc : Script) (o : Namespace F) : Res (Class × String × Dict String OptVal) :=
  match sc with
  | .sp =>
    if o.method = "pmf" then
      .ok (.pmf, "probabilistic matrix factorization",
        addMaxiter o [("C", .real o.C), ("k", .int o.k), ("tol", .real o.tol)])
    else if o.method = "plsam" then
      .ok (.plsa, "multionomial pLSA - expectation",
        addMaxiter o [("alpha", .real o.alpha), ("k", .int o.k), ("tol", .real o.tol), ("use_expectation", .bool true)])
    else if o.method = "plsamm" then
      .ok (.plsa, "multionomial pLSA - mode",
        addMaxiter o [("alpha", .real o.alpha), ("k", .int o.k), ("tol", .real o.tol), ("use_expectation", .bool false)])
    else .error .typeError
  | .itemFinder =>
    if o.method = "lpmf" then
      .ok (.logistic, "logistic probabilistic matrix factorization",
        addMaxiter o [("C", .real o.C), ("k", .int o.k), ("tol", .real o.tol)])
    else .error .typeError

/-- `opt.rseed` as an option of the recommender. -/
def seedVal : Option Int → OptVal
  | some n => .int n
  | none => .none

/-- `init_info` (exp_recsys_sp.py:260-321, exp_recsys_if.py:265-308). -/
def initInfo (sc : Script) (o : Namespace F) : Res (Info F) := do
  let (cls, method, options) ← initModel sc o
  return {
    trainFile := o.infile.getD o.infilep
    outFile := o.outfile.getD o.outfilep
    testFile := o.testfile
    cls := cls
    method := method
    -- exp_recsys_sp.py:312, exp_recsys_if.py:299
    options := options.set "random_state" (seedVal o.rseed)
    -- exp_recsys_sp.py:315-319, exp_recsys_if.py:302-306
    scoreDomain := o.domain
    hasTimestamp := o.timestamp
    scheme := o.validation
    nFolds := o.fold }

variable {α φ ε V T γ : Type} [LinearOrder α]

/-- What the library takes from the outside: the optimizer, the generators, the state of a generator after a fit,
`str` of a value, and how values are written to the output. -/
structure Lib (α φ ε V γ : Type) where
  opt : MF.Optimizer
  normal : MF.Rng γ
  dirichlet : PLSA.Rng γ
  after : γ → ScoreData ℝ α φ ε → γ
  str : OptVal → String
  leaf : OptVal → V
  mf : MF.Val → J V
  plsa : PLSA.Val → J V

/-- A score predictor as the scripts use it: `rec = recommender(**options)`, `rec.fit(data)`, `rec.predict(ev)`
(exp_recsys_util.py:85, 132, 188, 258).  The generator of the fit is `g`. -/
noncomputable def predictor {θ W : Type} (L : Learner ℝ γ θ W) (fresh : Dict String W) (enc : W → J V)
    (after : γ → ScoreData ℝ α φ ε → γ) : Recommender ℝ α φ ε V γ (Rec ℝ α φ ε γ θ W) where
  fit := fun g d =>
    match Rec.fitPredictor L (fun _ => g) g (Rec.init none fresh) d none with
    | .ok r => .ok (r, r.fitResults.map (fun p => (p.1, enc p.2)), after g d)
    | .error (e, _) => .error e
  predict := fun r evs => Rec.predict L r (.mat ⟨2, evs⟩)

/-- An item finder as the scripts use it. -/
noncomputable def finder {θ W : Type} (L : Learner ℝ γ θ W) (fresh : Dict String W) (enc : W → J V)
    (after : γ → ScoreData ℝ α φ ε → γ) : Recommender ℝ α φ ε V γ (Rec ℝ α φ ε γ θ W) where
  fit := fun g d =>
    match Rec.fitExplicit L (fun _ => g) g (Rec.init none fresh) d none with
    | .ok r => .ok (r, r.fitResults.map (fun p => (p.1, enc p.2)), after g d)
    | .error (e, _) => .error e
  predict := fun r evs => Rec.predict L r (.mat ⟨2, evs⟩)

/-- A recommender whose `fit` raises `e`. -/
def failing {M : Type} (e : Exc) : Recommender ℝ α φ ε V γ M where
  fit := fun _ _ => .error e
  predict := fun _ _ => .error e

/-! ### Constructors -/

/-- `float(x)` of an option. -/
def OptVal.float : OptVal → Res ℝ
  | .real x => .ok x
  | .int n => .ok n
  | _ => .error .typeError

/-- `int(x)` of an option that is an integer. -/
def OptVal.int' : OptVal → Res Int
  | .int n => .ok n
  | _ => .error .typeError

/-- An option as a keyword argument. -/
def OptVal.kw : OptVal → Opt.Kw OptVal
  | .none => .none
  | v => .val v

/-- The keyword arguments that are no parameters of the constructor. -/
def restOf (names : List String) (options : Dict String OptVal) : Dict String (Opt.Kw OptVal) :=
  (options.filter (fun p => p.1 ∉ names)).map (fun p => (p.1, p.2.kw))

/-- The objects of `Verif/Opt`. -/
noncomputable def consts : Opt.Consts OptVal := ⟨.bool false, .str "CG", .int 100, .real 1e-10⟩

/-- `str` of a keyword argument that is no dictionary. -/
def kwStr (str : OptVal → String) : Opt.Kw OptVal → String
  | .val v => str v
  | _ => str .none

/-- The keyword arguments of `scipy.optimize.minimize`: an entry `options` that is a dictionary is written as its
entries, `options.disp` and so on. -/
def flatten (str : OptVal → String) (h : Opt.Store OptVal) (p : Nat) : List (String × String) :=
  (Opt.cell h p).flatMap (fun kv =>
    match kv.2 with
    | .dict a => (Opt.cell h a).map (fun q => (kv.1 ++ "." ++ q.1, kwStr str q.2))
    | v => [(kv.1, kwStr str v)])

/-- The constructors `PMF(**options)` and `LogisticPMF(**options)` (score_predictor/matrix_factorization.py:110-125,
item_finder/matrix_factorization.py:120-136) with the settings part of `fit` (Verif/Opt).  A negative `k` is kept: `fit`
cannot make arrays of negative length. -/
noncomputable def newMF (lib : Lib α φ ε V γ) (options : Dict String OptVal) : Res (Int × MF.Config γ) := do
  let C ← (options.getD "C" (.real 1.0)).float
  let k ← (options.getD "k" (.int 1)).int'
  let (h, r) ← Opt.construct consts [] (restOf ["C", "k", "random_state"] options)
  let (h, method, p) := Opt.fitSettings consts h r
  return (k, ⟨C, k.toNat, kwStr lib.str method, flatten lib.str h p, lib.opt, lib.normal⟩)

/-- The constructor `MultinomialPLSA(**options)` (score_predictor/topic_model.py:91-105) with the settings part of `fit`.
A negative `maxiter` is like zero (`xrange(maxiter)` is empty; simplified: the recorded setting is then 0). -/
noncomputable def newPLSA (lib : Lib α φ ε V γ) (options : Dict String OptVal) : Res (Int × PLSA.Config γ) := do
  let alpha ← (options.getD "alpha" (.real 1.0)).float
  let k ← (options.getD "k" (.int 1)).int'
  let e ← (match options.getD "use_expectation" (.bool true) with
    | .bool b => .ok b
    | _ => .error .typeError)
  let (h, r) := Opt.constructPLSA consts [] (restOf ["k", "alpha", "use_expectation", "random_state"] options)
  match ← Opt.fitPLSA h r with
  | (.val (.int m), .val t) => do
    let tol ← t.float
    return (k, ⟨k.toNat, alpha, e, m.toNat, tol, lib.dirichlet⟩)
  | _ => .error .typeError

/-- The seed `do_task` and the constructor take from the options (exp_recsys_util.py:296). -/
def seedOf (options : Dict String OptVal) : Res (Option Int) :=
  match options.getD "random_state" .none with
  | .none => .ok none
  | .int n => .ok (some n)
  | _ => .error .typeError

/-- What `str(class)`, `rec.__name__`, `rec.__module__`, `rec.task_type` and `rec.explicit_ratings` are
(score_predictor/base.py:69-70, item_finder/base.py:71-72); `__module__` is that of the file. -/
def Class.name : Class → String
  | .pmf => "PMF"
  | .plsa => "MultinomialPLSA"
  | .logistic => "LogisticPMF"

/-- See `Class.name`. -/
def Class.module : Class → String
  | .pmf => "kamrecsys.score_predictor.matrix_factorization"
  | .plsa => "kamrecsys.score_predictor.topic_model"
  | .logistic => "kamrecsys.item_finder.matrix_factorization"

/-- See `Class.name`. -/
def Class.task : Class → String
  | .logistic => "item_finder"
  | _ => "score_predictor"

/-- The sections `condition` and `model` of the output (`init_info`, exp_recsys_util.py:306-310, 328); `leaf` writes a
value. -/
def Info.setting (info : Info F) (leaf : OptVal → V) (file : F → V) (environment : Dict String (J V)) (seed : Option Int) :
    Setting ℝ F V where
  trainFile := info.trainFile
  testFile := info.testFile
  scoreDomain := info.scoreDomain
  nFolds := info.nFolds
  cv := decide (info.scheme = "cv")
  seed := seed
  condition := [("out_file", .leaf (file info.outFile)),
    ("score_domain", .list (info.scoreDomain.map (fun x => .leaf (leaf (.real x))))),
    ("has_timestamp", .leaf (leaf (.bool info.hasTimestamp))), ("explicit_rating", .leaf (leaf (.bool true))),
    ("scheme", .leaf (leaf (.str info.scheme))), ("n_folds", .leaf (leaf (.int info.nFolds)))]
  environment := environment
  model := [("options", .dict (info.options.map (fun p => (p.1, .leaf (leaf p.2))))),
    ("method", .leaf (leaf (.str info.method))), ("recommender", .leaf (leaf (.str ("<class '" ++ info.cls.module ++ "." ++ info.cls.name ++ "'>")))),
    ("task_type", .leaf (leaf (.str info.cls.task))), ("explicit_ratings", .leaf (leaf (.bool true))),
    ("name", .leaf (leaf (.str info.cls.name))), ("module", .leaf (leaf (.str info.cls.module)))]

/-- The recommender of a matrix factorization class with a number of factors that may be negative. -/
noncomputable def guardK {M : Type} (k : Int) (rec : Recommender ℝ α φ ε V γ M) : Recommender ℝ α φ ε V γ M :=
  if k < 0 then failing .valueError else rec

/-- `main` (exp_recsys_sp.py:324-334, exp_recsys_if.py:311-321) after the command line: `init_info` and `do_task`.  `read b f` are the arrays read
from the file `f`, with timestamps iff `b` (datasets/base.py:138-144). -/
noncomputable def task (env : Env ℝ α ε F V T γ) (lib : Lib α φ ε V γ) (clock : Nat → T) (environment : Dict String (J V))
    (read : Bool → F → Res (Table ℝ α ε)) (sc : Script) (o : Namespace F) : Res (J V) := do
  let info ← initInfo sc o
  let seed ← seedOf info.options
  let s := info.setting lib.leaf (fun f => env.file (some f)) environment seed
  let load : Loader ℝ α φ ε F := match sc with
    | .sp => loadDataSP (read info.hasTimestamp)
    | .itemFinder => loadDataIF (read info.hasTimestamp)
  match info.cls with
  | .pmf => do
    let (k, cf) ← newMF lib info.options
    doTask env clock (guardK k (predictor (MF.pmf cf) MF.initialResults lib.mf lib.after)) load s o.foldNo
  | .logistic => do
    let (k, cf) ← newMF lib info.options
    doTask env clock (guardK k (finder (MF.logistic cf) MF.initialResults lib.mf lib.after)) load s o.foldNo
  | .plsa => do
    let (k, cf) ← newPLSA lib info.options
    doTask env clock (guardK k (predictor (PLSA.plsa cf) PLSA.initialResults lib.plsa lib.after)) load s o.foldNo

/-- The script: what it writes for a command line; `none` when argparse ends it. -/
noncomputable def main (env : Env ℝ α ε F V T γ) (lib : Lib α φ ε V γ) (clock : Nat → T) (environment : Dict String (J V))
    (read : Bool → F → Res (Table ℝ α ε)) (sc : Script) (stdin stdout : F) (args : List (Arg F)) (pos : List F) :
    Option (Res (J V)) :=
  (commandLine sc stdin stdout args pos).map (task env lib clock environment read sc)

end Kam.Exp
