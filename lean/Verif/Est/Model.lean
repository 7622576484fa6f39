/-
Model of the recommenders as scikit-learn estimators: `get_params`, `set_params` and `sklearn.base.clone`, which all recommenders
have by their base class `BaseEstimator` (base/base.py:50), modelled after scikit-learn 0.20 and 0.21.  The constructors decide
what these functions see: named parameters are estimator parameters, `**optimizer_kwargs` are not.

Simplified: `is` is equality of kind and value (`float(x)` and `int(n)` return `x` and `n` themselves when these are a float and an
int); no parameter is itself an estimator; `deepcopy` of a dictionary does not copy dictionaries inside of it.
-/
import Verif.Opt.Model
import Verif.Convert.Model

namespace Kam.Est
open Opt (Kw Store Consts cell)

/-- Python objects: numbers, texts, generators (`RandomState`, by address) and anything else. -/
inductive Value (K : Type) where
  | bool (b : Bool)
  | int (n : Int)
  | float (x : K)
  | str (s : Convert.Str)
  | gen (a : Nat)
  | other (n : Nat)
  deriving DecidableEq

deriving instance DecidableEq for Opt.Kw

/-- A parameter: `None`, a dictionary by its address, or a value. -/
abbrev Obj (K : Type) := Kw (Value K)

/-- The classes of recommenders. -/
inductive Cls where
  | pmf
  | logistic
  | implicit
  | plsa
  deriving DecidableEq

section
variable {K : Type} [Field K] [LinearOrder K] [FloorRing K]

/-- `float(x)`. -/
def pyFloat : Obj K → Res (Obj K)
  | .val (.float x) => .ok (.val (.float x))
  | .val (.int n) => .ok (.val (.float (n : K)))
  | .val (.bool b) => .ok (.val (.float (if b then 1 else 0)))
  | .val (.str s) => match Convert.floatOf s with
    | some x => .ok (.val (.float x))
    | none => .error .valueError
  | _ => .error .typeError

/-- `int(x)`. -/
def pyInt : Obj K → Res (Obj K)
  | .val (.float x) => .ok (.val (.int (Kam.pyInt x)))
  | .val (.int n) => .ok (.val (.int n))
  | .val (.bool b) => .ok (.val (.int (if b then 1 else 0)))
  | .val (.str s) => match Convert.intOf s with
    | some n => .ok (.val (.int n))
    | none => .error .valueError
  | _ => .error .typeError

/-- The parameters of the constructors with their defaults (score_predictor/matrix_factorization.py:110,
item_finder/matrix_factorization.py:120, 496, score_predictor/topic_model.py:91-93). -/
def signature : Cls → List (String × Obj K)
  | .plsa => [("k", .val (.int 1)), ("alpha", .val (.float 1)), ("use_expectation", .val (.bool true)), ("random_state", .none)]
  | _ => [("C", .val (.float 1)), ("k", .val (.int 1)), ("random_state", .none)]

/-- What the constructors store for a parameter: `float(C)`, `int(k)`, and everything else as it is
(score_predictor/matrix_factorization.py:111-115, item_finder/matrix_factorization.py:122-126, 497-501,
score_predictor/topic_model.py:95-100). -/
def stored (cls : Cls) (name : String) (v : Obj K) : Res (Obj K) :=
  if cls = .plsa then .ok v
  else if name = "C" then pyFloat v
  else if name = "k" then pyInt v
  else .ok v

/-- `BaseEstimator._get_param_names`: the parameters of the constructor apart from `self` and `**optimizer_kwargs`, sorted. -/
def paramNames : Cls → List String
  | .plsa => ["alpha", "k", "random_state", "use_expectation"]
  | _ => ["C", "k", "random_state"]

/-- The objects the constructors supply (score_predictor/matrix_factorization.py:122, 338, score_predictor/topic_model.py:102-105). -/
def consts : Consts (Value K) := ⟨.bool false, .str ['C', 'G'], .int 100, .float (1 / 10 ^ 10)⟩

/-- A recommender: its class, the attributes with the names of the parameters, the address of `optimizer_kwargs`, and what `fit` has
learned (`None` in the constructors: score_predictor/matrix_factorization.py:127-136, item_finder/matrix_factorization.py:138-147,
513-522, score_predictor/topic_model.py:107-117). -/
structure Rec (K θ : Type) where
  cls : Cls
  attrs : Dict String (Obj K)
  kw : Nat
  learned : Option θ

/-- All objects of a program: dictionaries, states of generators, recommenders. -/
structure World (K γ θ : Type) where
  store : Store (Value K)
  gens : List γ
  recs : List (Rec K θ)

variable {γ θ D : Type}

/-- A call of the constructor with keyword arguments: those that are not named in the signature are `optimizer_kwargs`
(score_predictor/matrix_factorization.py:110-125, item_finder/matrix_factorization.py:120-136, 496-511,
score_predictor/topic_model.py:91-105; the dictionaries are in Verif/Opt/Model). -/
def make (w : World K γ θ) (cls : Cls) (args : Dict String (Obj K)) : Res (World K γ θ) :=
  match (signature (K := K) cls).mapM (fun p => (stored cls p.1 (args.getD p.1 p.2)).map (fun v => (p.1, v))) with
  | .error e => .error e
  | .ok attrs =>
    let kw := args.filter (fun p => p.1 ∉ paramNames cls)
    if cls = .plsa then
      let x := Opt.constructPLSA consts w.store kw
      .ok ⟨x.1, w.gens, w.recs ++ [⟨cls, attrs, x.2, none⟩]⟩
    else
      match Opt.construct consts w.store kw with
      | .error e => .error e
      | .ok x => .ok ⟨x.1, w.gens, w.recs ++ [⟨cls, attrs, x.2, none⟩]⟩

/-- `BaseEstimator.get_params`. -/
def getParams (r : Rec K θ) : Dict String (Obj K) := (paramNames r.cls).map (fun n => (n, r.attrs.getD n .none))

/-- `key.partition('__')`: the text before the delimiter, and whether there is one. -/
def partition : List Char → List Char × Bool
  | '_' :: '_' :: _ => ([], true)
  | c :: s => (c :: (partition s).1, (partition s).2)
  | [] => ([], false)

/-- The loop of `BaseEstimator.set_params`: an unknown name raises `ValueError` when its turn comes.  The flag tells whether there
was a nested name. -/
def assign (r : Rec K θ) (nested : Bool) : List (String × Obj K) → Mut (Rec K θ) (Rec K θ × Bool)
  | [] => .ok (r, nested)
  | (k, v) :: ps =>
    let x := partition k.toList
    if String.ofList x.1 ∉ paramNames r.cls then .error (.valueError, r)
    else if x.2 then assign r true ps
    else assign { r with attrs := r.attrs.set (String.ofList x.1) v } nested ps

/-- `BaseEstimator.set_params`: nested names ask a parameter for its method `set_params`, which none has. -/
def setParams (r : Rec K θ) (ps : List (String × Obj K)) : Mut (Rec K θ) (Rec K θ) :=
  match assign r false ps with
  | .error e => .error e
  | .ok (r', true) => .error (.attributeError, r')
  | .ok (r', false) => .ok r'

/-- `copy.deepcopy`. -/
def deepcopy (w : World K γ θ) : Obj K → World K γ θ × Obj K
  | .val (.gen a) => match w.gens[a]? with
    | some g => ({ w with gens := w.gens ++ [g] }, .val (.gen w.gens.length))
    | none => (w, .val (.gen a))
  | .dict a => ({ w with store := w.store ++ [cell w.store a] }, .dict w.store.length)
  | v => (w, v)

/-- The copies of all parameters. -/
def copyParams (w : World K γ θ) : Dict String (Obj K) → World K γ θ × Dict String (Obj K)
  | [] => (w, [])
  | (n, v) :: ps =>
    let x := deepcopy w v
    let y := copyParams x.1 ps
    (y.1, (n, x.2) :: y.2)

/-- How `clone` fails: by an exception of the constructor, or by its own `RuntimeError`. -/
inductive Fail where
  | constructor (e : Exc)
  | runtimeError
  deriving DecidableEq

/-- `sklearn.base.clone`: an object of the same class, constructed with copies of the parameters; they must be the parameters of the
new object. -/
def clone (w : World K γ θ) (r : Rec K θ) : Except Fail (World K γ θ × Rec K θ) :=
  let x := copyParams w (getParams r)
  match make x.1 r.cls x.2 with
  | .error e => .error (.constructor e)
  | .ok w' =>
    match w'.recs.getLast? with
    | none => .error .runtimeError
    | some r' => if ∀ p ∈ x.2, (getParams r').get? p.1 = some p.2 then .ok (w', r') else .error .runtimeError

/-- What a method sees of an object: generators by their states, dictionaries by their contents. -/
inductive Seen (K γ : Type) where
  | none
  | val (v : Value K)
  | gen (g : Option γ)
  | dict (d : Dict String (Obj K))

/-- What is seen of an object. -/
def see (w : World K γ θ) : Obj K → Seen K γ
  | .none => .none
  | .val (.gen a) => .gen (w.gens[a]?)
  | .val v => .val v
  | .dict a => .dict (cell w.store a)

/-- Everything of a recommender that `fit` looks at: class, parameters, `optimizer_kwargs`
(score_predictor/matrix_factorization.py:315-353, item_finder/matrix_factorization.py:323-361, 680-717,
score_predictor/topic_model.py:235-260, base/base.py:98-99). -/
structure Reads (K γ : Type) where
  cls : Cls
  params : List (String × Seen K γ)
  settings : List (String × Seen K γ)

/-- What `fit` looks at. -/
def reads (w : World K γ θ) (r : Rec K θ) : Reads K γ :=
  ⟨r.cls, (getParams r).map (fun p => (p.1, see w p.2)), (cell w.store r.kw).map (fun p => (p.1, see w p.2))⟩

/-- `fit`: what is learned is a function of what `fit` looks at and of the data; a generator given as `random_state` moves on.  A fit
that fails is left out (property C69). -/
def fit (F : Reads K γ → D → Option (θ × γ)) (w : World K γ θ) (j : Nat) (d : D) : World K γ θ :=
  match w.recs[j]? with
  | none => w
  | some r =>
    match F (reads w r) d with
    | none => w
    | some (t, g) =>
      let gens := match r.attrs.getD "random_state" .none with
        | .val (.gen a) => w.gens.set a g
        | _ => w.gens
      ⟨w.store, gens, w.recs.set j { r with learned := some t }⟩

/-- Calls in a program; names without recommender do nothing, and what raises leaves what it has changed. -/
inductive Op (K γ D : Type) where
  | newDict (d : Dict String (Obj K))
  | newGen (g : γ)
  | make (cls : Cls) (args : Dict String (Obj K))
  | setParams (j : Nat) (ps : List (String × Obj K))
  | clone (j : Nat)
  | fit (j : Nat) (d : D)

/-- One call. -/
def step (F : Reads K γ → D → Option (θ × γ)) (w : World K γ θ) : Op K γ D → World K γ θ
  | .newDict d => { w with store := w.store ++ [d] }
  | .newGen g => { w with gens := w.gens ++ [g] }
  | .make cls args => match make w cls args with
    | .ok w' => w'
    | .error _ => w
  | .setParams j ps => match w.recs[j]? with
    | none => w
    | some r => match setParams r ps with
      | .ok r' => { w with recs := w.recs.set j r' }
      | .error (_, r') => { w with recs := w.recs.set j r' }
  | .clone j => match w.recs[j]? with
    | none => w
    | some r => match clone w r with
      | .ok (w', _) => w'
      | .error _ => w
  | .fit j d => fit F w j d

/-- A program. -/
def run (F : Reads K γ → D → Option (θ × γ)) (w : World K γ θ) (ops : List (Op K γ D)) : World K γ θ :=
  ops.foldl (step F) w

/-- The start of a program. -/
def World.empty : World K γ θ := ⟨[], [], []⟩

end

end Kam.Est
