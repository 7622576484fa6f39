/-
Model of the optimizer settings of the recommenders: `optimizer_kwargs` and the `options` dictionary
inside it, which the caller may hand to several recommenders.
score_predictor/matrix_factorization.py:110-125, 337-353, item_finder/matrix_factorization.py:120-136,
345-361, 496-511, 701-717, score_predictor/topic_model.py:91-105, 259-260.
-/
import Verif.Py.Basic

namespace Kam.Opt

/-- A keyword value: `None`, a dictionary (by address) or any other object. -/
inductive Kw (X : Type) where
  | none
  | dict (a : Nat)
  | val (x : X)

/-- The dictionaries of a program, by address. -/
abbrev Store (X : Type) := List (Dict String (Kw X))

variable {X : Type}

/-- The dictionary at an address. -/
def cell (h : Store X) (a : Nat) : Dict String (Kw X) := (h[a]?).getD []

/-- `d[k] = v` for the dictionary at address `a`. -/
def setKey (h : Store X) (a : Nat) (k : String) (v : Kw X) : Store X := h.set a ((cell h a).set k v)

/-- A dictionary without a key: what `d.pop(k, dflt)` leaves. -/
def erase {ν : Type} (d : Dict String ν) (k : String) : Dict String ν := d.filter (fun p => p.1 ≠ k)

/-- `d.pop(k, dflt)` for the dictionary at address `a`, the effect on it. -/
def popKey (h : Store X) (a : Nat) (k : String) : Store X := h.set a (erase (cell h a) k)

/-- The objects the code itself supplies: `False`, `'CG'`, `100`, `1e-10`. -/
structure Consts (X : Type) where
  false : X
  cg : X
  maxiter : X
  tol : X

/-- The end of the constructor, for `optimizer_kwargs` at `r` and `options` at `a`
(score_predictor/matrix_factorization.py:119-125). -/
def storeOptions (c : Consts X) (h : Store X) (r a : Nat) : Store X :=
  let h := setKey h r "options" (.dict a)
  -- score_predictor/matrix_factorization.py:121-122
  let h := setKey h a "disp" ((cell h a).getD "disp" (.val c.false))
  -- score_predictor/matrix_factorization.py:123-125
  let maxiter := (cell h r).getD "maxiter" .none
  let h := popKey h r "maxiter"
  match maxiter with
  | .none => h
  | m => setKey h a "maxiter" m

/-- The constructor of `PMF`, `LogisticPMF` and `ImplicitLogisticPMF`, optimizer part
(score_predictor/matrix_factorization.py:117-125, item_finder/matrix_factorization.py:128-136, 503-511).
`kw` is the contents of the new dictionary Python makes of the keyword arguments.  Returns the store and
the address of `self.optimizer_kwargs`.  An `options` argument that is not a dictionary has no method
`get`. -/
def construct (c : Consts X) (h : Store X) (kw : Dict String (Kw X)) : Res (Store X × Nat) :=
  -- score_predictor/matrix_factorization.py:118
  let r := h.length
  let h := h ++ [kw]
  -- score_predictor/matrix_factorization.py:119-120
  match (cell h r).get? "options" with
  | none => .ok (storeOptions c (h ++ [[]]) r h.length, r)
  | some (.dict a) => .ok (storeOptions c h r a, r)
  | some _ => .error .attributeError

/-- The constructor of `MultinomialPLSA`, optimizer part (score_predictor/topic_model.py:101-105). -/
def constructPLSA (c : Consts X) (h : Store X) (kw : Dict String (Kw X)) : Store X × Nat :=
  let r := h.length
  let h := h ++ [kw]
  let h := setKey h r "maxiter" ((cell h r).getD "maxiter" (.val c.maxiter))
  let h := setKey h r "tol" ((cell h r).getD "tol" (.val c.tol))
  (h, r)

/-- The settings part of `fit` of a matrix factorization recommender whose `optimizer_kwargs` is at `r`
(score_predictor/matrix_factorization.py:337-338, 347-353, item_finder/matrix_factorization.py:345-346,
355-361, 701-702, 711-717): the store, the method and the address of the keyword arguments passed to
`scipy.optimize.minimize`, which does not assign into the dictionaries it is given. -/
def fitSettings (c : Consts X) (h : Store X) (r : Nat) : Store X × Kw X × Nat :=
  let copy := h.length
  let h := h ++ [cell h r]
  let method := (cell h copy).getD "method" (.val c.cg)
  let h := popKey h copy "method"
  (h, method, copy)

/-- The settings part of `MultinomialPLSA.fit` (score_predictor/topic_model.py:259-260): the values of
`maxiter` and `tol`. -/
def fitPLSA (h : Store X) (r : Nat) : Res (Kw X × Kw X) :=
  match (cell h r).getItem "maxiter", (cell h r).getItem "tol" with
  | .ok m, .ok t => .ok (m, t)
  | .error e, _ => .error e
  | _, .error e => .error e

/-- Which constructor made a recommender. -/
inductive Kind where
  | mf
  | plsa
  deriving DecidableEq

/-- All dictionaries and recommenders of a program; a recommender by its kind and the address of its
`optimizer_kwargs`. -/
structure World (X : Type) where
  store : Store X
  recs : List (Kind × Nat)

/-- Calls: make a dictionary; construct a matrix factorization recommender or a topic model with keyword
arguments; fit recommender `j`. -/
inductive Op (X : Type) where
  | newDict (d : Dict String (Kw X))
  | construct (kw : Dict String (Kw X))
  | constructPLSA (kw : Dict String (Kw X))
  | fit (j : Nat)

/-- One call; a constructor that raises gives no recommender, a name without a recommender nothing. -/
def step (c : Consts X) (w : World X) (op : Op X) : World X :=
  match op with
  | .newDict d => ⟨w.store ++ [d], w.recs⟩
  | .construct kw =>
    match construct c w.store kw with
    | .error _ => w
    | .ok (h, r) => ⟨h, w.recs ++ [(.mf, r)]⟩
  | .constructPLSA kw =>
    let (h, r) := constructPLSA c w.store kw
    ⟨h, w.recs ++ [(.plsa, r)]⟩
  | .fit j =>
    match w.recs[j]? with
    | some (.mf, r) => ⟨(fitSettings c w.store r).1, w.recs⟩
    | _ => w

/-- A program. -/
def run (c : Consts X) (w : World X) (ops : List (Op X)) : World X := ops.foldl (step c) w

/-- The start of a program. -/
def World.empty : World X := ⟨[], []⟩

end Kam.Opt
