/-
Model of kamrecsys/score_predictor/topic_model.py (MultinomialPLSA) and
`get_fit_status_message` of kamrecsys/utils/base.py, in exact real arithmetic.
-/
import Verif.Rec.Model
import Verif.MF.Model
import Mathlib.Analysis.SpecialFunctions.Log.Basic
import Mathlib.Algebra.BigOperators.Fin

namespace Kam
namespace PLSA
open scoped BigOperators

/-- One training event: the internal ids `ev[i, 0]`, `ev[i, 1]` and the digitized score `sc[i]`. -/
structure Ev (nu ni nl : Nat) where
  user : Fin nu
  item : Fin ni
  level : Fin nl

/-- The arrays `pZ_`, `pXgZ_`, `pYgZ_`, `pRgZ_` (score_predictor/topic_model.py:108-111). -/
@[ext] structure Theta (nu ni nl k : Nat) where
  pZ : Fin k → ℝ
  pX : Fin nu → Fin k → ℝ
  pY : Fin ni → Fin k → ℝ
  pR : Fin nl → Fin k → ℝ

/-- The array `_q` (score_predictor/topic_model.py:120, 166). -/
abbrev Resp (n k : Nat) := Fin n → Fin k → ℝ

variable {n nu ni nl k : Nat}

/-- `np.array([np.bincount(ids, weights=q[:, k], minlength=m) for k in ...]).T + alpha`
(score_predictor/topic_model.py:185-192, 196-203, 207-214). -/
noncomputable def weights {m : Nat} (a : ℝ) (id : Fin n → Fin m) (q : Resp n k) (j : Fin m)
    (z : Fin k) : ℝ :=
  (∑ e, if id e = j then q e z else 0) + a

/-- `p /= p.sum(axis=0, keepdims=True)` (score_predictor/topic_model.py:193, 204, 215).
A column without weight gives `nan` in numpy and 0 here. -/
noncomputable def normalize {m : Nat} (w : Fin m → Fin k → ℝ) (j : Fin m) (z : Fin k) : ℝ :=
  w j z / ∑ j', w j' z

/-- `maximization_step` (score_predictor/topic_model.py:170-219). -/
noncomputable def mStep (a : ℝ) (evs : Fin n → Ev nu ni nl) (q : Resp n k) : Theta nu ni nl k where
  pR := normalize (weights a (fun e => (evs e).level) q)
  pX := normalize (weights a (fun e => (evs e).user) q)
  pY := normalize (weights a (fun e => (evs e).item) q)
  -- score_predictor/topic_model.py:218-219
  pZ := fun z => (∑ e, q e z + a) / ∑ z', (∑ e, q e z' + a)

/-- `pZ_ * pRgZ_[sc] * pXgZ_[ev[0]] * pYgZ_[ev[1]]` for one event
(score_predictor/topic_model.py:139-143, 270-274). -/
noncomputable def joint (θ : Theta nu ni nl k) (e : Ev nu ni nl) (z : Fin k) : ℝ :=
  θ.pZ z * θ.pR e.level z * θ.pX e.user z * θ.pY e.item z

/-- The E-step (score_predictor/topic_model.py:270-275). -/
noncomputable def eStep (θ : Theta nu ni nl k) (evs : Fin n → Ev nu ni nl) : Resp n k :=
  fun e z => joint θ (evs e) z / ∑ z', joint θ (evs e) z'

/-- `loss` (score_predictor/topic_model.py:122-146).  Without events numpy gives `nan`, 0 here
(see `lossVal`). -/
noncomputable def loss (evs : Fin n → Ev nu ni nl) (θ : Theta nu ni nl k) : ℝ :=
  -(∑ e, Real.log (∑ z, joint θ (evs e) z)) / (n : ℝ)

/-- One pass of the main loop (score_predictor/topic_model.py:270-278). -/
noncomputable def emStep (a : ℝ) (evs : Fin n → Ev nu ni nl) (θ : Theta nu ni nl k) :
    Theta nu ni nl k :=
  mStep a evs (eStep θ evs)

/-- The stopping test (score_predictor/topic_model.py:283-284).  A loss of zero makes the quotient
`nan` or infinite, which is not below the tolerance. -/
noncomputable def converged (tol cur pre : ℝ) : Bool :=
  if cur = 0 then false else decide (|(cur - pre) / cur| < tol)

/-- The main loop (score_predictor/topic_model.py:263-289): `left` passes remain, `iterNo` and
`cur` are the values of `iter_no` and `cur_loss` (`none` is the initial `np.inf`), `pre` is
`pre_loss`. -/
noncomputable def loop {σ : Type} (step : σ → σ) (loss : σ → ℝ) (tol : ℝ) (maxiter : Nat) :
    Nat → Nat → Option ℝ → σ → ℝ → σ × Nat × Option ℝ
  | 0, iterNo, cur, s, _ => (s, iterNo, cur)
  | left + 1, _, _, s, pre =>
    let iterNo := maxiter - (left + 1)
    let s' := step s
    let cur := loss s'
    if converged tol cur pre then (s', iterNo, some cur)
    else loop step loss tol maxiter left iterNo (some cur) s' cur

/-- `iter_no >= maxiter - 1` (score_predictor/topic_model.py:291), over the integers: a `maxiter`
of zero passes. -/
def exceeded (iterNo maxiter : Nat) : Bool := decide ((iterNo : Int) ≥ (maxiter : Int) - 1)

/-- `get_fit_status_message` (utils/base.py:53-80) with `fit_status_message` (utils/base.py:38-42). -/
def statusMessage (status : Nat) : String :=
  if status = 0 then "Fitting terminated successfully."
  else if status = 1 then "Maximum number of function evaluations has been exceeded."
  else if status = 2 then "Maximum number of iterations has been exceeded."
  else if status = 3 then "Desired error not necessarily achieved due to precision loss."
  else "Unknown status code."

/-- Values of `fit_results_`. -/
inductive Val where
  | inf
  | nan
  | real (x : ℝ)
  | nat (n : Nat)
  | bool (b : Bool)
  | str (s : String)
  | kwargs (maxiter : Nat) (tol : ℝ)

/-- A reported loss: without events the mean is `nan`. -/
def lossVal (n : Nat) : Option ℝ → Val
  | none => .inf
  | some x => if n = 0 then .nan else .real x

/-- A random generator: `dirichlet g alpha` is the drawn vector and the next state
(`numpy.random.RandomState.dirichlet`). -/
structure Rng (γ : Type) where
  dirichlet : ∀ {k : Nat}, γ → (Fin k → ℝ) → (Fin k → ℝ) × γ

/-- Settings of the constructor (score_predictor/topic_model.py:91-105). -/
structure Config (γ : Type) where
  k : Nat
  alpha : ℝ
  useExpectation : Bool
  maxiter : Nat
  tol : ℝ
  rng : Rng γ

/-- The Dirichlet parameters `a[r, :]` (score_predictor/topic_model.py:158-164). -/
noncomputable def initAlpha (nl k : Nat) (r : Fin nl) (z : Fin k) : ℝ :=
  if z.1 % nl = r.1 then 1000.0 else 1.0

/-- `_init_params` (score_predictor/topic_model.py:148-168): one draw per event, in order. -/
noncomputable def initParams {γ : Type} (R : Rng γ) (k : Nat) : γ → List (Ev nu ni nl) →
    List (Fin k → ℝ)
  | _, [] => []
  | g, e :: es =>
    let d := R.dirichlet g (initAlpha nl k e.level)
    d.1 :: initParams R k d.2 es

/-- The learned attributes after `fit`: the rows of ones for unknown users and items are appended
(score_predictor/topic_model.py:315-316); `levels` is `score_levels`. -/
structure Params where
  k : Nat
  nl : Nat
  pZ : Fin k → ℝ
  pR : Fin nl → Fin k → ℝ
  pX : List (Fin k → ℝ)
  pY : List (Fin k → ℝ)
  levels : List ℝ

/-- Storing the parameters (score_predictor/topic_model.py:244, 315-316). -/
def store (θ : Theta nu ni nl k) (levels : List ℝ) : Params where
  k := k
  nl := nl
  pZ := θ.pZ
  pR := θ.pR
  pX := List.ofFn θ.pX ++ [fun _ => 1]
  pY := List.ofFn θ.pY ++ [fun _ => 1]
  levels := levels

/-- `np.argmax` from position `i` on, given the best entry so far. -/
noncomputable def argmaxFrom : Nat → ℝ → Nat → List ℝ → Nat
  | bi, _, _, [] => bi
  | bi, b, i, x :: xs => if b < x then argmaxFrom i x (i + 1) xs else argmaxFrom bi b (i + 1) xs

/-- `np.argmax` of a 1-d array: the first position of the largest entry. -/
noncomputable def argmax : List ℝ → Res Nat
  | [] => .error .valueError
  | x :: xs => .ok (argmaxFrom 0 x 1 xs)

/-- `pRgXY` for one request (score_predictor/topic_model.py:343-348). A vanishing sum gives `nan` in
numpy and 0 here. -/
noncomputable def scoreDist (p : Params) (x y : Fin p.k → ℝ) (r : Fin p.nl) : ℝ :=
  (∑ z, p.pZ z * p.pR r z * x z * y z) / ∑ r', ∑ z, p.pZ z * p.pR r' z * x z * y z

/-- One row of `raw_predict` (score_predictor/topic_model.py:322-355). -/
noncomputable def predictRow (useExpectation : Bool) (p : Params) (row : List Int) : Res ℝ := do
  let x ← npGet p.pX (← npGet row 0)
  let y ← npGet p.pY (← npGet row 1)
  let dist := List.ofFn (scoreDist p x y)
  if useExpectation then
    -- score_predictor/topic_model.py:351
    if dist.length = p.levels.length then return (List.zipWith (· * ·) dist p.levels).sum
    else .error .valueError
  else
    -- score_predictor/topic_model.py:353
    npGet p.levels ((← argmax dist : Nat) : Int)

/-- `digitize_score` of the training container, whose domain is the one stored by `fit`
(data/event_with_score.py:160-183). -/
noncomputable def digitize (dom : List ℝ) (xs : List ℝ) : Res (List Int) := do
  let bins ← generateScoreBins dom
  let ds ← npDigitize bins xs
  return ds.map (· - 1)

/-- Events with digitized scores.  A digitized score that is not a row of `a` raises `IndexError` in
`_init_params` (score_predictor/topic_model.py:168); ids of users and items are in range (C20). -/
def parseEvents (nu ni nl : Nat) (event : List (List Int)) (sc : List Int) :
    Res (List (Ev nu ni nl)) :=
  if event.length = sc.length then
    (event.zip sc).mapM (fun x => do
      let u ← MF.toFin nu (← npGet x.1 0)
      let i ← MF.toFin ni (← npGet x.1 1)
      let r ← MF.toFin nl x.2
      return ⟨u, i, r⟩)
  else .error .valueError

/-- The entries of `fit_results_` in the order of their assignment
(score_predictor/topic_model.py:252-253, 292, 301-312). -/
noncomputable def results {γ : Type} (cf : Config γ) (nu ni nl n : Nat) (initial : ℝ) (iterNo : Nat)
    (cur : Option ℝ) : List (String × Val) :=
  let status := if exceeded iterNo cf.maxiter then 2 else 0
  [("initial_loss", lossVal n (some initial)), ("status", .nat 0)] ++
  (if exceeded iterNo cf.maxiter then [("status", .nat 2)] else []) ++
  [("final_loss", lossVal n cur), ("n_iterations", .nat (iterNo + 1)), ("n_users", .nat nu),
   ("n_items", .nat ni), ("n_events", .nat n),
   ("n_parameters", .nat (cf.k + nu * cf.k + ni * cf.k + nl * cf.k)),
   ("success", .bool (decide (status = 0))), ("message", .str (statusMessage status)),
   ("optimizer_kwargs", .kwargs cf.maxiter cf.tol)]

/-- `fit` after the call of the super class (score_predictor/topic_model.py:242-320).  `k = 0` ends
in an `IndexError` (`pRgZ_` is then one-dimensional).  The number of events is the number of rows of
the event array. -/
noncomputable def train {γ : Type} (cf : Config γ) (v : View ℝ γ) :
    Res (Params × List (String × Val)) := do
  let nu ← npGet v.nObjects 0
  let ni ← npGet v.nObjects 1
  match v.score, v.scoreDomain, v.nScoreLevels, v.rng with
  | some sc, some dom, some nl, some g =>
    let lo ← npGet dom 0
    let hi ← npGet dom 1
    let levels ← npLinspace lo hi nl
    let ds ← digitize dom sc
    let evl ← parseEvents nu ni nl.toNat v.event ds
    if cf.k = 0 then .error .indexError
    else
      let q0 := initParams cf.rng cf.k g evl
      let evs : Fin evl.length → Ev nu ni nl.toNat := fun e => evl[e]
      let q : Resp evl.length cf.k := fun e => q0.getD e (fun _ => 0)
      let θ := mStep cf.alpha evs q
      let initial := loss evs θ
      let (θ', iterNo, cur) := loop (emStep cf.alpha evs) (loss evs) cf.tol cf.maxiter cf.maxiter 0
        none θ initial
      return (store θ' levels, results cf nu ni nl.toNat evl.length initial iterNo cur)
  | _, _, _, _ => .error .typeError

/-- `MultinomialPLSA` as a learner. -/
noncomputable def plsa {γ : Type} (cf : Config γ) : Learner ℝ γ Params Val where
  train := train cf
  rawPredict := fun p rows => rows.mapM (predictRow cf.useExpectation p)

/-- `fit_results_` set by the constructor (score_predictor/topic_model.py:113-117). -/
def initialResults : Dict String Val := [("initial_loss", .inf), ("final_loss", .inf),
  ("n_iterations", .nat 0)]

end PLSA
end Kam
