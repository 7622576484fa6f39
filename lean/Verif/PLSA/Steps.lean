/-
Model of the part of `MultinomialPLSA.fit` after the initial weights have been drawn, statement by statement
(kamrecsys/score_predictor/topic_model.py:170-320), for questions about calls that do not come to their end.  `Verif/PLSA/Model` has
the same code as a function from data to learned parameters; that both agree is a theorem (`C156_completed`).
-/
import Verif.PLSA.Model

namespace Kam
namespace PLSA
namespace Steps
open scoped BigOperators

variable {n nu ni nl k : Nat}

/-- The recommender and the local variables while `fit` is running.  The parameters are `none` until this call has assigned them; that
stands for `None` in a new recommender, and what an earlier call has left in others is not modelled.  `extX` and `extY` tell whether the
row of ones has been appended to `pXgZ_` and `pYgZ_`; `pre`, `cur` and `iterNo` are `pre_loss`, `cur_loss` and `iter_no`; `stop` is set
by `break`. -/
structure Obj (n nu ni nl k : Nat) where
  q : Resp n k
  pZ : Option (Fin k → ℝ)
  pR : Option (Fin nl → Fin k → ℝ)
  pX : Option (Fin nu → Fin k → ℝ)
  pY : Option (Fin ni → Fin k → ℝ)
  extX : Bool
  extY : Bool
  results : Dict String Val
  pre : ℝ
  cur : Option ℝ
  iterNo : Nat
  stop : Bool

/-- A statement.  None of them raises: the array shapes fit, and divisions by zero only warn. -/
abbrev Stmt (n nu ni nl k : Nat) := Obj n nu ni nl k → Obj n nu ni nl k

/-- The four parameters, once they are there. -/
def theta (o : Obj n nu ni nl k) : Option (Theta nu ni nl k) :=
  match o.pZ, o.pX, o.pY, o.pR with
  | some z, some x, some y, some r => some ⟨z, x, y, r⟩
  | _, _, _, _ => none

/-- The statements of `maximization_step` (score_predictor/topic_model.py:184-219): each array is assigned with its sums of weights and
then divided in place. -/
noncomputable def mSteps (a : ℝ) (evs : Fin n → Ev nu ni nl) : List (Stmt n nu ni nl k) :=
  [fun o => { o with pR := some (weights a (fun e => (evs e).level) o.q) },
   fun o => { o with pR := o.pR.map normalize },
   fun o => { o with pX := some (weights a (fun e => (evs e).user) o.q), extX := false },
   fun o => { o with pX := o.pX.map normalize },
   fun o => { o with pY := some (weights a (fun e => (evs e).item) o.q), extY := false },
   fun o => { o with pY := o.pY.map normalize },
   fun o => { o with pZ := some (fun z => ∑ e, o.q e z + a) },
   fun o => { o with pZ := o.pZ.map (fun w z => w z / ∑ z', w z') }]

/-- `self.loss(ev, sc)` of the parameters of the moment. -/
noncomputable def lossOf (evs : Fin n → Ev nu ni nl) (o : Obj n nu ni nl k) : ℝ := ((theta o).map (loss evs)).getD 0

/-- The first M-step, the initial loss and the status (score_predictor/topic_model.py:250-256, 264). -/
noncomputable def head (a : ℝ) (evs : Fin n → Ev nu ni nl) : List (Stmt n nu ni nl k) :=
  mSteps a evs ++
  [fun o => { o with results := o.results.set "initial_loss" (lossVal n (some (lossOf evs o))) },
   fun o => { o with results := o.results.set "status" (.nat 0) },
   fun o => { o with pre := lossOf evs o, iterNo := 0, cur := none, stop := false }]

/-- A statement of the loop, which is not executed after `break`. -/
def guarded (s : Stmt n nu ni nl k) : Stmt n nu ni nl k := fun o => if o.stop then o else s o

/-- The pass number `j` of the main loop (score_predictor/topic_model.py:265-289). -/
noncomputable def pass (a tol : ℝ) (evs : Fin n → Ev nu ni nl) (j : Nat) : List (Stmt n nu ni nl k) :=
  [fun o => { o with iterNo := j },
   fun o => { o with q := ((theta o).map (fun θ e z => joint θ (evs e) z)).getD o.q },
   fun o => { o with q := fun e z => o.q e z / ∑ z', o.q e z' }] ++
  (mSteps a evs ++
  [fun o => { o with cur := some (lossOf evs o) },
   fun o => if converged tol (o.cur.getD 0) o.pre then { o with stop := true } else { o with pre := o.cur.getD 0 }])

/-- The statements after the loop (score_predictor/topic_model.py:291-316). -/
noncomputable def tail {γ : Type} (cf : Config γ) (n nu ni nl : Nat) : List (Stmt n nu ni nl cf.k) :=
  [fun o => { o with results := if exceeded o.iterNo cf.maxiter then o.results.set "status" (.nat 2) else o.results },
   fun o => { o with results := o.results.set "final_loss" (lossVal n o.cur) },
   fun o => { o with results := o.results.set "n_iterations" (.nat (o.iterNo + 1)) },
   fun o => { o with results := o.results.set "n_users" (.nat nu) },
   fun o => { o with results := o.results.set "n_items" (.nat ni) },
   fun o => { o with results := o.results.set "n_events" (.nat n) },
   fun o => { o with results := o.results.set "n_parameters" (.nat (cf.k + nu * cf.k + ni * cf.k + nl * cf.k)) },
   fun o => { o with results := o.results.set "success" (.bool (decide ((if exceeded o.iterNo cf.maxiter then 2 else 0) = 0))) },
   fun o => { o with results := o.results.set "message" (.str (statusMessage (if exceeded o.iterNo cf.maxiter then 2 else 0))) },
   fun o => { o with results := o.results.set "optimizer_kwargs" (.kwargs cf.maxiter cf.tol) },
   fun o => { o with extX := true },
   fun o => { o with extY := true }]

/-- The statements of the main loop. -/
noncomputable def passes (a tol : ℝ) (evs : Fin n → Ev nu ni nl) (js : List Nat) : List (Stmt n nu ni nl k) :=
  (js.flatMap (pass a tol evs)).map guarded

/-- The statements from the first M-step on. -/
noncomputable def program {γ : Type} (cf : Config γ) (evs : Fin n → Ev nu ni nl) : List (Stmt n nu ni nl cf.k) :=
  head cf.alpha evs ++ (passes cf.alpha cf.tol evs (List.range cf.maxiter) ++ tail cf n nu ni nl)

/-- The state after these statements. -/
def run (l : List (Stmt n nu ni nl k)) (o : Obj n nu ni nl k) : Obj n nu ni nl k := l.foldl (fun o s => s o) o

/-- The attributes as `raw_predict` uses them (score_predictor/topic_model.py:343-348). -/
def params (levels : List ℝ) (extX extY : Bool) (θ : Theta nu ni nl k) : Params where
  k := k
  nl := nl
  pZ := θ.pZ
  pR := θ.pR
  pX := List.ofFn θ.pX ++ if extX then [fun _ => 1] else []
  pY := List.ofFn θ.pY ++ if extY then [fun _ => 1] else []
  levels := levels

/-- `raw_predict` (score_predictor/topic_model.py:322-355) with the attributes of the moment; `None` cannot be subscribed. -/
noncomputable def rawPredict (useExpectation : Bool) (levels : List ℝ) (o : Obj n nu ni nl k) (rows : List (List Int)) : Res (List ℝ) :=
  match theta o with
  | some θ => rows.mapM (predictRow useExpectation (params levels o.extX o.extY θ))
  | none => .error .typeError

end Steps
end PLSA
end Kam
