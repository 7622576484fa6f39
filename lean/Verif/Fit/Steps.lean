/-
Model of the part of `fit` of the matrix factorizations after the call of the super class, statement by statement
(kamrecsys/score_predictor/matrix_factorization.py:142-207, 330-386, kamrecsys/item_finder/matrix_factorization.py:153-209, 338-394,
528-572, 695-750), for questions about calls that do not come to their end: an exception inside the optimizer or an interrupt from the
keyboard.  `Verif/MF/Model` has the same code as a function from data to learned parameters; that both agree is a theorem
(`C155_completed`).
-/
import Verif.MF.Model

namespace Kam
namespace MF
namespace Steps

variable {nu ni k : Nat} {γ : Type}

/-- What one of the attributes `mu_, bu_, bi_, p_, q_` holds: `None` before the first fit, a view of the array `_coef` of the call that is
running, a number instead of an array (`allocate` in `Verif/MF/Model`), or an array that this call does not write into: one made by
`np.r_` or `copy`, or a view of the array of an earlier call. -/
inductive Attr (β : Type) where
  | none
  | view
  | number
  | own (x : β)

/-- The recommender and the local variable `res` while `fit` is running.  `coef` is the array `_coef`, read through its views, and
`rng` is `_rng`. -/
structure Obj (γ : Type) (nu ni k : Nat) where
  coef : Views nu ni k
  mu : Attr ℝ
  bu : Attr (List ℝ)
  bi : Attr (List ℝ)
  p : Attr (List (List ℝ))
  q : Attr (List (List ℝ))
  rng : γ
  res : Option (OptResult (size nu ni k))
  results : Dict String Val

/-- A statement.  One that raises an exception changes nothing here: each assigns once, at its end. -/
abbrev Stmt (γ : Type) (nu ni k : Nat) := Obj γ nu ni k → Res (Obj γ nu ni k)

/-- `self._coef = np.zeros(...)` and the assignments of its views (score_predictor/matrix_factorization.py:172-179,
item_finder/matrix_factorization.py:183-190, 556-563). -/
def allocation : List (Stmt γ nu ni k) :=
  [fun o => .ok { o with coef := ⟨0, fun _ => 0, fun _ => 0, fun _ _ => 0, fun _ _ => 0⟩ },
   fun o => .ok { o with mu := .view },
   fun o => .ok { o with bu := if nu = 1 then .number else .view },
   fun o => .ok { o with bi := if ni = 1 then .number else .view },
   fun o => .ok { o with p := .view },
   fun o => .ok { o with q := .view }]

/-- Item assignment to an attribute: a number refuses it. -/
def assignable {β : Type} : Attr β → Res Unit
  | .number => .error .typeError
  | .none => .error .typeError
  | _ => .ok ()

/-- `self.mu_[0] = np.sum(sc) / n_events` (score_predictor/matrix_factorization.py:182, item_finder/matrix_factorization.py:193). -/
noncomputable def setMean (evs : List (Event nu ni)) : Stmt γ nu ni k := fun o =>
  .ok { o with coef := { o.coef with mu := (evs.map (·.score)).sum / (evs.length : ℝ) } }

/-- One pass of the loop over users (score_predictor/matrix_factorization.py:184-186, item_finder/matrix_factorization.py:195-197). -/
noncomputable def setUser (evs : List (Event nu ni)) (u : Fin nu) : Stmt γ nu ni k := fun o =>
  let j := evs.filter (fun e => decide (e.user = u))
  if 0 < j.length then do
    assignable o.bu
    .ok { o with coef := { o.coef with bu := Function.update o.coef.bu u ((j.map (fun e => e.score - o.coef.mu)).sum / (j.length : ℝ)) } }
  else .ok o

/-- One pass of the loop over items (score_predictor/matrix_factorization.py:188-192, item_finder/matrix_factorization.py:199-203).
That `bu_` is an array here is known, as the loop over users has assigned to it. -/
noncomputable def setItem (evs : List (Event nu ni)) (i : Fin ni) : Stmt γ nu ni k := fun o =>
  let j := evs.filter (fun e => decide (e.item = i))
  if 0 < j.length then do
    assignable o.bi
    .ok { o with coef := { o.coef with
      bi := Function.update o.coef.bi i ((j.map (fun e => e.score - (o.coef.mu + o.coef.bu e.user))).sum / (j.length : ℝ)) } }
  else .ok o

/-- `self.p_[mask, :] = self._rng.normal(0.0, sd, ...)` (score_predictor/matrix_factorization.py:202-204,
item_finder/matrix_factorization.py:206-207). -/
noncomputable def drawUsers (R : Rng γ) (sd : Views nu ni k → ℝ) (evs : List (Event nu ni)) : Stmt γ nu ni k := fun o =>
  let m := mask evs (·.user)
  let z := R.normal o.rng 0 (sd o.coef) m.length k
  .ok { o with coef := { o.coef with p := fun u f => if u ∈ m then z.1 (m.idxOf u) f else o.coef.p u f }, rng := z.2 }

/-- The same for the items (score_predictor/matrix_factorization.py:205-207, item_finder/matrix_factorization.py:208-209). -/
noncomputable def drawItems (R : Rng γ) (sd : Views nu ni k → ℝ) (evs : List (Event nu ni)) : Stmt γ nu ni k := fun o =>
  let m := mask evs (·.item)
  let z := R.normal o.rng 0 (sd o.coef) m.length k
  .ok { o with coef := { o.coef with q := fun i f => if i ∈ m then z.1 (m.idxOf i) f else o.coef.q i f }, rng := z.2 }

/-- The rest of `_init_coef` of PMF and LogisticPMF (score_predictor/matrix_factorization.py:182-207,
item_finder/matrix_factorization.py:193-209). -/
noncomputable def initExplicit (R : Rng γ) (sd : Views nu ni k → ℝ) (evs : List (Event nu ni)) : List (Stmt γ nu ni k) :=
  setMean evs :: ((List.finRange nu).map (setUser evs) ++ ((List.finRange ni).map (setItem evs) ++
    [drawUsers R sd evs, drawItems R sd evs]))

/-- `np.sqrt(var)` (score_predictor/matrix_factorization.py:195-200). -/
noncomputable def residual (evs : List (Event nu ni)) (v : Views nu ni k) : ℝ :=
  Real.sqrt ((evs.foldl (fun var e => var + (e.score - (v.mu + v.bu e.user + v.bi e.item)) ^ 2) 0.0) / (evs.length : ℝ))

/-- The rest of `ImplicitLogisticPMF._init_coef` (item_finder/matrix_factorization.py:566-572). -/
noncomputable def initImplicit (R : Rng γ) (m : Implicit.Mat nu ni) : List (Stmt γ nu ni k) :=
  [fun o => .ok { o with coef := { o.coef with
      mu := (((Finset.univ.filter (fun x : Fin nu × Fin ni => m x.1 x.2 ≠ 0)).card : Nat) : ℝ) / ((nu : ℝ) * (ni : ℝ)) } },
   fun o => do
    assignable o.bu
    .ok { o with coef := { o.coef with bu := fun u => (∑ i, (m u i : ℝ)) / (ni : ℝ) } },
   fun o => do
    assignable o.bi
    .ok { o with coef := { o.coef with bi := fun i => (∑ u, (m u i : ℝ)) / (nu : ℝ) } },
   fun o =>
    let z := R.normal o.rng 0 1 nu k
    .ok { o with coef := { o.coef with p := fun u f => z.1 u f }, rng := z.2 },
   fun o =>
    let z := R.normal o.rng 0 1 ni k
    .ok { o with coef := { o.coef with q := fun i f => z.1 i f }, rng := z.2 }]

/-- The initial loss and the call of the optimizer (score_predictor/matrix_factorization.py:341-353,
item_finder/matrix_factorization.py:349-361, 705-717).  The optimizer works on a copy of `_coef`. -/
noncomputable def optimization (method : String) (kwargs : List (String × String)) (opt : Optimizer) (loss : Coef nu ni k → ℝ)
    (grad : Coef nu ni k → Coef nu ni k) : List (Stmt γ nu ni k) :=
  [fun o => .ok { o with results := o.results.set "initial_loss" (.real (loss (pack o.coef))) },
   fun o => .ok { o with res := some (opt _ loss grad (pack o.coef) method kwargs) }]

/-- `self._coef[:] = res.x` (score_predictor/matrix_factorization.py:356, item_finder/matrix_factorization.py:364, 720); by then there is
a `res`. -/
noncomputable def copyBack : Stmt γ nu ni k := fun o =>
  match o.res with
  | some res => .ok { o with coef := unpack res.x }
  | none => .error .typeError

/-- The attributes for predictions, with entries for unknown objects (score_predictor/matrix_factorization.py:359-365,
item_finder/matrix_factorization.py:367-373, 723-729). -/
def extension : List (Stmt γ nu ni k) :=
  [fun o => .ok { o with mu := .own o.coef.mu },
   fun o => .ok { o with bu := .own (List.ofFn o.coef.bu ++ [0]) },
   fun o => .ok { o with bi := .own (List.ofFn o.coef.bi ++ [0]) },
   fun o => .ok { o with p := .own (List.ofFn (fun u => List.ofFn (o.coef.p u)) ++ [List.replicate k 0]) },
   fun o => .ok { o with q := .own (List.ofFn (fun i => List.ofFn (o.coef.q i)) ++ [List.replicate k 0]) }]

/-- One assignment to `fit_results_`; by then there is a `res`. -/
def record (key : String) (f : OptResult (size nu ni k) → Val) : Stmt γ nu ni k := fun o =>
  match o.res with
  | some res => .ok { o with results := o.results.set key (f res) }
  | none => .error .typeError

/-- The assignments to `fit_results_` (score_predictor/matrix_factorization.py:368-380, item_finder/matrix_factorization.py:376-388,
732-744). -/
def recording (nEvents : Nat) (method : String) (kwargs : List (String × String)) : List (Stmt γ nu ni k) :=
  [record "n_users" fun _ => .nat nu, record "n_items" fun _ => .nat ni, record "n_events" fun _ => .nat nEvents,
   record "n_parameters" fun _ => .nat (size nu ni k), record "success" fun res => .bool res.success,
   record "status" fun res => .nat res.status, record "message" fun res => .str res.message,
   record "final_loss" fun res => .real res.fn, record "n_iterations" fun res => .nat res.nit,
   record "func_calls" fun res => .nat res.nfev, record "grad_calls" fun res => .nat res.njev,
   record "optimizer_method" fun _ => .str method, record "optimizer_kwargs" fun _ => .kwargs kwargs]

/-- The statements from the allocation on.  `remove_data` and the last three assignments (score_predictor/matrix_factorization.py:383-386,
item_finder/matrix_factorization.py:391-394, 747-750) do not touch what is modelled here. -/
noncomputable def program (cf : Config γ) (nEvents : Nat) (init : List (Stmt γ nu ni cf.k)) (loss : Coef nu ni cf.k → ℝ)
    (grad : Coef nu ni cf.k → Coef nu ni cf.k) : List (Stmt γ nu ni cf.k) :=
  allocation ++ (init ++ (optimization cf.method cf.kwargs cf.opt loss grad ++ (copyBack :: (extension ++
    recording nEvents cf.method cf.kwargs))))

/-! ### prediction -/

/-- Subscription of an attribute that should be an array; `v` is what its view shows. -/
def Attr.read {β : Type} (v : β) : Attr β → Res β
  | .none => .error .typeError
  | .number => .error .indexError
  | .view => .ok v
  | .own x => .ok x

/-- A row of `self.p_[...] * self.q_[...]`: rows of different lengths are refused unless one has length one. -/
def mulRows (p q : List ℝ) : Res (List ℝ) :=
  if p.length = q.length then .ok (List.zipWith (· * ·) p q)
  else if p.length = 1 then .ok (q.map (fun y => p.headD 0 * y))
  else if q.length = 1 then .ok (p.map (fun x => x * q.headD 0))
  else .error .valueError

/-- One row of `raw_predict` before the link function, with whatever the attributes hold
(score_predictor/matrix_factorization.py:409-411, item_finder/matrix_factorization.py:417-419, 773-775). -/
noncomputable def rawScore (o : Obj γ nu ni k) (row : List Int) : Res ℝ := do
  let u ← npGet row 0
  let i ← npGet row 1
  let mu ← o.mu.read o.coef.mu
  let bus ← o.bu.read (List.ofFn o.coef.bu)
  let bu ← npGet bus u
  let bis ← o.bi.read (List.ofFn o.coef.bi)
  let bi ← npGet bis i
  let ps ← o.p.read (List.ofFn (fun u => List.ofFn (o.coef.p u)))
  let p ← npGet ps u
  let qs ← o.q.read (List.ofFn (fun i => List.ofFn (o.coef.q i)))
  let q ← npGet qs i
  let pq ← mulRows p q
  return mu + bu + bi + pq.sum

/-- `raw_predict` (same lines), row by row: with several causes for an exception the one that is raised may be another. -/
noncomputable def rawPredict (link : ℝ → ℝ) (o : Obj γ nu ni k) (rows : List (List Int)) : Res (List ℝ) :=
  rows.mapM (fun row => (rawScore o row).map link)

end Steps
end MF
end Kam
