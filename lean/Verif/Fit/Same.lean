/-
Several threads that call `fit` of one and the same matrix factorization.  Other than in `Verif/Fit/Steps` the attributes are shared: an array
`_coef` of one call can be replaced while views of it are still attributes, and the last statements of a call remove what another call needs.
-/
import Verif.Fit.Steps

namespace Kam
namespace MF
namespace Same

variable {nu ni k : Nat} {γ : Type}

/-- What one of the attributes `mu_, bu_, bi_, p_, q_` holds (score_predictor/matrix_factorization.py:175-179, 359-365): `None`, a view of an array `_coef` (by its number), a number instead of an array
(`allocate` in `Verif/MF/Model`), or an array of its own, made by `np.r_` or `copy`. -/
inductive Ref (β : Type) where
  | none
  | view (a : Nat)
  | number
  | own (x : β)

/-- The attributes of the recommender that `fit` works on (score_predictor/matrix_factorization.py:161-179, 341-386).  `heap` has the arrays
that have been assigned to `_coef`, read through their views; `dt` says whether `_dt` is not `None`. -/
structure Shared (γ : Type) (nu ni k : Nat) where
  heap : Nat → Views nu ni k
  next : Nat
  coef : Option Nat
  dt : Bool
  mu : Ref ℝ
  bu : Ref (List ℝ)
  bi : Ref (List ℝ)
  p : Ref (List (List ℝ))
  q : Ref (List (List ℝ))
  rng : Option γ
  results : Dict String Val

/-- The arrays after array `a` has been written into (score_predictor/matrix_factorization.py:182-207, 356). -/
def Shared.write (s : Shared γ nu ni k) (a : Nat) (f : Views nu ni k → Views nu ni k) : Shared γ nu ni k :=
  { s with heap := Function.update s.heap a (f (s.heap a)) }

/-- `self.mu_[0]` (score_predictor/matrix_factorization.py:186, 191, 199, item_finder/matrix_factorization.py:197, 202). -/
def Shared.readMu (s : Shared γ nu ni k) : Res ℝ :=
  match s.mu with
  | .none => .error .typeError
  | .number => .error .indexError
  | .view a => .ok (s.heap a).mu
  | .own x => .ok x

/-- `self.bu_[...]` (score_predictor/matrix_factorization.py:191, 199, item_finder/matrix_factorization.py:202).  An array of its own has at least `nu` entries here, as a call of `fit` on data with `nu` users has made it. -/
def Shared.readBu (s : Shared γ nu ni k) : Res (Fin nu → ℝ) :=
  match s.bu with
  | .none => .error .typeError
  | .number => .error .indexError
  | .view a => .ok (s.heap a).bu
  | .own l => .ok fun u => l.getD u 0

/-- `self.bi_[...]` (score_predictor/matrix_factorization.py:199), as `readBu`. -/
def Shared.readBi (s : Shared γ nu ni k) : Res (Fin ni → ℝ) :=
  match s.bi with
  | .none => .error .typeError
  | .number => .error .indexError
  | .view a => .ok (s.heap a).bi
  | .own l => .ok fun i => l.getD i 0

/-- `self.mu_[0] = x` (score_predictor/matrix_factorization.py:182, item_finder/matrix_factorization.py:193, 566). -/
def Shared.writeMu (s : Shared γ nu ni k) (x : ℝ) : Res (Shared γ nu ni k) :=
  match s.mu with
  | .none => .error .typeError
  | .number => .error .typeError
  | .view a => .ok (s.write a fun v => { v with mu := x })
  | .own _ => .ok { s with mu := .own x }

/-- `self.bu_[u] = x` (score_predictor/matrix_factorization.py:186, item_finder/matrix_factorization.py:197). -/
def Shared.writeBu (s : Shared γ nu ni k) (u : Fin nu) (x : ℝ) : Res (Shared γ nu ni k) :=
  match s.bu with
  | .none => .error .typeError
  | .number => .error .typeError
  | .view a => .ok (s.write a fun v => { v with bu := Function.update v.bu u x })
  | .own l => .ok { s with bu := .own (l.set u x) }

/-- `self.bi_[i] = x` (score_predictor/matrix_factorization.py:190-192, item_finder/matrix_factorization.py:201-203). -/
def Shared.writeBi (s : Shared γ nu ni k) (i : Fin ni) (x : ℝ) : Res (Shared γ nu ni k) :=
  match s.bi with
  | .none => .error .typeError
  | .number => .error .typeError
  | .view a => .ok (s.write a fun v => { v with bi := Function.update v.bi i x })
  | .own l => .ok { s with bi := .own (l.set i x) }

/-- `self.bu_[:] = x` (item_finder/matrix_factorization.py:567): an array of its own has one entry more than `x` and is not written. -/
def Shared.fillBu (s : Shared γ nu ni k) (x : Fin nu → ℝ) : Res (Shared γ nu ni k) :=
  match s.bu with
  | .none => .error .typeError
  | .number => .error .typeError
  | .view a => .ok (s.write a fun v => { v with bu := x })
  | .own _ => .error .valueError

/-- `self.bi_[:] = x` (item_finder/matrix_factorization.py:568). -/
def Shared.fillBi (s : Shared γ nu ni k) (x : Fin ni → ℝ) : Res (Shared γ nu ni k) :=
  match s.bi with
  | .none => .error .typeError
  | .number => .error .typeError
  | .view a => .ok (s.write a fun v => { v with bi := x })
  | .own _ => .error .valueError

/-- Rows of an array are replaced by rows of `z`; `m` has the numbers of the rows, in order (score_predictor/matrix_factorization.py:203-207). -/
def putRows {n : Nat} (m : List (Fin n)) (z : Nat → Nat → ℝ) (k : Nat) (l : List (List ℝ)) : List (List ℝ) :=
  l.mapIdx fun r row => if m.any (fun u => u.1 == r) then List.ofFn (fun f : Fin k => z (m.findIdx fun u => u.1 == r) f) else row

/-- `self.p_[m, :] = self._rng.normal(0.0, sd, ...)` (score_predictor/matrix_factorization.py:203-204, item_finder/matrix_factorization.py:207,
571). -/
noncomputable def Shared.drawP (R : Rng γ) (sd : ℝ) (m : List (Fin nu)) (s : Shared γ nu ni k) : Res (Shared γ nu ni k) :=
  match s.rng with
  | none => .error .attributeError
  | some g =>
    let z := R.normal g 0 sd m.length k
    match s.p with
    | .none => .error .typeError
    | .number => .error .typeError
    | .view a => .ok { s.write a fun v => { v with p := fun u f => if u ∈ m then z.1 (m.idxOf u) f else v.p u f } with rng := some z.2 }
    | .own l => .ok { s with p := .own (putRows m z.1 k l), rng := some z.2 }

/-- `self.q_[m, :] = self._rng.normal(0.0, sd, ...)` (score_predictor/matrix_factorization.py:206-207, item_finder/matrix_factorization.py:209,
572). -/
noncomputable def Shared.drawQ (R : Rng γ) (sd : ℝ) (m : List (Fin ni)) (s : Shared γ nu ni k) : Res (Shared γ nu ni k) :=
  match s.rng with
  | none => .error .attributeError
  | some g =>
    let z := R.normal g 0 sd m.length k
    match s.q with
    | .none => .error .typeError
    | .number => .error .typeError
    | .view a => .ok { s.write a fun v => { v with q := fun i f => if i ∈ m then z.1 (m.idxOf i) f else v.q i f } with rng := some z.2 }
    | .own l => .ok { s with q := .own (putRows m z.1 k l), rng := some z.2 }

/-- The part of `_init_coef` of PMF and LogisticPMF after the allocation (score_predictor/matrix_factorization.py:182-207,
item_finder/matrix_factorization.py:193-209).  `sd` is the standard deviation of the draws, computed from `mu_`, `bu_` and `bi_` before each
draw instead of once before both. -/
noncomputable def initExplicit (R : Rng γ) (sd : ℝ → (Fin nu → ℝ) → (Fin ni → ℝ) → ℝ) (evs : List (Event nu ni)) :
    List (Shared γ nu ni k → Res (Shared γ nu ni k)) :=
  (fun s => s.writeMu ((evs.map (·.score)).sum / (evs.length : ℝ))) ::
  ((List.finRange nu).map (fun u s =>
      let j := evs.filter (fun e => decide (e.user = u))
      if 0 < j.length then do
        let mu ← s.readMu
        s.writeBu u ((j.map (fun e => e.score - mu)).sum / (j.length : ℝ))
      else .ok s) ++
   ((List.finRange ni).map (fun i s =>
      let j := evs.filter (fun e => decide (e.item = i))
      if 0 < j.length then do
        let mu ← s.readMu
        let bu ← s.readBu
        s.writeBi i ((j.map (fun e => e.score - (mu + bu e.user))).sum / (j.length : ℝ))
      else .ok s) ++
    [fun s => do s.drawP R (sd (← s.readMu) (← s.readBu) (← s.readBi)) (mask evs (·.user)),
     fun s => do s.drawQ R (sd (← s.readMu) (← s.readBu) (← s.readBi)) (mask evs (·.item))]))

/-- The part of `ImplicitLogisticPMF._init_coef` after the allocation (item_finder/matrix_factorization.py:566-572). -/
noncomputable def initImplicit (R : Rng γ) (m : Implicit.Mat nu ni) : List (Shared γ nu ni k → Res (Shared γ nu ni k)) :=
  [fun s => s.writeMu ((((Finset.univ.filter (fun x : Fin nu × Fin ni => m x.1 x.2 ≠ 0)).card : Nat) : ℝ) / ((nu : ℝ) * (ni : ℝ))),
   fun s => s.fillBu fun u => (∑ i, (m u i : ℝ)) / (ni : ℝ),
   fun s => s.fillBi fun i => (∑ u, (m u i : ℝ)) / (nu : ℝ),
   fun s => s.drawP R 1 (List.finRange nu),
   fun s => s.drawQ R 1 (List.finRange ni)]

/-- Names of the attributes with parameters (score_predictor/matrix_factorization.py:175-179). -/
inductive Name where
  | mu | bu | bi | p | q

/-- The statements of `fit` from `check_random_state` on, in the order in which they are executed (base/base.py:99,
score_predictor/matrix_factorization.py:162-207, 341-386). -/
inductive Instr (γ : Type) (nu ni k : Nat) where
  | generator (g : γ)
  | dtype
  | new
  | view (x : Name)
  | init (f : Shared γ nu ni k → Res (Shared γ nu ni k))
  | initialLoss
  | minimize
  | copy
  | extend (x : Name)
  | record (key : String) (readsCoef : Bool) (f : OptResult (size nu ni k) → Val)
  | removeData
  | dropCoef
  | dropDtype

/-- What a call has by itself: the loss and gradient for its events, and `res` (score_predictor/matrix_factorization.py:347-353). -/
structure Call (nu ni k : Nat) where
  loss : Coef nu ni k → ℝ
  grad : Coef nu ni k → Coef nu ni k
  res : Option (OptResult (size nu ni k))

/-- The array `_coef`, as it is read with the help of `_dt` (score_predictor/matrix_factorization.py:175-179, 359-365). -/
def Shared.current (s : Shared γ nu ni k) : Res Nat :=
  match s.coef with
  | none => .error .attributeError
  | some a => if s.dt then .ok a else .error .indexError

/-- One statement (base/base.py:99, 108, score_predictor/matrix_factorization.py:161-207, 341-386,
item_finder/matrix_factorization.py:172-209, 349-394, 545-572, 705-750).  Simplified: the call of the optimizer is one statement, and where
`_coef` is `None` or `_dt` is `None` it need not be the same kind of exception. -/
noncomputable def exec (opt : Optimizer) (method : String) (kwargs : List (String × String)) (c : Call nu ni k) (s : Shared γ nu ni k) :
    Instr γ nu ni k → Res (Call nu ni k × Shared γ nu ni k)
  | .generator g => .ok (c, { s with rng := some g })
  | .dtype => .ok (c, { s with dt := true })
  | .new => .ok (c, { s with
      heap := Function.update s.heap s.next ⟨0, fun _ => 0, fun _ => 0, fun _ _ => 0, fun _ _ => 0⟩, next := s.next + 1, coef := some s.next })
  | .view x => do
    let a ← s.current
    match x with
    | .mu => .ok (c, { s with mu := .view a })
    | .bu => .ok (c, { s with bu := if nu = 1 then .number else .view a })
    | .bi => .ok (c, { s with bi := if ni = 1 then .number else .view a })
    | .p => .ok (c, { s with p := .view a })
    | .q => .ok (c, { s with q := .view a })
  | .init f => do
    let s' ← f s
    .ok (c, s')
  | .initialLoss => do
    let a ← s.current
    .ok (c, { s with results := s.results.set "initial_loss" (.real (c.loss (pack (s.heap a)))) })
  | .minimize => do
    let a ← s.current
    .ok ({ c with res := some (opt _ c.loss c.grad (pack (s.heap a)) method kwargs) }, s)
  | .copy =>
    match s.coef, c.res with
    | some a, some res => .ok (c, s.write a fun _ => unpack res.x)
    | _, _ => .error .typeError
  | .extend x => do
    let a ← s.current
    match x with
    | .mu => .ok (c, { s with mu := .own (s.heap a).mu })
    | .bu => .ok (c, { s with bu := .own (List.ofFn (s.heap a).bu ++ [0]) })
    | .bi => .ok (c, { s with bi := .own (List.ofFn (s.heap a).bi ++ [0]) })
    | .p => .ok (c, { s with p := .own (List.ofFn (fun u => List.ofFn ((s.heap a).p u)) ++ [List.replicate k 0]) })
    | .q => .ok (c, { s with q := .own (List.ofFn (fun i => List.ofFn ((s.heap a).q i)) ++ [List.replicate k 0]) })
  | .record key readsCoef f =>
    match c.res with
    | some res =>
      if readsCoef && s.coef.isNone then .error .attributeError else .ok (c, { s with results := s.results.set key (f res) })
    | none => .error .typeError
  | .removeData => .ok (c, { s with rng := none })
  | .dropCoef => .ok (c, { s with coef := none })
  | .dropDtype => .ok (c, { s with dt := false })

/-- The entries of `fit_results_` after training (score_predictor/matrix_factorization.py:368-380, item_finder/matrix_factorization.py:376-388,
732-744); the number of parameters is the size of `_coef`. -/
def recording (nEvents : Nat) (method : String) (kwargs : List (String × String)) : List (Instr γ nu ni k) :=
  [.record "n_users" false fun _ => .nat nu, .record "n_items" false fun _ => .nat ni, .record "n_events" false fun _ => .nat nEvents,
   .record "n_parameters" true fun _ => .nat (size nu ni k), .record "success" false fun res => .bool res.success,
   .record "status" false fun res => .nat res.status, .record "message" false fun res => .str res.message,
   .record "final_loss" false fun res => .real res.fn, .record "n_iterations" false fun res => .nat res.nit,
   .record "func_calls" false fun res => .nat res.nfev, .record "grad_calls" false fun res => .nat res.njev,
   .record "optimizer_method" false fun _ => .str method, .record "optimizer_kwargs" false fun _ => .kwargs kwargs]

/-- A call of `fit`: the generator made from an integer `random_state` (base/base.py:99), the allocation, `init`, the optimizer and what
follows (score_predictor/matrix_factorization.py:161-207, 341-386, item_finder/matrix_factorization.py:172-209, 349-394, 545-572, 705-750).
Left out: the call has its events before the first of these statements (`get_event`, `get_score`), and `_reg`, which nothing reads. -/
def program (g : γ) (init : List (Shared γ nu ni k → Res (Shared γ nu ni k))) (nEvents : Nat) (method : String)
    (kwargs : List (String × String)) : List (Instr γ nu ni k) :=
  [.generator g, .dtype, .new, .view .mu, .view .bu, .view .bi, .view .p, .view .q] ++ (init.map .init ++
    ([.initialLoss, .minimize, .copy, .extend .mu, .extend .bu, .extend .bi, .extend .p, .extend .q] ++
      (recording nEvents method kwargs ++ [.removeData, .dropCoef, .dropDtype])))

/-- The recommender, and of every thread its local variables, the statements that are left, and the exception that has ended it
(score_predictor/matrix_factorization.py:325-386). -/
structure World (γ : Type) (nu ni k : Nat) where
  self : Shared γ nu ni k
  call : Nat → Call nu ni k
  rest : Nat → List (Instr γ nu ni k)
  raised : Nat → Option Exc

/-- The next statement of thread `i` (same lines as `exec`). -/
noncomputable def tstep (opt : Optimizer) (method : String) (kwargs : List (String × String)) (w : World γ nu ni k) (i : Nat) : World γ nu ni k :=
  match w.raised i, w.rest i with
  | none, s :: l =>
    match exec opt method kwargs (w.call i) w.self s with
    | .ok (c, o) => { w with self := o, call := Function.update w.call i c, rest := Function.update w.rest i l }
    | .error e => { w with raised := Function.update w.raised i (some e) }
  | _, _ => w

/-- A schedule: the threads in the order of their turns (same lines). -/
noncomputable def interleave (opt : Optimizer) (method : String) (kwargs : List (String × String)) (w : World γ nu ni k) (threads : List Nat) :
    World γ nu ni k :=
  threads.foldl (tstep opt method kwargs) w

end Same
end MF
end Kam
