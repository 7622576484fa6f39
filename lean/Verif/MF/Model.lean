/-
Model of kamrecsys/score_predictor/matrix_factorization.py (PMF),
kamrecsys/item_finder/matrix_factorization.py (LogisticPMF, ImplicitLogisticPMF) and
`safe_sigmoid` of kamrecsys/utils/kammath.py, in exact real arithmetic.
-/
import Verif.Rec.Model
import Mathlib.Analysis.SpecialFunctions.Log.Basic
import Mathlib.Analysis.SpecialFunctions.Sigmoid
import Mathlib.Analysis.SpecialFunctions.Pow.Real
import Mathlib.Algebra.BigOperators.Fin

namespace Kam
namespace MF

open scoped BigOperators

/-! ### the flat coefficient vector and its views -/

/-- Size of the coefficient vector (score_predictor/matrix_factorization.py:169,
item_finder/matrix_factorization.py:180, 555). -/
abbrev size (nu ni k : Nat) : Nat := 1 + nu + ni + nu * k + ni * k

/-- One scalar parameter: an entry of the field `mu`, `bu`, `bi`, `p` or `q` of the structured
dtype (score_predictor/matrix_factorization.py:162-168,
item_finder/matrix_factorization.py:173-179, 546-552). -/
inductive Slot (nu ni k : Nat) where
  | mu
  | bu (u : Fin nu)
  | bi (i : Fin ni)
  | p (u : Fin nu) (f : Fin k)
  | q (i : Fin ni) (f : Fin k)
  deriving DecidableEq

/-- Position of a parameter in the flat vector: the fields of the packed dtype follow each other in
the order of their declaration, matrices row by row (same lines as `Slot`). -/
def pos {nu ni k : Nat} : Slot nu ni k → Nat
  | .mu => 0
  | .bu u => 1 + u
  | .bi i => 1 + nu + i
  | .p u f => 1 + nu + ni + (u * k + f)
  | .q i f => 1 + nu + ni + nu * k + (i * k + f)

theorem mul_add_lt {n k u f : Nat} (hu : u < n) (hf : f < k) : u * k + f < n * k := by
  calc u * k + f < u * k + k := by omega
    _ = (u + 1) * k := by rw [Nat.add_mul, Nat.one_mul]
    _ ≤ n * k := Nat.mul_le_mul_right k hu

theorem pos_lt {nu ni k : Nat} (s : Slot nu ni k) : pos s < size nu ni k := by
  unfold pos size
  cases s with
  | mu => simp only; omega
  | bu u => have := u.2; simp only; omega
  | bi i => have := i.2; simp only; omega
  | p u f => have := mul_add_lt u.2 f.2; simp only; omega
  | q i f => have := mul_add_lt i.2 f.2; simp only; omega

/-- The arrays `mu, bu, bi, p, q` (`mu` is its only entry `mu[0]`). -/
@[ext] structure Views (nu ni k : Nat) where
  mu : ℝ
  bu : Fin nu → ℝ
  bi : Fin ni → ℝ
  p : Fin nu → Fin k → ℝ
  q : Fin ni → Fin k → ℝ

/-- A flat coefficient vector. -/
abbrev Coef (nu ni k : Nat) := Fin (size nu ni k) → ℝ

/-- Reading through the views `coef.view(self._dt)['mu'][0]` etc.
(score_predictor/matrix_factorization.py:231-235, 273-277,
item_finder/matrix_factorization.py:235-239, 278-282, 597-601, 641-645). -/
def unpack {nu ni k : Nat} (c : Coef nu ni k) : Views nu ni k where
  mu := c ⟨pos .mu, pos_lt _⟩
  bu := fun u => c ⟨pos (.bu u), pos_lt _⟩
  bi := fun i => c ⟨pos (.bi i), pos_lt _⟩
  p := fun u f => c ⟨pos (.p u f), pos_lt _⟩
  q := fun i f => c ⟨pos (.q i f), pos_lt _⟩

/-- The value stored for a parameter. -/
def Views.get {nu ni k : Nat} (v : Views nu ni k) : Slot nu ni k → ℝ
  | .mu => v.mu
  | .bu u => v.bu u
  | .bi i => v.bi i
  | .p u f => v.p u f
  | .q i f => v.q i f

theorem div_lt_of_lt_mul {n k m : Nat} (h : m < n * k) : m / k < n := Nat.div_lt_of_lt_mul (by
  rw [Nat.mul_comm]; exact h)

theorem mod_lt_of_lt_mul {n k m : Nat} (h : m < n * k) : m % k < k :=
  Nat.mod_lt _ (by rcases Nat.eq_zero_or_pos k with rfl | h' <;> omega)

/-- The parameter that lives at a position of the flat vector (the inverse reading of the packed
dtype). -/
def slotAt {nu ni k : Nat} (j : Fin (size nu ni k)) : Slot nu ni k :=
  if _ : j.1 < 1 then .mu
  else if _ : j.1 < 1 + nu then .bu ⟨j.1 - 1, by omega⟩
  else if _ : j.1 < 1 + nu + ni then .bi ⟨j.1 - (1 + nu), by omega⟩
  else if h : j.1 < 1 + nu + ni + nu * k then
    have h' : j.1 - (1 + nu + ni) < nu * k := by omega
    .p ⟨(j.1 - (1 + nu + ni)) / k, div_lt_of_lt_mul h'⟩
      ⟨(j.1 - (1 + nu + ni)) % k, mod_lt_of_lt_mul h'⟩
  else
    have h' : j.1 - (1 + nu + ni + nu * k) < ni * k := by have := j.2; unfold size at this; omega
    .q ⟨(j.1 - (1 + nu + ni + nu * k)) / k, div_lt_of_lt_mul h'⟩
      ⟨(j.1 - (1 + nu + ni + nu * k)) % k, mod_lt_of_lt_mul h'⟩

/-- Writing all entries of the views into a flat vector (the gradient arrays
`grad.view(self._dt)[...]`, score_predictor/matrix_factorization.py:281-285, and the views of
`self._coef`, 175-179; same in item_finder/matrix_factorization.py:286-290, 186-190, 649-653,
559-563). -/
def pack {nu ni k : Nat} (v : Views nu ni k) : Coef nu ni k := fun j => v.get (slotAt j)

/-! ### training events -/

/-- One row of `ev` with its score `sc`. -/
structure Event (nu ni : Nat) where
  user : Fin nu
  item : Fin ni
  score : ℝ

variable {nu ni k : Nat}

/-- `np.bincount(ids, weights=w, minlength=n)[j]`. -/
def bincount {β : Type} {n : Nat} (evs : List β) (id : β → Fin n) (w : β → ℝ) (j : Fin n) : ℝ :=
  ((evs.filter (fun e => decide (id e = j))).map w).sum

/-- `mu[0] + bu[u] + bi[i] + np.sum(p[u, :] * q[i, :])`
(score_predictor/matrix_factorization.py:238-239, item_finder/matrix_factorization.py:243-244). -/
noncomputable def est (v : Views nu ni k) (u : Fin nu) (i : Fin ni) : ℝ :=
  v.mu + v.bu u + v.bi i + ∑ f, v.p u f * v.q i f

/-- The regularization term (score_predictor/matrix_factorization.py:243,
item_finder/matrix_factorization.py:248, 614). -/
noncomputable def reg (v : Views nu ni k) : ℝ :=
  ∑ u, v.bu u ^ 2 + ∑ i, v.bi i ^ 2 + ∑ u, ∑ f, v.p u f ^ 2 + ∑ i, ∑ f, v.q i f ^ 2

/-- The gradient of the regularization term added at the end of `grad_loss`
(score_predictor/matrix_factorization.py:305-308, item_finder/matrix_factorization.py:313-316,
670-673). -/
noncomputable def addReg (C : ℝ) (v g : Views nu ni k) : Views nu ni k where
  mu := g.mu
  bu := fun u => g.bu u + C * v.bu u
  bi := fun i => g.bi i + C * v.bi i
  p := fun u f => g.p u f + C * v.p u f
  q := fun i f => g.q i f + C * v.q i f

/-- The part of `grad_loss` common to PMF and LogisticPMF: `w` is `neg_res` or `common_term`
(score_predictor/matrix_factorization.py:290-302, item_finder/matrix_factorization.py:298-310). -/
noncomputable def gradTerms (v : Views nu ni k) (evs : List (Event nu ni)) (w : Event nu ni → ℝ) :
    Views nu ni k where
  mu := (evs.map w).sum
  bu := fun u => bincount evs (·.user) w u
  bi := fun i => bincount evs (·.item) w i
  p := fun u f => bincount evs (·.user) (fun e => w e * v.q e.item f) u
  q := fun i f => bincount evs (·.item) (fun e => w e * v.p e.user f) i

/-! ### PMF -/
namespace PMF

/-- `PMF.loss` (score_predictor/matrix_factorization.py:209-245). -/
noncomputable def loss (C : ℝ) (evs : List (Event nu ni)) (c : Coef nu ni k) : ℝ :=
  let v := unpack c
  0.5 * (evs.map (fun e => (e.score - est v e.user e.item) ^ 2)).sum + 0.5 * C * reg v

/-- `PMF.grad_loss` (score_predictor/matrix_factorization.py:247-310). -/
noncomputable def gradLoss (C : ℝ) (evs : List (Event nu ni)) (c : Coef nu ni k) : Coef nu ni k :=
  let v := unpack c
  -- score_predictor/matrix_factorization.py:288-289
  let negRes := fun e : Event nu ni => -(e.score - est v e.user e.item)
  pack (addReg C v (gradTerms v evs negRes))

end PMF

/-! ### logistic models -/

/-- The bound of the domain of `safe_sigmoid` (utils/kammath.py:68), read as an exact decimal. -/
noncomputable def sigmoidDom : ℝ := 34.538776394910684

/-- `np.clip(x, -SIGMOID_DOM, SIGMOID_DOM)` (utils/kammath.py:68). -/
noncomputable def clip (x : ℝ) : ℝ := min (max x (-sigmoidDom)) sigmoidDom

/-- `safe_sigmoid` (utils/kammath.py:46-70); `expit(x) = 1 / (1 + exp(-x))`. -/
noncomputable def safeSigmoid (x : ℝ) : ℝ := 1 / (1 + Real.exp (-(clip x)))

/-- `s * log(esc) + (1 - s) * log(1 - esc)`
(item_finder/matrix_factorization.py:245, 610-611). -/
noncomputable def logLik (s esc : ℝ) : ℝ := s * Real.log esc + (1 - s) * Real.log (1 - esc)

namespace Logistic

/-- `LogisticPMF.loss` (item_finder/matrix_factorization.py:211-250). -/
noncomputable def loss (C : ℝ) (evs : List (Event nu ni)) (c : Coef nu ni k) : ℝ :=
  let v := unpack c
  let l := -(evs.map (fun e => logLik e.score (safeSigmoid (est v e.user e.item)))).sum
  l + 0.5 * C * reg v

/-- `LogisticPMF.grad_loss` (item_finder/matrix_factorization.py:252-318). -/
noncomputable def gradLoss (C : ℝ) (evs : List (Event nu ni)) (c : Coef nu ni k) : Coef nu ni k :=
  let v := unpack c
  -- item_finder/matrix_factorization.py:293-296
  let commonTerm := fun e : Event nu ni => safeSigmoid (est v e.user e.item) - e.score
  pack (addReg C v (gradTerms v evs commonTerm))

end Logistic

namespace Implicit

/-- The event matrix (rows: users). -/
abbrev Mat (nu ni : Nat) := Fin nu → Fin ni → Nat

/-- `esc` of the user `u` (item_finder/matrix_factorization.py:607-609, 658-660). -/
noncomputable def esc (v : Views nu ni k) (u : Fin nu) (i : Fin ni) : ℝ :=
  safeSigmoid (v.mu + v.bu u + v.bi i + ∑ f, v.p u f * v.q i f)

/-- `ImplicitLogisticPMF.loss` (item_finder/matrix_factorization.py:574-616): the loop over users
subtracts the log-likelihood of each row. -/
noncomputable def loss (C : ℝ) (m : Mat nu ni) (c : Coef nu ni k) : ℝ :=
  let v := unpack c
  let l := (List.finRange nu).foldl
    (fun l u => l - ∑ i, logLik (m u i : ℝ) (esc v u i)) 0.0
  l + 0.5 * C * reg v

/-- One pass of the loop of `grad_loss` over users
(item_finder/matrix_factorization.py:656-667). -/
noncomputable def gradStep (m : Mat nu ni) (v : Views nu ni k) (g : Views nu ni k) (u : Fin nu) :
    Views nu ni k :=
  let common := fun i : Fin ni => esc v u i - (m u i : ℝ)
  { mu := g.mu + ∑ i, common i
    bu := Function.update g.bu u (∑ i, common i)
    bi := fun i => g.bi i + common i
    p := Function.update g.p u (fun f => ∑ i, common i * v.q i f)
    q := fun i f => g.q i f + common i * v.p u f }

/-- `ImplicitLogisticPMF.grad_loss` (item_finder/matrix_factorization.py:618-675). -/
noncomputable def gradLoss (C : ℝ) (m : Mat nu ni) (c : Coef nu ni k) : Coef nu ni k :=
  let v := unpack c
  let zero : Views nu ni k := ⟨0, fun _ => 0, fun _ => 0, fun _ _ => 0, fun _ _ => 0⟩
  pack (addReg C v ((List.finRange nu).foldl (gradStep m v) zero))

end Implicit

/-! ### initial coefficients -/

/-- A random generator: `normal g mean sd (rows, cols)` gives the drawn matrix and the next
state of the generator (`numpy.random.RandomState.normal`). -/
structure Rng (γ : Type) where
  normal : γ → ℝ → ℝ → Nat → Nat → (Nat → Nat → ℝ) × γ

/-- `np.bincount(ids, minlength=n).nonzero()[0]`: the ids that occur, in increasing order
(score_predictor/matrix_factorization.py:202, 205, item_finder/matrix_factorization.py:206, 208). -/
def mask {β : Type} {n : Nat} (evs : List β) (id : β → Fin n) : List (Fin n) :=
  (List.finRange n).filter (fun j => evs.any (fun e => decide (id e = j)))

/-- `a[mask, :] = z` on an array of zeros. -/
def scatter {n k : Nat} (mask : List (Fin n)) (z : Nat → Nat → ℝ) : Fin n → Fin k → ℝ :=
  fun j f => if j ∈ mask then z (mask.idxOf j) f else 0

/-- The bias terms shared by `PMF._init_coef` and `LogisticPMF._init_coef`
(score_predictor/matrix_factorization.py:183-192, item_finder/matrix_factorization.py:194-203).
Without events numpy divides by zero (`nan`); here the quotient is 0, so statements about these
values assume that there is an event. -/
noncomputable def initBias (evs : List (Event nu ni)) : ℝ × (Fin nu → ℝ) × (Fin ni → ℝ) :=
  let mu := (evs.map (·.score)).sum / (evs.length : ℝ)
  let bu := fun u : Fin nu =>
    let j := evs.filter (fun e => decide (e.user = u))
    if 0 < j.length then (j.map (fun e => e.score - mu)).sum / (j.length : ℝ) else 0
  let bi := fun i : Fin ni =>
    let j := evs.filter (fun e => decide (e.item = i))
    if 0 < j.length then (j.map (fun e => e.score - (mu + bu e.user))).sum / (j.length : ℝ) else 0
  (mu, bu, bi)

/-- `PMF._init_coef` (score_predictor/matrix_factorization.py:142-207). -/
noncomputable def PMF.initCoef {γ : Type} (R : Rng γ) (g : γ) (k : Nat) (evs : List (Event nu ni)) :
    Coef nu ni k × γ :=
  let b := initBias evs
  -- score_predictor/matrix_factorization.py:195-200
  let var := (evs.foldl (fun var e =>
    var + (e.score - (b.1 + b.2.1 e.user + b.2.2 e.item)) ^ 2) 0.0) / (evs.length : ℝ)
  -- score_predictor/matrix_factorization.py:202-207
  let mu := mask evs (·.user)
  let zp := R.normal g 0 (Real.sqrt var) mu.length k
  let mi := mask evs (·.item)
  let zq := R.normal zp.2 0 (Real.sqrt var) mi.length k
  (pack ⟨b.1, b.2.1, b.2.2, scatter mu zp.1, scatter mi zq.1⟩, zq.2)

/-- `LogisticPMF._init_coef` (item_finder/matrix_factorization.py:153-209). -/
noncomputable def Logistic.initCoef {γ : Type} (R : Rng γ) (g : γ) (k : Nat)
    (evs : List (Event nu ni)) : Coef nu ni k × γ :=
  let b := initBias evs
  let mu := mask evs (·.user)
  let zp := R.normal g 0 1 mu.length k
  let mi := mask evs (·.item)
  let zq := R.normal zp.2 0 1 mi.length k
  (pack ⟨b.1, b.2.1, b.2.2, scatter mu zp.1, scatter mi zq.1⟩, zq.2)

/-- `ImplicitLogisticPMF._init_coef` (item_finder/matrix_factorization.py:528-572). -/
noncomputable def Implicit.initCoef {γ : Type} (R : Rng γ) (g : γ) (k : Nat) (m : Implicit.Mat nu ni) :
    Coef nu ni k × γ :=
  -- item_finder/matrix_factorization.py:540, 566-568
  let npos : Nat := (Finset.univ.filter (fun x : Fin nu × Fin ni => m x.1 x.2 ≠ 0)).card
  -- item_finder/matrix_factorization.py:571-572
  let zp := R.normal g 0 1 nu k
  let zq := R.normal zp.2 0 1 ni k
  (pack { mu := (npos : ℝ) / ((nu : ℝ) * (ni : ℝ))
          bu := fun u => (∑ i, (m u i : ℝ)) / (ni : ℝ)
          bi := fun i => (∑ u, (m u i : ℝ)) / (nu : ℝ)
          p := fun u f => zp.1 u f
          q := fun i f => zq.1 i f }, zq.2)

/-! ### learned parameters, prediction and training -/

/-- The learned attributes `mu_, bu_, bi_, p_, q_` (`mu_` is `mu_[0]`). -/
structure Params where
  mu : ℝ
  bu : List ℝ
  bi : List ℝ
  p : List (List ℝ)
  q : List (List ℝ)

/-- The parameters stored by `fit`: one zero entry (row) for unknown users and items is appended
(score_predictor/matrix_factorization.py:356-365, item_finder/matrix_factorization.py:364-373,
720-729). -/
noncomputable def store (c : Coef nu ni k) : Params :=
  let v := unpack c
  { mu := v.mu
    bu := List.ofFn v.bu ++ [0]
    bi := List.ofFn v.bi ++ [0]
    p := List.ofFn (fun u => List.ofFn (v.p u)) ++ [List.replicate k 0]
    q := List.ofFn (fun i => List.ofFn (v.q i)) ++ [List.replicate k 0] }

/-- One row of `raw_predict` before the link function
(score_predictor/matrix_factorization.py:409-411, item_finder/matrix_factorization.py:417-419,
773-775). -/
noncomputable def rawScore (θ : Params) (row : List Int) : Res ℝ := do
  let u ← npGet row 0
  let i ← npGet row 1
  let bu ← npGet θ.bu u
  let bi ← npGet θ.bi i
  let p ← npGet θ.p u
  let q ← npGet θ.q i
  return θ.mu + bu + bi + (List.zipWith (· * ·) p q).sum

/-- `raw_predict` with the link function of the model (identity for PMF, `sigmoid` for the logistic
models; same lines as `rawScore`). -/
noncomputable def rawPredict (link : ℝ → ℝ) (θ : Params) (rows : List (List Int)) : Res (List ℝ) :=
  rows.mapM (fun row => (rawScore θ row).map link)

/-- Values of `fit_results_`. -/
inductive Val where
  | inf
  | real (x : ℝ)
  | nat (n : Nat)
  | bool (b : Bool)
  | str (s : String)
  | kwargs (o : List (String × String))

/-- `scipy.optimize.OptimizeResult`. -/
structure OptResult (N : Nat) where
  x : Fin N → ℝ
  success : Bool
  status : Nat
  message : String
  fn : ℝ
  nit : Nat
  nfev : Nat
  njev : Nat

/-- `scipy.optimize.minimize(fun, x0, jac=grad, method=.., **kwargs)`: an arbitrary function of its
arguments. -/
abbrev Optimizer := ∀ N : Nat, ((Fin N → ℝ) → ℝ) → ((Fin N → ℝ) → (Fin N → ℝ)) → (Fin N → ℝ) →
  String → List (String × String) → OptResult N

/-- Hyper-parameters set by the constructors (score_predictor/matrix_factorization.py:110-125,
item_finder/matrix_factorization.py:120-136, 496-511). -/
structure Config (γ : Type) where
  C : ℝ
  k : Nat
  method : String
  kwargs : List (String × String)
  opt : Optimizer
  rng : Rng γ

/-- The entries of `fit_results_` in the order of their assignment
(score_predictor/matrix_factorization.py:341-342, 368-380, item_finder/matrix_factorization.py:349-350,
376-388, 705-706, 732-744). -/
def results {γ : Type} (cf : Config γ) (nu ni nEvents : Nat) (initial : ℝ) {N : Nat} (res : OptResult N) :
    List (String × Val) :=
  [("initial_loss", .real initial), ("n_users", .nat nu), ("n_items", .nat ni),
   ("n_events", .nat nEvents), ("n_parameters", .nat N), ("success", .bool res.success),
   ("status", .nat res.status), ("message", .str res.message), ("final_loss", .real res.fn),
   ("n_iterations", .nat res.nit), ("func_calls", .nat res.nfev), ("grad_calls", .nat res.njev),
   ("optimizer_method", .str cf.method), ("optimizer_kwargs", .kwargs cf.kwargs)]

/-- An internal id as an array position (ids of training events are always in range, property C20;
anything else raises `IndexError`). -/
def toFin (n : Nat) (x : Int) : Res (Fin n) :=
  if h : 0 ≤ x ∧ x < n then .ok ⟨x.toNat, by omega⟩ else .error .indexError

/-- Columns 0 and 1 of the events with their scores (`get_event`, base/base.py:163-182, and the
accesses `ev[:, 0]`, `ev[:, 1]`, `sc[i]`).  Arrays of different lengths cannot be combined. -/
def parseEvents (nu ni : Nat) (event : List (List Int)) (sc : List ℝ) : Res (List (Event nu ni)) :=
  if event.length = sc.length then
    (event.zip sc).mapM (fun x => do
      let u ← toFin nu (← npGet x.1 0)
      let i ← toFin ni (← npGet x.1 1)
      return ⟨u, i, x.2⟩)
  else .error .valueError

/-- `_init_coef` allocates the biases as the fields `('bu', float, n_users)` and `('bi', float, n_items)` of a record
(score_predictor/matrix_factorization.py:162-168, 176-177, item_finder/matrix_factorization.py:173-179, 187-188, 546-552, 560-561).
numpy 1.16 takes `(float, 1)` for `float`, so with one user or one item `self.bu_` or `self.bi_` is a number, into which nothing can be
stored: the next assignment to it (score_predictor/matrix_factorization.py:186, 190-192, item_finder/matrix_factorization.py:197, 201-203,
567-568) raises `TypeError`.  Simplified: without events PMF and LogisticPMF would not get to that assignment, but data without
events has neither users nor items. -/
def allocate (nu ni : Nat) : Res Unit := if nu = 1 ∨ ni = 1 then .error .typeError else .ok ()

/-- The rest of `fit` of PMF and LogisticPMF after the call of the super class
(score_predictor/matrix_factorization.py:330-386, item_finder/matrix_factorization.py:338-394). -/
noncomputable def trainExplicit {γ : Type} (cf : Config γ)
    (initCoef : ∀ nu ni : Nat, γ → List (Event nu ni) → Coef nu ni cf.k × γ)
    (loss : ∀ nu ni : Nat, List (Event nu ni) → Coef nu ni cf.k → ℝ)
    (gradLoss : ∀ nu ni : Nat, List (Event nu ni) → Coef nu ni cf.k → Coef nu ni cf.k)
    (v : View ℝ γ) : Res (Params × List (String × Val)) := do
  let nu ← npGet v.nObjects 0
  let ni ← npGet v.nObjects 1
  match v.score, v.rng with
  | some sc, some g =>
    let evs ← parseEvents nu ni v.event sc
    allocate nu ni
    let c0 := (initCoef nu ni g evs).1
    let res := cf.opt _ (loss nu ni evs) (gradLoss nu ni evs) c0 cf.method cf.kwargs
    return (store (nu := nu) (ni := ni) (k := cf.k) res.x,
      results cf nu ni v.nEvents (loss nu ni evs c0) res)
  | _, _ => .error .typeError

/-- `PMF` as a learner. -/
noncomputable def pmf {γ : Type} (cf : Config γ) : Learner ℝ γ Params Val where
  train := trainExplicit cf (fun _ _ g evs => PMF.initCoef cf.rng g cf.k evs)
    (fun _ _ => PMF.loss cf.C) (fun _ _ => PMF.gradLoss cf.C)
  rawPredict := rawPredict id

/-- `LogisticPMF` as a learner. -/
noncomputable def logistic {γ : Type} (cf : Config γ) : Learner ℝ γ Params Val where
  train := trainExplicit cf (fun _ _ g evs => Logistic.initCoef cf.rng g cf.k evs)
    (fun _ _ => Logistic.loss cf.C) (fun _ _ => Logistic.gradLoss cf.C)
  rawPredict := rawPredict safeSigmoid

/-- The matrix of `get_event_array` as a function. -/
def matOf (nu ni : Nat) (m : List (List Nat)) : Implicit.Mat nu ni :=
  fun u i => ((m.getD u []).getD i 0)

/-- `ImplicitLogisticPMF` as a learner (training: item_finder/matrix_factorization.py:695-750). -/
noncomputable def implicit {γ : Type} (cf : Config γ) : Learner ℝ γ Params Val where
  train := fun v => do
    let (m, ns) ← getEventArray v
    match ns, v.rng with
    | [nu, ni], some g =>
      let mat := matOf nu ni m
      allocate nu ni
      let c0 := (Implicit.initCoef cf.rng g cf.k mat).1
      let res := cf.opt _ (Implicit.loss cf.C mat) (Implicit.gradLoss cf.C mat) c0 cf.method cf.kwargs
      return (store (nu := nu) (ni := ni) (k := cf.k) res.x,
        results cf nu ni v.nEvents (Implicit.loss cf.C mat c0) res)
    | _, _ => .error .typeError
  rawPredict := rawPredict safeSigmoid

/-- `fit_results_` set by the constructors (score_predictor/matrix_factorization.py:133-136,
item_finder/matrix_factorization.py:144-147, 519-522). -/
def initialResults : Dict String Val := [("initial_loss", .inf), ("final_loss", .inf)]

end MF
end Kam
