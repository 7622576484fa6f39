/-
Model of kamrecsys/metrics/real.py, kamrecsys/metrics/base.py (`statistics_mean`; the bins are in
Verif/Score), kamrecsys/metrics/score_predictor.py and kamrecsys/metrics/item_finder.py, in exact
real arithmetic with explicit `nan` and infinities.
-/
import Verif.Score.Model
import Mathlib.Analysis.SpecialFunctions.Sqrt
import Mathlib.Analysis.Real.Sqrt

namespace Kam.Metrics

/-- A floating-point value. -/
inductive Fl where
  | fin (x : ℝ)
  | nan
  | posInf
  | negInf

/-- The number, unless it is `nan` or infinite (`np.isfinite`). -/
def Fl.toReal? : Fl → Option ℝ
  | .fin x => some x
  | _ => none

/-- `assert_all_finite(x)` followed by `as_float_array(x)` (real.py:72-75, 111-114,
score_predictor.py:79-82, 131-134, item_finder.py:79-84, 131-136): the numbers, or `ValueError` when
one is `nan` or infinite. -/
def assertAllFinite (xs : List Fl) : Res (List ℝ) :=
  xs.mapM (fun x => match x.toReal? with | some r => .ok r | none => .error .valueError)

/-- `np.mean` / `np.nanmean` of finite numbers; `nan` for an empty array. -/
noncomputable def mean (xs : List ℝ) : Fl :=
  if xs = [] then .nan else .fin (xs.sum / (xs.length : ℝ))

/-- `np.std` / `np.nanstd` of finite numbers: the root of the mean squared deviation; `nan` for an
empty array. -/
noncomputable def std (xs : List ℝ) : Fl :=
  if xs = [] then .nan
  else
    let m := xs.sum / (xs.length : ℝ)
    .fin (Real.sqrt ((xs.map (fun x => |x - m| ^ 2)).sum / (xs.length : ℝ)))

/-- The input checks shared by all metrics (real.py:72-76, 111-115, score_predictor.py:79-83,
131-135): finite values and equal lengths. -/
def checkInputs (yTrue yPred : List Fl) : Res (List ℝ × List ℝ) := do
  let t ← assertAllFinite yTrue
  let p ← assertAllFinite yPred
  if t.length = p.length then return (t, p) else .error .valueError

/-- `mean_absolute_error` (real.py:49-83): mean and standard deviation. -/
noncomputable def meanAbsoluteError (yTrue yPred : List Fl) : Res (Fl × Fl) := do
  let (t, p) ← checkInputs yTrue yPred
  -- real.py:79-81
  let errs := List.zipWith (fun x y => |x - y|) t p
  return (mean errs, std errs)

/-- `np.sqrt(np.maximum(x, 0.))`; `nan` stays `nan`. -/
noncomputable def sqrtMax0 : Fl → Fl
  | .fin x => .fin (Real.sqrt (max x 0))
  | .nan => .nan
  | .posInf => .posInf
  | .negInf => .fin 0

/-- `mean_squared_error` (real.py:86-123): root mean squared error, mean, standard deviation. -/
noncomputable def meanSquaredError (yTrue yPred : List Fl) : Res (Fl × Fl × Fl) := do
  let (t, p) ← checkInputs yTrue yPred
  -- real.py:118-121
  let errs := List.zipWith (fun x y => (x - y) ^ 2) t p
  return (sqrtMax0 (mean errs), mean errs, std errs)

/-- The argument `score_domain` of `score_histogram`: a sequence, a Python `int` or a numpy
integer. -/
inductive DomainArg where
  | triple (dom : List ℝ)
  | pyInt (n : Int)
  | npInt (n : Int)

/-- `np.histogram(x, bins=edges)` with an array of edges: the edges must not decrease; the counts are
the differences of the numbers of samples left of the edges (the last edge belongs to the last
bin). -/
noncomputable def npHistogram (edges : List (Ext ℝ)) (xs : List ℝ) : Res (List Int) :=
  if edges.Pairwise (· ≤ ·) then
    let cum : List Int := (edges.dropLast.map (fun e =>
        (xs.countP (fun (x : ℝ) => decide (((x : WithTop ℝ) : Ext ℝ) < e)) : Int))) ++
      (match edges.getLast? with
        | some e => [(xs.countP (fun (x : ℝ) => decide (((x : WithTop ℝ) : Ext ℝ) ≤ e)) : Int)]
        | none => [])
    .ok (List.zipWith (fun a b => b - a) cum cum.tail)
  else .error .valueError

/-- Range of the bins of `np.histogram(x, bins=n)`: the range of the data, unit intervals for
constant data and for no data. -/
noncomputable def histRange (xs : List ℝ) : ℝ × ℝ :=
  match npMin xs, npMax xs with
  | .ok lo, .ok hi => if lo = hi then (lo - 1 / 2, hi + 1 / 2) else (lo, hi)
  | _, _ => (0, 1)

/-- The edges of `np.histogram(x, bins=n)`: `n + 1` equidistant points; `ValueError` for `n < 1`. -/
noncomputable def histEdges (xs : List ℝ) (n : Int) : Res (List ℝ) :=
  if n < 1 then .error .valueError
  else npLinspace (histRange xs).1 (histRange xs).2 (n + 1)

/-- `score_histogram` (real.py:126-169).  A Python `int` is not an instance of `np.integer`, so that
`score_domain[0]` is evaluated, a `TypeError`. -/
noncomputable def scoreHistogram (x : List Fl) (arg : DomainArg) : Res (List Int × List ℝ) := do
  -- real.py:149
  let xs ← assertAllFinite x
  match arg with
  | .pyInt _ => .error .typeError
  | .npInt n =>
    -- real.py:151, 157, 160-161
    let edges ← histEdges xs n
    let hist ← npHistogram (edges.map (fun (e : ℝ) => ((e : WithTop ℝ) : Ext ℝ))) xs
    return (hist, List.zipWith (fun a b => (a + b) / 2) edges.tail edges.dropLast)
  | .triple dom =>
    -- real.py:153-154, 157
    let bins ← generateScoreBins dom
    let hist ← npHistogram bins xs
    -- real.py:163-166
    let lo ← npGet dom 0
    let hi ← npGet dom 1
    let st ← npGet dom 2
    let ls ← npArange lo hi st
    return (hist, ls ++ [hi])

/-- How the data were passed: `as_float_array` checks finiteness of lists but returns floating-point
arrays as they are (scikit-learn up to 0.21). -/
inductive Container where
  | list
  | ndarray

/-- The computation of the variance on finite data (real.py:228-233).  `a` and `b` are meant to be
positive; other values may divide by zero, which gives `nan` or infinities in numpy and 0 here. -/
noncomputable def gammaVariance (a b : ℝ) (xs : List ℝ) : ℝ :=
  let n : ℝ := xs.length
  let xSum := xs.sum
  let xSqsum := (xs.map (fun x => x ^ 2)).sum
  let var := (2 * b + xSqsum - xSum ^ 2 / n) / (2 * a + n)
  if var ≤ 0 then b / a else var

/-- `variance_with_gamma_prior` (real.py:172-238) with its full output.  With non-finite data in the
sums the result is `nan`, as is `0 / 0` of an empty array. -/
noncomputable def varianceWithGammaPrior (x : List Fl) (a b : ℝ) (forceAllFinite : Bool)
    (c : Container) : Res (Fl × Nat) :=
  if forceAllFinite then
    -- real.py:220-221
    match assertAllFinite x, c with
    | .ok xs, .ndarray => .ok (if xs = [] then .nan else .fin (gammaVariance a b xs), xs.length)
    | .ok xs, .list =>
      if xs = [] then .error .valueError else .ok (.fin (gammaVariance a b xs), xs.length)
    | .error _, .ndarray => .ok (.nan, x.length)
    | .error e, .list => .error e
  else
    -- real.py:223-225
    let xs := x.filterMap Fl.toReal?
    if xs.length < 1 then .error .valueError
    else .ok (.fin (gammaVariance a b xs), xs.length)

/-! ### `statistics_mean` -/

/-- An argument of `statistics_mean`. -/
inductive Arg (κ β : Type) where
  | dict (d : Dict κ β)
  | list (l : List β)

/-- The value of the statistic: a number or a vector. -/
inductive Stat where
  | scalar (x : ℝ)
  | vec (xs : List ℝ)

/-- `arg[k]` for a key of the first dictionary; a list cannot be indexed by it (keys that are integers
are not considered). -/
def Arg.item {κ β : Type} [DecidableEq κ] (a : Arg κ β) (k : κ) : Res β :=
  match a with
  | .dict d => d.getItem k
  | .list _ => .error .typeError

/-- Result of `statistics_mean`. -/
inductive MeanOut where
  | nan
  | scalar (x : ℝ)
  | vec (xs : List ℝ)

/-- All values are numbers. -/
def allScalars : List Stat → Option (List ℝ)
  | [] => some []
  | .scalar x :: ss => (allScalars ss).map (x :: ·)
  | .vec _ :: _ => none

/-- All values are vectors of length `n`. -/
def allVecs (n : Nat) : List Stat → Option (List (List ℝ))
  | [] => some []
  | .vec x :: ss => if x.length = n then (allVecs n ss).map (x :: ·) else none
  | .scalar _ :: _ => none

/-- `np.mean(np.asanyarray(stats, dtype=float), axis=0)` (metrics/base.py:104-108): numbers or
vectors of equal length, `ValueError` for a mixture; the mean of nothing is `nan`. -/
noncomputable def meanAxis0 (stats : List Stat) : Res MeanOut :=
  match stats with
  | [] => .ok .nan
  | .scalar x :: ss =>
    match allScalars ss with
    | some xs => .ok (.scalar ((x :: xs).sum / ((x :: xs).length : ℝ)))
    | none => .error .valueError
  | .vec x :: ss =>
    match allVecs x.length ss with
    | some xs => .ok (.vec ((List.range x.length).map (fun j =>
        ((x :: xs).map (fun r => r.getD j 0)).sum / ((x :: xs).length : ℝ))))
    | none => .error .valueError

/-- `statistics_mean(fun, *arg_list)` (metrics/base.py:67-110).  The branch for lists tests for `dict`
a second time and is never taken; no arguments raise `IndexError`. -/
noncomputable def statisticsMean {κ β : Type} [LinearOrder κ] (f : List β → Res Stat)
    (args : List (Arg κ β)) : Res MeanOut :=
  match args with
  | [] => .error .indexError
  | .list _ :: _ => .error .typeError
  | .dict d :: rest => do
    -- metrics/base.py:91-93
    let stats ← (npUnique d.keys).mapM (fun k => do
      let as ← (Arg.dict d :: rest).mapM (fun a => a.item k)
      f as)
    meanAxis0 stats

/-! ### reports -/

/-- Mean and standard deviation of a sample. -/
structure Desc where
  mean : Fl
  stdev : Fl

/-- `{'mean': np.mean(y), 'stdev': np.std(y)}`. -/
noncomputable def describe (xs : List ℝ) : Desc := ⟨mean xs, std xs⟩

/-- The dictionary returned by `item_finder_statistics` and `item_finder_report`; `auc` is the entry
`'area under the curve'`, if present. -/
structure FinderStats where
  nSamples : Nat
  true_ : Desc
  predicted : Desc
  auc : Option ℝ

/-- `item_finder_statistics` (item_finder.py:107-157); `item_finder_report` (item_finder.py:54-104)
computes the same dictionary.  `auc` is `sklearn.metrics.roc_auc_score`, a parameter. -/
noncomputable def itemFinderStatistics (auc : List ℝ → List ℝ → ℝ) (yTrue yPred : List Fl) :
    Res FinderStats := do
  -- item_finder.py:131-137
  let t ← assertAllFinite yTrue
  if isBinaryScore t true then do
    let p ← assertAllFinite yPred
    if t.length = p.length then
      return { nSamples := t.length, true_ := describe t, predicted := describe p
               -- item_finder.py:152-155
               auc := if isBinaryScore t false then some (auc t p) else none }
    else .error .valueError
  else .error .valueError

/-- A histogram with its density: `hist / hist.sum()`. -/
structure HistDesc where
  desc : Desc
  histogram : List Int
  density : List Fl

/-- `hist / hist.sum()`: `0 / 0` is `nan`. -/
noncomputable def density (hist : List Int) : List Fl :=
  hist.map (fun (h : Int) => if hist.sum = 0 then .nan else .fin ((h : ℝ) / (hist.sum : ℝ)))

/-- The dictionary returned by `score_predictor_statistics`. -/
structure PredictorStats where
  nSamples : Nat
  levels : List ℝ
  mae : Fl × Fl
  mse : Fl × Fl × Fl
  true_ : HistDesc
  predicted : HistDesc

/-- `score_predictor_statistics` (score_predictor.py:104-170). -/
noncomputable def scorePredictorStatistics (yTrue yPred : List Fl) (dom : List ℝ) :
    Res PredictorStats := do
  -- score_predictor.py:131-135
  let (t, p) ← checkInputs yTrue yPred
  -- score_predictor.py:144-146
  let lo ← npGet dom 0
  let hi ← npGet dom 1
  let st ← npGet dom 2
  let ls ← npArange lo hi st
  -- score_predictor.py:149-154
  let mae ← meanAbsoluteError yTrue yPred
  let mse ← meanSquaredError yTrue yPred
  -- score_predictor.py:157-168
  let ht ← scoreHistogram yTrue (.triple dom)
  let hp ← scoreHistogram yPred (.triple dom)
  return { nSamples := t.length, levels := ls ++ [hi], mae := mae, mse := mse
           true_ := ⟨describe t, ht.1, density ht.1⟩
           predicted := ⟨describe p, hp.1, density hp.1⟩ }

/-- The dictionary returned by `score_predictor_report`. -/
structure PredictorReport where
  mae : ℝ
  rmse : ℝ
  nSamples : Nat
  true_ : Desc
  predicted : Desc

/-- `score_predictor_report` (score_predictor.py:53-101).  The scikit-learn metrics raise `ValueError`
for empty samples. -/
noncomputable def scorePredictorReport (yTrue yPred : List Fl) : Res PredictorReport := do
  let (t, p) ← checkInputs yTrue yPred
  if t = [] then .error .valueError
  else
    let mse := (List.zipWith (fun x y => (x - y) ^ 2) t p).sum / (t.length : ℝ)
    return { mae := (List.zipWith (fun x y => |x - y|) t p).sum / (t.length : ℝ)
             rmse := Real.sqrt (max mse 0)
             nSamples := t.length, true_ := describe t, predicted := describe p }

end Kam.Metrics
