/-
Model of scripts/stats_recsys.py: statistics of a result file.
-/
import Verif.Scripts.Model
import Verif.Metrics.Model

set_option linter.unusedSectionVars false

namespace Kam.Scripts
open Metrics (Fl)

variable {V : Type}

/-- What the statistics script takes from the outside: how numpy and Python read a leaf of the file as a number
or a string, how results are written, and `sklearn.metrics.roc_auc_score`. -/
structure StatsEnv (V : Type) where
  float : V → Res Fl
  text : V → Option String
  num : Fl → V
  nat : Nat → V
  int : Int → V
  auc : List ℝ → List ℝ → ℝ

/-- The numbers of a list read from the file (`assert_all_finite`, `as_float_array`). -/
def readFloats (se : StatsEnv V) (xs : List (J V)) : Res (List Fl) :=
  xs.mapM (fun x => match x with
    | .leaf v => se.float v
    | _ => .error .valueError)

/-- `info['condition']['score_domain']` (stats_recsys.py:118) as the statistics use it: numbers.  `nan` and
infinite entries, which the scripts do not write, are rejected here. -/
def readDomain (se : StatsEnv V) (j : J V) : Res (List ℝ) :=
  match j with
  | .list l => do
    let fs ← readFloats se l
    fs.mapM (fun f => match f with
      | .fin x => .ok x
      | _ => .error .valueError)
  | _ => .error .typeError

/-- `{'mean': ..., 'stdev': ...}` (score_predictor.py:157, 164, item_finder.py:146, 149). -/
def descItems (se : StatsEnv V) (d : Metrics.Desc) : Dict String (J V) :=
  [("mean", .leaf (se.num d.mean)), ("stdev", .leaf (se.num d.stdev))]

/-- `stats['true']` and `stats['predicted']` (score_predictor.py:157-168), arrays written as lists by
`json_decodable` (Verif/Util). -/
def histTree (se : StatsEnv V) (d : Metrics.HistDesc) : J V :=
  .dict (descItems se d.desc ++
    [("histogram", .list (d.histogram.map (fun x => .leaf (se.int x)))),
     ("histogram density", .list (d.density.map (fun x => .leaf (se.num x))))])

/-- The dictionary of `score_predictor_statistics` in the file (score_predictor.py:138-168). -/
def predictorTree (se : StatsEnv V) (r : Metrics.PredictorStats) : J V :=
  .dict [("n_samples", .leaf (se.nat r.nSamples)),
    ("score levels", .list (r.levels.map (fun x => .leaf (se.num (.fin x))))),
    ("mean absolute error", .dict [("mean", .leaf (se.num r.mae.1)), ("stdev", .leaf (se.num r.mae.2))]),
    ("mean squared error", .dict [("rmse", .leaf (se.num r.mse.1)), ("mean", .leaf (se.num r.mse.2.1)),
      ("stdev", .leaf (se.num r.mse.2.2))]),
    ("true", histTree se r.true_), ("predicted", histTree se r.predicted)]

/-- The dictionary of `item_finder_statistics` in the file (item_finder.py:140-155). -/
def finderTree (se : StatsEnv V) (r : Metrics.FinderStats) : J V :=
  .dict ([("n_samples", .leaf (se.nat r.nSamples)), ("true", .dict (descItems se r.true_)),
    ("predicted", .dict (descItems se r.predicted))] ++
    (match r.auc with
     | none => []
     | some a => [("area under the curve", .leaf (se.num (.fin a)))]))

/-- `del j[k]`. -/
def J.delItem (j : J V) (k : String) : Res (J V) :=
  match j with
  | .dict d => if k ∈ Dict.keys d then .ok (.dict (d.filter (fun p => decide (p.1 ≠ k)))) else .error .keyError
  | _ => .error .typeError

/-- The statistics of a file (stats_recsys.py:108-122). -/
noncomputable def statsOf (se : StatsEnv V) (info : J V) : Res (J V) := do
  -- stats_recsys.py:108-113
  let (t, p) ← statsInput info
  let task ← info.item2 "model" "task_type"
  let name : Option String := match task with
    | .leaf v => se.text v
    | _ => none
  -- stats_recsys.py:116-118
  if name = some "score_predictor" then do
    let dom ← readDomain se (← info.item2 "condition" "score_domain")
    let t ← readFloats se t
    let p ← readFloats se p
    let r ← Metrics.scorePredictorStatistics t p dom
    return predictorTree se r
  -- stats_recsys.py:119-120
  else if name = some "item_finder" then do
    let t ← readFloats se t
    let p ← readFloats se p
    let r ← Metrics.itemFinderStatistics se.auc t p
    return finderTree se r
  else .error .typeError

/-- `do_task` of stats_recsys.py:91-138: the content of the output file. -/
noncomputable def stats (se : StatsEnv V) (keepdata : Bool) (info : J V) : Res (J V) := do
  let st ← statsOf se info
  -- stats_recsys.py:123-124
  let info ← info.setItem "statistics" st
  -- stats_recsys.py:127-128
  if keepdata then return info else info.delItem "prediction"

end Kam.Scripts
