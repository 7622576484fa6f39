/-
Model of the recommender base classes: kamrecsys/base/base.py, kamrecsys/item_finder/base.py,
kamrecsys/score_predictor/base.py and the mixins `_set_object_info` (data/base.py:49-69),
`_set_event_info` (data/event.py:119-140) and `_set_score_info` (data/event_with_score.py:49-68).
Values only: the aliasing of arrays between data and recommender is modelled in Verif/Heap.
-/
import Verif.Score.Model

namespace Kam

/-- Result of `np.squeeze` on the 1-d vector of raw predictions. -/
inductive Pred (K : Type) where
  | scalar (x : K)
  | vec (xs : List K)

/-- `np.squeeze` of a 1-d array: an axis of length one is dropped. -/
def squeeze {K : Type} : List K → Pred K
  | [x] => .scalar x
  | xs => .vec xs

/-- State of a recommender.
`info` holds the attributes shared with data containers through the mixins (base/base.py:76-80,
155-159; a recommender has no `feature`, that field is unused), `eventIndex` is `event_index`
(base/base.py:161), `score`, `scoreDomain`, `nScoreLevels` the score attributes
(score_predictor/base.py:77-79, item_finder/base.py:78-80), `seed` an integer `random_state`
(`none`: any other random state), `rng` is `_rng`, `params` the learned parameters (`mu_, bu_, ...`
or `pZ_, ...`; `none` before the first fit) and `fitResults` is `fit_results_`. -/
structure Rec (K α φ ε γ θ V : Type) where
  info : EventData α φ ε
  eventIndex : Option (List Int)
  score : Option (List K)
  scoreDomain : Option (List K)
  nScoreLevels : Option Int
  seed : Option Int
  rng : Option γ
  params : Option θ
  fitResults : Dict String V

/-- What the training code of a concrete model reads from `self` and `data`: see
score_predictor/matrix_factorization.py:330-331, item_finder/matrix_factorization.py:338-339,
695, score_predictor/topic_model.py:242-247. -/
structure View (K γ : Type) where
  event : List (List Int)
  nObjects : List Nat
  eventOtypes : List Nat
  eventIndex : List Int
  nEvents : Nat
  score : Option (List K)
  scoreDomain : Option (List K)
  nScoreLevels : Option Int
  rng : Option γ

/-- The part of a recommender that its concrete class supplies: training (everything in `fit`
after the call of the super class, returning the learned parameters and the entries assigned to
`fit_results_` in order) and `raw_predict`. -/
structure Learner (K γ θ V : Type) where
  train : View K γ → Res (θ × List (String × V))
  rawPredict : θ → List (List Int) → Res (List K)

variable {K : Type} {α φ ε γ θ V : Type} [LinearOrder α]

namespace Rec

/-- `BaseEventRecommender.__init__` and its super class (base/base.py:76-86, 152-161) with the
`fit_results_` of the concrete class. -/
def init (seed : Option Int) (results : Dict String V) : Rec K α φ ε γ θ V :=
  { info := { nOtypes := 0, nObjects := [], eid := [], iid := [], feature := [], sEvent := 0,
              eventOtypes := [], nEvents := 0, event := none, eventFeature := none }
    eventIndex := none, score := none, scoreDomain := none, nScoreLevels := none
    seed := seed, rng := none, params := none, fitResults := results }

/-- `BaseRecommender.fit` (base/base.py:88-102): `check_random_state` builds a generator from an
integer seed (`mk`); otherwise the generator is whatever the environment provides (`env`). -/
def baseFit (mk : Int → γ) (env : γ) (r : Rec K α φ ε γ θ V) (d : EventData α φ ε) :
    Rec K α φ ε γ θ V :=
  { r with
    rng := some (match r.seed with | some s => mk s | none => env)
    info := { r.info with
      nOtypes := d.nOtypes, nObjects := d.nObjects, eid := d.eid, iid := d.iid } }

/-- `BaseEventRecommender.fit` (base/base.py:193-217).  An array that is `None` has no `take`. -/
def eventFit (mk : Int → γ) (env : γ) (r : Rec K α φ ε γ θ V) (d : EventData α φ ε)
    (idx : Option (List Int)) : Mut (Rec K α φ ε γ θ V) (Rec K α φ ε γ θ V) :=
  -- base/base.py:205
  let r := baseFit mk env r d
  -- base/base.py:208
  let r := { r with info := { r.info with
    sEvent := d.sEvent, eventOtypes := d.eventOtypes, nEvents := d.nEvents
    event := d.event, eventFeature := d.eventFeature } }
  -- base/base.py:209-212
  let ix := (match idx with
    | none => (List.range r.info.sEvent).map Int.ofNat
    | some ix => ix)
  let r := { r with eventIndex := some ix }
  -- base/base.py:215
  match r.info.event with
  | none => .error (.attributeError, r)
  | some rows =>
    match rows.mapM (fun row => npTake row ix) with
    | .error e => .error (e, r)
    | .ok ev =>
      let r := { r with info := { r.info with event := some ev } }
      -- base/base.py:216
      match npTake r.info.nObjects (r.info.eventOtypes.map Int.ofNat) with
      | .error e => .error (e, r)
      | .ok ns =>
        let r := { r with info := { r.info with nObjects := ns } }
        -- base/base.py:217
        match npTake r.info.nObjects ix with
        | .error e => .error (e, r)
        | .ok ns => .ok { r with info := { r.info with nObjects := ns } }

/-- `_set_score_info` (data/event_with_score.py:49-68). -/
def setScoreInfo (r : Rec K α φ ε γ θ V) (d : ScoreData K α φ ε) : Rec K α φ ε γ θ V :=
  { r with scoreDomain := d.scoreDomain, score := d.score, nScoreLevels := d.nScoreLevels }

/-- `BaseScorePredictor.fit` (score_predictor/base.py:101-116). -/
def predictorSuperFit (mk : Int → γ) (env : γ) (r : Rec K α φ ε γ θ V) (d : ScoreData K α φ ε)
    (idx : Option (List Int)) : Mut (Rec K α φ ε γ θ V) (Rec K α φ ε γ θ V) :=
  match eventFit mk env r d.toEventData idx with
  | .error e => .error e
  | .ok r => .ok (setScoreInfo r d)

/-- `BaseExplicitItemFinder.fit` (item_finder/base.py:102-131). -/
def explicitSuperFit [Field K] [LinearOrder K] (mk : Int → γ) (env : γ) (r : Rec K α φ ε γ θ V)
    (d : ScoreData K α φ ε) (idx : Option (List Int)) :
    Mut (Rec K α φ ε γ θ V) (Rec K α φ ε γ θ V) :=
  match eventFit mk env r d.toEventData idx with
  | .error e => .error e
  | .ok r => if acceptsBinary d then .ok (setScoreInfo r d) else .error (.valueError, r)

/-- `remove_data` of the base classes (base/base.py:104-108, 184-191, item_finder/base.py:94-100,
score_predictor/base.py:93-99). -/
def removeData (r : Rec K α φ ε γ θ V) : Rec K α φ ε γ θ V :=
  { r with rng := none, info := { r.info with event := none, eventFeature := none },
           score := none }

/-- What training reads. -/
def view (r : Rec K α φ ε γ θ V) : View K γ :=
  { event := r.info.event.getD [], nObjects := r.info.nObjects, eventOtypes := r.info.eventOtypes
    eventIndex := r.eventIndex.getD [], nEvents := r.info.nEvents, score := r.score
    scoreDomain := r.scoreDomain, nScoreLevels := r.nScoreLevels, rng := r.rng }

/-- The rest of `fit` of a concrete model, common to PMF, LogisticPMF, ImplicitLogisticPMF and
MultinomialPLSA (score_predictor/matrix_factorization.py:330-386,
item_finder/matrix_factorization.py:338-394, 695-750, score_predictor/topic_model.py:242-320):
train, store parameters and results, drop the data.  Simplified: an exception inside training
leaves the learned parameters and results unassigned (the code may have assigned some). -/
def finish (L : Learner K γ θ V) (r : Rec K α φ ε γ θ V) :
    Mut (Rec K α φ ε γ θ V) (Rec K α φ ε γ θ V) :=
  match L.train r.view with
  | .error e => .error (e, r)
  | .ok (θ, results) => .ok (removeData { r with
      params := some θ
      fitResults := results.foldl (fun d kv => d.set kv.1 kv.2) r.fitResults })

/-- `fit` of a score predictor (`PMF`, `MultinomialPLSA`). -/
def fitPredictor (L : Learner K γ θ V) (mk : Int → γ) (env : γ) (r : Rec K α φ ε γ θ V)
    (d : ScoreData K α φ ε) (idx : Option (List Int)) :
    Mut (Rec K α φ ε γ θ V) (Rec K α φ ε γ θ V) :=
  match predictorSuperFit mk env r d idx with
  | .error e => .error e
  | .ok r => finish L r

/-- `fit` of an explicit item finder (`LogisticPMF`). -/
def fitExplicit [Field K] [LinearOrder K] (L : Learner K γ θ V) (mk : Int → γ) (env : γ)
    (r : Rec K α φ ε γ θ V) (d : ScoreData K α φ ε) (idx : Option (List Int)) :
    Mut (Rec K α φ ε γ θ V) (Rec K α φ ε γ θ V) :=
  match explicitSuperFit mk env r d idx with
  | .error e => .error e
  | .ok r => finish L r

/-- `fit` of an implicit item finder (`ImplicitLogisticPMF`). -/
def fitImplicit (L : Learner K γ θ V) (mk : Int → γ) (env : γ)
    (r : Rec K α φ ε γ θ V) (d : EventData α φ ε) (idx : Option (List Int)) :
    Mut (Rec K α φ ε γ θ V) (Rec K α φ ε γ θ V) :=
  match eventFit mk env r d idx with
  | .error e => .error e
  | .ok r => finish L r

/-- `np.atleast_2d` followed by `check_array` (base/base.py:251): one row is a batch of one;
arrays of more than two dimensions, without rows or without columns raise `ValueError`.
The cast to `int` is the identity on the (integer) ids considered here. -/
def checkArray {β : Type} (eev : ArrN β) : Res (Arr2 β) := do
  let a ← (match eev with
    | .vec xs => .ok ⟨xs.length, [xs]⟩
    | .mat a => .ok a
    | .other => .error .valueError)
  if a.rows.isEmpty || a.ncols == 0 then .error .valueError else return a

/-- `predict` (base/base.py:236-253).  Before `fit` the index is `None`; the resulting 3-d array
makes `to_iid_event` fail with `TypeError`. -/
def predict (L : Learner K γ θ V) (r : Rec K α φ ε γ θ V) (eev : ArrN α) : Res (Pred K) := do
  let a ← checkArray eev
  match r.eventIndex with
  | none => .error .typeError
  | some ix =>
    let rows ← a.rows.mapM (fun row => npTake row ix)
    match ← r.info.toIidEvent (.mat ⟨ix.length, rows⟩) .none with
    | .mat b =>
      match r.params with
      | none => .error .typeError
      | some θ => return squeeze (← L.rawPredict θ b.rows)
    | _ => .error .typeError

end Rec

/-- `get_event_array` (item_finder/base.py:142-186) with its dense result: the matrix of the
number of occurrences of each pair (`coo_matrix` sums duplicates; ids outside the shape raise
`ValueError`).  `event` and `nObjects` are the attributes left by `BaseEventRecommender.fit`, to
which `event_index` is applied a second time (item_finder/base.py:168, 171-172). -/
def getEventArray (v : View K γ) : Res (List (List Nat) × List Nat) := do
  -- item_finder/base.py:168
  let ts ← npTake v.eventOtypes v.eventIndex
  let ns ← npTake v.nObjects (ts.map Int.ofNat)
  -- item_finder/base.py:171-172
  let c0 ← npGet v.eventIndex 0
  let c1 ← npGet v.eventIndex 1
  let users ← v.event.mapM (fun row => npGet row c0)
  let items ← v.event.mapM (fun row => npGet row c1)
  -- item_finder/base.py:176
  match ns with
  | [nu, ni] =>
    let pairs := users.zip items
    if pairs.all (fun p => decide (0 ≤ p.1 ∧ p.1 < nu ∧ 0 ≤ p.2 ∧ p.2 < ni)) then
      return ((List.range nu).map (fun (u : Nat) => (List.range ni).map (fun (i : Nat) =>
        pairs.countP (fun p => decide (p.1 = (u : Int) ∧ p.2 = (i : Int))))), ns)
    else .error .valueError
  | _ => .error .valueError

end Kam
