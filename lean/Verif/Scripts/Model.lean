/-
Model of the experiment scripts: scripts/exp_recsys_util.py, exp_recsys_sp.py, exp_recsys_if.py,
exp_recsys_fold_merge.py and stats_recsys.py.

The information dictionary `info` is represented by a record of what the scripts read and write, and
`render` is the tree written to the output file.  Arrays appear in it as the lists `json_decodable` makes
of them (Verif/Util).  Logging is left out, and the environment section is arbitrary (Verif/Exp/Machine models how
it is made).  Scripts hand trees to each other; that `json.dumps` followed by `json.load` returns the same tree is C125
(Verif/Json).
-/
import Verif.Rec.Model
import Verif.Split.Model

set_option linter.unusedSectionVars false

namespace Kam.Scripts

/-- The content of a result file; `V` are numbers, strings, booleans and `null`. -/
inductive J (V : Type) where
  | leaf (v : V)
  | list (items : List (J V))
  | dict (items : List (String × J V))

section tree
variable {V : Type}

/-- `j[k]` for a string `k`. -/
def J.item (j : J V) (k : String) : Res (J V) :=
  match j with
  | .dict d => Dict.getItem d k
  | _ => .error .typeError

/-- `j[k] = v` for a string `k`. -/
def J.setItem (j : J V) (k : String) (v : J V) : Res (J V) :=
  match j with
  | .dict d => .ok (.dict (Dict.set d k v))
  | _ => .error .typeError

/-- `d.update(e)`. -/
def update (d e : Dict String (J V)) : Dict String (J V) := e.foldl (fun d p => d.set p.1 p.2) d

/-- `for k in j` over a dictionary; the scripts iterate over dictionaries only. -/
def J.iter (j : J V) : Res (List String) :=
  match j with
  | .dict d => .ok (Dict.keys d)
  | _ => .error .typeError

end tree

variable {K α φ ε F V T γ M : Type} [Field K] [LinearOrder K] [IsStrictOrderedRing K] [FloorRing K] [LinearOrder α]

/-- What the scripts take from the outside.
`gen`: numpy's generators with state `γ`; `ofSeed`: the state after `seed(n)` and of `RandomState(n)`;
`entropy`: the state after `seed(None)`; the other fields write values and arrays as leaves of the output.
`names` and `field`: the event features, a structured array. -/
structure Env (K α ε F V T γ : Type) where
  gen : Split.Rng γ
  ofSeed : Int → Res γ
  entropy : γ
  id : α → V
  num : K → V
  nat : Nat → V
  int : Int → V
  bool : Bool → V
  file : Option F → V
  names : List String
  field : String → ε → V
  iso : T → V
  elapsed : T → T → V
  elapsedU : T → T → V

/-- A recommender class with its options other than `random_state`: `fit g data` learns from a container
with the generator `g` and gives the fitted recommender and its `fit_results_`; `predict` maps external
events to scores, a number instead of an array for one event (base/base.py:253). -/
structure Recommender (K α φ ε V γ M : Type) where
  fit : γ → ScoreData K α φ ε → Res (M × Dict String (J V) × γ)
  predict : M → List (List α) → Res (Pred K)

/-- The state of the process: numpy's global generator and the number of times the clock has been read. -/
structure Sys (γ : Type) where
  glob : γ
  ticks : Nat

/-- `rec.fit(data)` with `check_random_state(random_state)` (base/base.py:99): an integer makes a generator
of its own, `None` uses and advances the global one. -/
def fitWith (env : Env K α ε F V T γ) (rec : Recommender K α φ ε V γ M) (seed : Option Int) (glob : γ)
    (data : ScoreData K α φ ε) : Res (M × Dict String (J V) × γ) :=
  match seed with
  | some n => do
    let g ← env.ofSeed n
    let (m, res, _) ← rec.fit g data
    return (m, res, glob)
  | none => rec.fit glob data

/-- `training` (exp_recsys_util.py:58-100).  `clock i` is the `i`-th reading of `datetime.now()` and
`os.times()[0]`. -/
def training (env : Env K α ε F V T γ) (clock : Nat → T) (rec : Recommender K α φ ε V γ M) (seed : Option Int)
    (sys : Sys γ) (data : ScoreData K α φ ε) : Res (M × Dict String (J V) × Sys γ) := do
  -- exp_recsys_util.py:78-82
  let start := clock sys.ticks
  -- exp_recsys_util.py:85
  let (m, res, g) ← fitWith env rec seed sys.glob data
  -- exp_recsys_util.py:88-95
  let stop := clock (sys.ticks + 1)
  let info : Dict String (J V) :=
    [("start_time", .leaf (env.iso start)), ("end_time", .leaf (env.iso stop)),
     ("elapsed_time", .leaf (env.elapsed stop start)), ("elapsed_utime", .leaf (env.elapsedU stop start))]
  -- exp_recsys_util.py:98
  return (m, update info res, ⟨g, sys.ticks + 2⟩)

/-- `testing` (exp_recsys_util.py:103-147); `end_time` is the starting time (line 137). -/
def testing (env : Env K α ε F V T γ) (clock : Nat → T) (rec : Recommender K α φ ε V γ M) (m : M)
    (sys : Sys γ) (ev : List (List α)) : Res (Pred K × Dict String (J V) × Sys γ) := do
  -- exp_recsys_util.py:125-129
  let start := clock sys.ticks
  -- exp_recsys_util.py:132
  let esc ← rec.predict m ev
  -- exp_recsys_util.py:135-142
  let stop := clock (sys.ticks + 1)
  -- exp_recsys_util.py:137-145
  let info : Dict String (J V) :=
    [("start_time", .leaf (env.iso start)), ("end_time", .leaf (env.iso start)),
     ("elapsed_time", .leaf (env.elapsed stop start)), ("elapsed_utime", .leaf (env.elapsedU stop start)),
     ("n_events", .leaf (env.nat ev.length))]
  return (esc, info, ⟨sys.glob, sys.ticks + 2⟩)

/-- The part of `info` given on the command line (exp_recsys_sp.py / exp_recsys_if.py, `init_info`); the
remaining entries of the sections are arbitrary. -/
structure Setting (K F V : Type) where
  trainFile : F
  testFile : Option F
  scoreDomain : List K
  nFolds : Int
  cv : Bool
  seed : Option Int
  condition : Dict String (J V)
  environment : Dict String (J V)
  model : Dict String (J V)

/-- The sections `training` and `test` of the output. -/
structure Part (F V : Type) where
  file : Option F
  nEvents : Nat
  nUsers : Nat
  nItems : Nat
  results : Dict String (J V)

/-- `info` at the end of a run. -/
structure Report (F K V : Type) where
  condition : Dict String (J V)
  scoreDomain : List K
  nFolds : Int
  environment : Dict String (J V)
  training : Part F V
  test : Part F V
  model : Dict String (J V)
  prediction : Dict String (J V)

/-- An array of scores in the output. -/
def encScores (env : Env K α ε F V T γ) (xs : List K) : J V := .list (xs.map (fun x => .leaf (env.num x)))

/-- What `predict` returned, in the output: `json_decodable` turns an array without axes into a number
(utils/kamexputils.py:69-70). -/
def encPred (env : Env K α ε F V T γ) : Pred K → J V
  | .scalar x => .leaf (env.num x)
  | .vec xs => encScores env xs

/-- A two-dimensional array of ids in the output. -/
def encEvents (env : Env K α ε F V T γ) (rows : List (List α)) : J V :=
  .list (rows.map (fun r => .list (r.map (fun x => .leaf (env.id x)))))

/-- An array of positions in the output. -/
def encIndex (env : Env K α ε F V T γ) (ix : List Nat) : J V := .list (ix.map (fun i => .leaf (env.nat i)))

/-- The column `event_feature[k]` in the output. -/
def encFeature (env : Env K α ε F V T γ) (k : String) (rows : List ε) : J V :=
  .list (rows.map (fun e => .leaf (env.field k e)))

/-- A section of the output file. -/
def Part.render (env : Env K α ε F V T γ) (p : Part F V) : J V :=
  .dict [("file", .leaf (env.file p.file)), ("n_events", .leaf (env.nat p.nEvents)),
    ("n_users", .leaf (env.nat p.nUsers)), ("n_items", .leaf (env.nat p.nItems)), ("results", .dict p.results)]

/-- The tree written by `do_task` (exp_recsys_util.py:327-330); the order of the sections is that of
`init_info` (exp_recsys_sp.py:275-276). -/
def Report.render (env : Env K α ε F V T γ) (r : Report F K V) : J V :=
  .dict [("condition", .dict ((r.condition.set "score_domain" (encScores env r.scoreDomain)).set
            "n_folds" (.leaf (env.int r.nFolds)))),
    ("environment", .dict r.environment), ("training", r.training.render env), ("test", r.test.render env),
    ("model", .dict r.model), ("prediction", .dict r.prediction)]

/-- `load_data`: the container read from a file and the new `info['condition']['score_domain']`. -/
abbrev Loader (K α φ ε F : Type) := F → List K → Res (ScoreData K α φ ε × List K)

/-- `data.to_eid_event(data.event)` (exp_recsys_util.py:169, 197, 224). -/
def externalEvents (d : ScoreData K α φ ε) : Res (List (List α)) :=
  match d.event with
  | none => .error .typeError
  | some rows => do
    match ← d.toEventData.toEidEvent (.mat ⟨d.sEvent, rows⟩) with
    | .mat a => return a.rows
    | _ => .error .typeError

/-- `data.n_objects[data.event_otypes[e]]` (exp_recsys_util.py:173-176, 180-183, 228-229). -/
def objectsAt (d : ScoreData K α φ ε) (e : Nat) : Res Nat := do
  let t ← npGet d.eventOtypes e
  npGet d.nObjects t

/-- `holdout_test` (exp_recsys_util.py:150-203). -/
def holdoutTest (env : Env K α ε F V T γ) (clock : Nat → T) (rec : Recommender K α φ ε V γ M)
    (load : Loader K α φ ε F) (s : Setting K F V) (sys : Sys γ) : Res (Report F K V) := do
  -- exp_recsys_util.py:163
  let (train, dom) ← load s.trainFile s.scoreDomain
  -- exp_recsys_util.py:166-169
  let (test, dom) ← (match s.testFile with
    | none => .error .ioError
    | some f => load f dom)
  let testEv ← externalEvents test
  -- exp_recsys_util.py:172-185
  let trainUsers ← objectsAt train 0
  let trainItems ← objectsAt train 1
  let testUsers ← objectsAt test 0
  let testItems ← objectsAt test 1
  -- exp_recsys_util.py:188-190
  let (m, trainInfo, sys) ← training env clock rec s.seed sys train
  -- exp_recsys_util.py:193-194
  let (esc, testInfo, _) ← testing env clock rec m sys testEv
  -- exp_recsys_util.py:197-203
  let ev' ← externalEvents test
  let score ← (match test.score with
    | some xs => .ok xs
    | none => .error .typeError)
  let feature : Dict String (J V) := match test.eventFeature with
    | none => []
    | some rows => [("event_feature", .dict (env.names.map (fun k => (k, encFeature env k rows))))]
  return {
    condition := s.condition
    scoreDomain := dom
    nFolds := 1
    environment := s.environment
    training := ⟨some s.trainFile, train.nEvents, trainUsers, trainItems, [("0", .dict trainInfo)]⟩
    test := ⟨some s.trainFile, test.nEvents, testUsers, testItems, [("0", .dict testInfo)]⟩
    model := s.model
    prediction := [("event", encEvents env ev'), ("true", encScores env score),
      ("predicted", encPred env esc)] ++ feature }

/-- The dictionaries `cv_test` fills fold by fold (exp_recsys_util.py:237-245). -/
structure Acc (V : Type) where
  training : Dict String (J V)
  test : Dict String (J V)
  event : Dict String (J V)
  trues : Dict String (J V)
  predicted : Dict String (J V)
  mask : Dict String (J V)
  feature : Option (List (String × Dict String (J V)))

/-- One fold of `cv_test` (exp_recsys_util.py:257-273). -/
def cvFold (env : Env K α ε F V T γ) (clock : Nat → T) (rec : Recommender K α φ ε V γ M) (seed : Option Int)
    (data : ScoreData K α φ ε) (ev : List (List α)) (fold : Nat) (trainI testI : List Nat)
    (sys : Sys γ) (acc : Acc V) : Res (Acc V × Sys γ) := do
  let key := Nat.repr fold
  -- exp_recsys_util.py:257-260
  let train ← (do
    match ← data.filterEvent (.index (trainI.map Int.ofNat)) with
    | some d => .ok d
    | none => .error .attributeError)
  let (m, trainInfo, sys) ← training env clock rec seed sys train
  -- exp_recsys_util.py:264-269
  let testEv := gather ev testI
  let (esc, testInfo, sys) ← testing env clock rec m sys testEv
  let score ← (match data.score with
    | some xs => .ok xs
    | none => .error .typeError)
  let acc := { acc with
    training := acc.training.set key (.dict trainInfo)
    test := acc.test.set key (.dict testInfo)
    event := acc.event.set key (encEvents env (gather ev testI))
    trues := acc.trues.set key (encScores env (gather score testI))
    predicted := acc.predicted.set key (encPred env esc)
    mask := acc.mask.set key (encIndex env testI)
    -- exp_recsys_util.py:270-273
    feature := match data.eventFeature, acc.feature with
      | some rows, some fs => some (fs.map (fun p => (p.1, p.2.set key (encFeature env p.1 (gather rows testI)))))
      | _, fs => fs }
  return (acc, sys)

/-- `ShuffleSplitWithinGroups(n_splits=n_folds, test_size=0.2)` (exp_recsys_util.py:248). -/
def cvConfig (nFolds : Int) : Split.ShuffleConfig K := ⟨nFolds, .frac (1 / 5), .none, true⟩

/-- The loop of `cv_test` (exp_recsys_util.py:249-275), `n` folds to go.  The split of a fold is drawn from
the global generator when the loop asks for it (`random_state=None`). -/
def cvLoop (env : Env K α ε F V T γ) (clock : Nat → T) (rec : Recommender K α φ ε V γ M) (seed : Option Int)
    (cfg : Split.ShuffleConfig K) (data : ScoreData K α φ ε) (ev : List (List α)) (users : List α)
    (target : Option Int) : Nat → Nat → Sys γ → Acc V → Res (Acc V)
  | 0, _, _, acc => .ok acc
  | n + 1, fold, sys, acc => do
    let (mask, g) ← Split.shuffleMask env.gen cfg users sys.glob (List.replicate users.length false) (npUnique users)
    let sys : Sys γ := ⟨g, sys.ticks⟩
    let trainI := (List.range users.length).filter (fun i => !(mask.getD i false))
    let testI := (List.range users.length).filter (fun i => mask.getD i false)
    -- exp_recsys_util.py:251-253
    if target.any (fun t => (fold : Int) ≠ t) then
      cvLoop env clock rec seed cfg data ev users target n (fold + 1) sys acc
    else do
      let (acc, sys) ← cvFold env clock rec seed data ev fold trainI testI sys acc
      cvLoop env clock rec seed cfg data ev users target n (fold + 1) sys acc

/-- `cv_test` (exp_recsys_util.py:206-275). -/
def cvTest (env : Env K α ε F V T γ) (clock : Nat → T) (rec : Recommender K α φ ε V γ M)
    (load : Loader K α φ ε F) (s : Setting K F V) (target : Option Int) (sys : Sys γ) : Res (Report F K V) := do
  -- exp_recsys_util.py:222-224
  let (data, dom) ← load s.trainFile s.scoreDomain
  let ev ← externalEvents data
  -- exp_recsys_util.py:227-233
  let users ← objectsAt data 0
  let items ← objectsAt data 1
  -- exp_recsys_util.py:236-245
  let acc : Acc V := ⟨[], [], [], [], [], [],
    match data.eventFeature with
    | none => none
    | some _ => some (env.names.map (fun k => (k, [])))⟩
  -- exp_recsys_util.py:248-249
  let cfg := cvConfig s.nFolds
  let () ← Split.validateInit cfg.testSize cfg.trainSize
  let groups ← column ev 0
  let acc ← cvLoop env clock rec s.seed cfg data ev groups target s.nFolds.toNat 0 sys acc
  let feature : Dict String (J V) := match acc.feature with
    | none => []
    | some fs => [("event_feature", .dict (fs.map (fun p => (p.1, J.dict p.2))))]
  return {
    condition := s.condition
    scoreDomain := dom
    nFolds := s.nFolds
    environment := s.environment
    training := ⟨some s.trainFile, data.nEvents, users, items, acc.training⟩
    test := ⟨some s.trainFile, data.nEvents, users, items, acc.test⟩
    model := s.model
    prediction := [("event", .dict acc.event), ("true", .dict acc.trues), ("predicted", .dict acc.predicted),
      ("mask", .dict acc.mask)] ++ feature }

/-- `do_task` (exp_recsys_util.py:278-332): the content of the output file. -/
def doTask (env : Env K α ε F V T γ) (clock : Nat → T) (rec : Recommender K α φ ε V γ M)
    (load : Loader K α φ ε F) (s : Setting K F V) (target : Option Int) : Res (J V) := do
  -- exp_recsys_util.py:296
  let glob ← (match s.seed with
    | some n => env.ofSeed n
    | none => .ok env.entropy)
  -- exp_recsys_util.py:299-303
  if target.any (fun t => t < 0 ∨ s.nFolds ≤ t) then .error .typeError
  else do
    -- exp_recsys_util.py:319-324
    let r ← if s.cv then cvTest env clock rec load s target ⟨glob, 0⟩
      else holdoutTest env clock rec load s ⟨glob, 0⟩
    return r.render env

/-! ### Loading -/

/-- The arrays `np.genfromtxt` makes of a file (datasets/base.py:144; the file format is modelled in
Verif/Convert). -/
structure Table (K α ε : Type) where
  event : Arr2 α
  score : List K
  feature : Option (List ε)

/-- An exception without the object it was raised in. -/
def dropState {σ β : Type} (r : Mut σ β) : Res β :=
  match r with
  | .ok x => .ok x
  | .error (e, _) => .error e

/-- `load_event_with_score(fp, event_dtype=..., score_domain=...)` (datasets/base.py:146-155). -/
def loadEventWithScore (t : Table K α ε) (dom : Option (List K)) : Res (ScoreData K α φ ε) := do
  let d ← ScoreData.init 2 .none
  dropState (d.setEvent t.event t.score dom t.feature)

/-- `load_data` of exp_recsys_sp.py:132-163. -/
def loadDataSP (read : F → Res (Table K α ε)) : Loader K α φ ε F := fun f dom => do
  let table ← read f
  let d ← loadEventWithScore table (if dom.all (fun x => decide (x = 0)) then none else some dom)
  match d.scoreDomain with
  | some dm => return (d, dm)
  | none => .error .typeError

/-- `load_data` of exp_recsys_if.py:134-168. -/
def loadDataIF (read : F → Res (Table K α ε)) : Loader K α φ ε F := fun f dom => do
  let table ← read f
  let d ← loadEventWithScore table (if dom.all (fun x => decide (x = 0)) then none else some dom)
  match d.scoreDomain with
  | some dm => do
    let d' ← d.binarizeScore none
    return (d', dm)
  | none => .error .typeError

/-! ### Merging -/

/-- `first_fold` (exp_recsys_fold_merge.py:77-108); `true` is how the leaf `True` is written. -/
def firstFold (tru : V) (j : J V) : Res (J V) := do
  -- exp_recsys_fold_merge.py:96
  let cond ← j.item "condition"
  let cond ← cond.setItem "merged" (.leaf tru)
  let j ← j.setItem "condition" cond
  -- exp_recsys_fold_merge.py:99
  let results ← (← j.item "training").item "results"
  let fold ← (do
    match ← results.iter with
    | k :: _ => .ok k
    | [] => .error .stopIteration)
  -- exp_recsys_fold_merge.py:102-103
  let environment ← j.item "environment"
  let environment' ← environment.setItem "environment_fold" (.dict [(fold, environment)])
  j.setItem "environment" environment'

/-- `a[x][y]` -/
def J.item2 (j : J V) (x y : String) : Res (J V) := do (← j.item x).item y

/-- `a[x][y] = v` -/
def J.setItem2 (j : J V) (x y : String) (v : J V) : Res (J V) := do
  let s ← j.item x
  let s ← s.setItem y v
  j.setItem x s

/-- `a[x][y][z] = v` -/
def J.setItem3 (j : J V) (x y z : String) (v : J V) : Res (J V) := do
  let s ← j.item x
  let s ← s.setItem2 y z v
  j.setItem x s

/-- One round of the loop over the sections of the predictions (exp_recsys_fold_merge.py:135-142). -/
def mergeSub (info : J V) (fold : String) (cv : J V) (sub : String) : Res (J V) :=
  if sub = "event_feature" then do
    let ks ← (← cv.item2 "prediction" "event_feature").iter
    ks.foldlM (fun cv k => do
      let v ← (← (← info.item2 "prediction" "event_feature").item k).item fold
      let s ← cv.item "prediction"
      let s ← s.setItem3 "event_feature" k fold v
      cv.setItem "prediction" s) cv
  else do
    let v ← (← info.item2 "prediction" sub).item fold
    cv.setItem3 "prediction" sub fold v

/-- `rest_fold` (exp_recsys_fold_merge.py:111-145): `cv_info` afterwards. -/
def restFold (info : J V) (cv : J V) : Res (J V) := do
  -- exp_recsys_fold_merge.py:127
  let fold ← (do
    match ← (← info.item2 "training" "results").iter with
    | k :: _ => .ok k
    | [] => .error .stopIteration)
  -- exp_recsys_fold_merge.py:130
  let cv ← cv.setItem3 "environment" "environment_fold" fold (← info.item "environment")
  -- exp_recsys_fold_merge.py:133-134
  let cv ← cv.setItem3 "training" "results" fold (← (← info.item2 "training" "results").item fold)
  let cv ← cv.setItem3 "test" "results" fold (← (← info.item2 "test" "results").item fold)
  -- exp_recsys_fold_merge.py:135-142
  let subs ← (← cv.item "prediction").iter
  subs.foldlM (mergeSub info fold) cv

/-- `do_task` of exp_recsys_fold_merge.py:148-178: the content of the merged file; `out` is how the output
file is written. -/
def merge (tru : V) (out : V) (files : List (J V)) : Res (J V) :=
  match files with
  | [] => .error .indexError
  | f :: fs => do
    let cv ← firstFold tru f
    let cv ← fs.foldlM (fun cv info => restFold info cv) cv
    cv.setItem2 "condition" "out_file" (.leaf out)

/-! ### Statistics -/

/-- `np.concatenate(list(d.values()))` for a dictionary of lists: `ValueError` without a list, and for a number
among the lists (an array without axes). -/
def concatValues (d : Dict String (J V)) : Res (List (J V)) := do
  let parts ← d.mapM (fun p =>
    match p.2 with
    | .list l => (.ok l : Res (List (J V)))
    | _ => .error .valueError)
  if parts.isEmpty then .error .valueError else return parts.flatten

/-- `y_true` and `y_pred` of `do_task` (stats_recsys.py:108-113). -/
def statsInput (info : J V) : Res (List (J V) × List (J V)) := do
  let values : J V → Res (List (J V)) := fun j =>
    match j with
    | .dict d => concatValues d
    | _ => .error .attributeError
  let arr : J V → Res (List (J V)) := fun j =>
    match j with
    | .list l => .ok l
    | _ => .error .typeError
  match ← info.item2 "prediction" "event" with
  | .dict _ => do
    let t ← values (← info.item2 "prediction" "true")
    let p ← values (← info.item2 "prediction" "predicted")
    return (t, p)
  | _ => do
    let t ← arr (← info.item2 "prediction" "true")
    let p ← arr (← info.item2 "prediction" "predicted")
    return (t, p)

end Kam.Scripts
