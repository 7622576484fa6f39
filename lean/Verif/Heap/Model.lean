/-
Containers and recommenders as Python objects whose attributes refer to shared mutable arrays.

An object holds addresses of arrays.  An item assignment (`self.eid[otype] = ...`) stores into the
array at the address held by the object and is seen by every object that holds the same address; an
assignment to an attribute (`self.event = ...`) replaces the address held by one object.  The values
computed in each round of a loop are those of Verif/Data and Verif/Score; this file adds where they
are stored.  Arrays inside the object arrays (`eid[otype]`, `iid[otype]`, `feature[otype]`) and
`event_otypes` are never assigned into by the code after they have been built and are values.
-/
import Verif.Rec.Model

namespace Kam.Heap

/-- The arrays, by kind; the address of an array is its position. -/
structure Arrays (K α φ ε : Type) where
  /-- `n_objects` arrays -/
  ints : List (List Nat)
  /-- `eid` object arrays -/
  eids : List (List (Option (List α)))
  /-- `iid` object arrays -/
  iids : List (List (Option (Dict α Nat)))
  /-- `feature` object arrays -/
  feats : List (List (Option (List φ)))
  /-- `event` arrays -/
  evs : List (List (List Int))
  /-- `event_feature` arrays -/
  efs : List (List ε)
  /-- `score` and `score_domain` arrays -/
  nums : List (List K)

/-- The array at an address (objects only hold addresses of existing arrays). -/
def cell {β : Type} (l : List (List β)) (a : Nat) : List β := (l[a]?).getD []

/-- An `EventWithScoreData` object (data/base.py:214-227, data/event.py:177-195,
data/event_with_score.py:123-128); `nObjects`, `eid`, `iid`, `feature`, `event`, `eventFeature`,
`score`, `scoreDomain` are addresses. -/
structure Obj where
  nOtypes : Nat
  sEvent : Nat
  eventOtypes : List Nat
  nEvents : Nat
  nObjects : Nat
  eid : Nat
  iid : Nat
  feature : Nat
  event : Option Nat
  eventFeature : Option Nat
  score : Option Nat
  scoreDomain : Option Nat
  nScoreLevels : Option Int

variable {K α φ ε γ θ V : Type}

/-- What a container reports: the values of its attributes. -/
def Obj.val (h : Arrays K α φ ε) (o : Obj) : ScoreData K α φ ε :=
  { nOtypes := o.nOtypes, nObjects := cell h.ints o.nObjects, eid := cell h.eids o.eid
    iid := cell h.iids o.iid, feature := cell h.feats o.feature, sEvent := o.sEvent
    eventOtypes := o.eventOtypes, nEvents := o.nEvents, event := o.event.map (cell h.evs)
    eventFeature := o.eventFeature.map (cell h.efs), scoreDomain := o.scoreDomain.map (cell h.nums)
    score := o.score.map (cell h.nums), nScoreLevels := o.nScoreLevels }

/-- A heap and one object of it. -/
abbrev St (K α φ ε : Type) := Arrays K α φ ε × Obj

/-- `__init__`: four new arrays (data/base.py:224-227). -/
def create [LinearOrder α] (h : Arrays K α φ ε) (nOtypes : Int) (arg : OtypesArg) : Res (St K α φ ε) := do
  let d : ScoreData K α φ ε ← ScoreData.init nOtypes arg
  return ({ h with ints := h.ints ++ [d.nObjects], eids := h.eids ++ [d.eid], iids := h.iids ++ [d.iid]
                   feats := h.feats ++ [d.feature] },
    { nOtypes := d.nOtypes, sEvent := d.sEvent, eventOtypes := d.eventOtypes, nEvents := d.nEvents
      nObjects := h.ints.length, eid := h.eids.length, iid := h.iids.length, feature := h.feats.length
      event := none, eventFeature := none, score := none, scoreDomain := none, nScoreLevels := none })

/-- The item assignments `self.n_objects[otype], self.eid[otype], self.iid[otype] = ...`
(data/event.py:209, 273-275). -/
def storeObjects (h : Arrays K α φ ε) (o : Obj) (d : EventData α φ ε) : Arrays K α φ ε :=
  { h with ints := h.ints.set o.nObjects d.nObjects, eids := h.eids.set o.eid d.eid
           iids := h.iids.set o.iid d.iid }

/-- The item assignment `self.feature[otype] = ...` (data/base.py:247, data/event.py:277). -/
def storeFeature (h : Arrays K α φ ε) (o : Obj) (d : EventData α φ ε) : Arrays K α φ ε :=
  { h with feats := h.feats.set o.feature d.feature }

/-- The item assignment `self.event[:, e] = ...` (data/event.py:215, 269-270). -/
def storeEvent (h : Arrays K α φ ε) (o : Obj) (d : EventData α φ ε) : Arrays K α φ ε :=
  match o.event, d.event with
  | some a, some rows => { h with evs := h.evs.set a rows }
  | _, _ => h

/-- `self.event = <new array>` (data/event.py:212, 252). -/
def bindEvent (h : Arrays K α φ ε) (o : Obj) (rows : List (List Int)) : St K α φ ε :=
  ({ h with evs := h.evs ++ [rows] }, { o with event := some h.evs.length })

/-- `self.event_feature = <new array>` or `None` (data/event.py:218-221, 281). -/
def bindEventFeature (h : Arrays K α φ ε) (o : Obj) (f : Option (List ε)) : St K α φ ε :=
  match f with
  | some f => ({ h with efs := h.efs ++ [f] }, { o with eventFeature := some h.efs.length })
  | none => (h, { o with eventFeature := none })

/-- `self.score = <new array>` (data/event_with_score.py:150, 204, 235). -/
def bindScore (h : Arrays K α φ ε) (o : Obj) (s : List K) : St K α φ ε :=
  ({ h with nums := h.nums ++ [s] }, { o with score := some h.nums.length })

/-- `self.score_domain = <new array>` (data/event_with_score.py:156, 205).  `np.asanyarray` returns an
array passed by the caller itself; no method of the package assigns into it.  Assignments by the caller
are modelled in Verif/Heap/Caller. -/
def bindDomain (h : Arrays K α φ ε) (o : Obj) (s : List K) : St K α φ ε :=
  ({ h with nums := h.nums ++ [s] }, { o with scoreDomain := some h.nums.length })

section
variable [LinearOrder α]

/-- A round of the first loop of `set_event` (data/event.py:208-210). -/
def roundObjects (event : Arr2 α) (s : St K α φ ε) (otype : Nat) : Mut (St K α φ ε) (St K α φ ε) :=
  match EventData.setEventObjects event (s.2.val s.1).toEventData otype with
  | .error (e, _) => .error (e, s)
  | .ok d => .ok (storeObjects s.1 s.2 d, s.2)

/-- A round of the second loop of `set_event` (data/event.py:213-215). -/
def roundColumn (event : Arr2 α) (s : St K α φ ε) (e : Nat) : Mut (St K α φ ε) (St K α φ ε) :=
  match EventData.setEventColumn event (s.2.val s.1).toEventData e with
  | .error (x, _) => .error (x, s)
  | .ok d => .ok (storeEvent s.1 s.2 d, s.2)

/-- `EventData.set_event` (data/event.py:197-221). -/
def setEventBase (s : St K α φ ε) (event : Arr2 α) (ef : Option (List ε)) :
    Mut (St K α φ ε) (St K α φ ε) := do
  -- data/event.py:208-210
  let s ← (List.range s.2.nOtypes).foldlM (roundObjects event) s
  -- data/event.py:212
  let s := bindEvent s.1 s.2 (event.rows.map (fun r => r.map (fun _ => (0 : Int))))
  -- data/event.py:213-215
  let s ← (List.range s.2.sEvent).foldlM (roundColumn event) s
  -- data/event.py:217-221
  .ok (bindEventFeature s.1 { s.2 with nEvents := event.rows.length } ef)

variable [Field K] [LinearOrder K] [IsStrictOrderedRing K] [FloorRing K]

/-- `EventWithScoreData.set_event` (data/event_with_score.py:130-158). -/
def setEvent (s : St K α φ ε) (event : Arr2 α) (score : List K) (dom : Option (List K))
    (ef : Option (List ε)) : Mut (St K α φ ε) (St K α φ ε) :=
  -- data/event_with_score.py:148
  match setEventBase s event ef with
  | .error e => .error e
  | .ok s =>
    -- data/event_with_score.py:150
    let s := bindScore s.1 s.2 score
    -- data/event_with_score.py:151-155
    match ScoreData.resolveDomain score dom with
    | .error e => .error (e, s)
    | .ok dm =>
      -- data/event_with_score.py:156
      let s := bindDomain s.1 s.2 dm
      -- data/event_with_score.py:157-158
      match ScoreData.levelsOfDomain dm with
      | .error e => .error (e, s)
      | .ok n => .ok (s.1, { s.2 with nScoreLevels := some n })

omit [Field K] [LinearOrder K] [IsStrictOrderedRing K] [FloorRing K] in
/-- `set_feature` (data/base.py:229-247). -/
def setFeature (s : St K α φ ε) (otype : Nat) (eids : List α) (feature : List φ) : Res (St K α φ ε) := do
  let d ← (s.2.val s.1).toEventData.setFeature otype eids feature
  return (storeFeature s.1 s.2 d, s.2)

omit [FloorRing K] [IsStrictOrderedRing K] in
/-- `binarize_score` (data/event_with_score.py:185-206). -/
def binarizeScore (s : St K α φ ε) (thresh : Option K) : Res (St K α φ ε) := do
  let d ← (s.2.val s.1).binarizeScore thresh
  let s := (match d.score with | some xs => bindScore s.1 s.2 xs | none => s)
  let s := (match d.scoreDomain with | some xs => bindDomain s.1 s.2 xs | none => s)
  return (s.1, { s.2 with nScoreLevels := d.nScoreLevels })

omit [Field K] [LinearOrder K] [IsStrictOrderedRing K] [FloorRing K] in
/-- A round of the loop of `filter_event` (data/event.py:262-277): `self` is the source, `s.2` the copy. -/
def roundFilter (self : Obj) (s : St K α φ ε) (otype : Nat) : Res (St K α φ ε) := do
  let d ← EventData.filterOtype (self.val s.1).toEventData (s.2.val s.1).toEventData otype
  let h := storeEvent s.1 s.2 d
  let h := storeObjects h s.2 d
  return (storeFeature h s.2 d, s.2)

/-- The copies of the object arrays (data/event.py:256-259). -/
def copyArrays (h : Arrays K α φ ε) (o : Obj) : St K α φ ε :=
  ({ h with ints := h.ints ++ [cell h.ints o.nObjects], eids := h.eids ++ [cell h.eids o.eid]
            iids := h.iids ++ [cell h.iids o.iid], feats := h.feats ++ [cell h.feats o.feature] },
    { o with nObjects := h.ints.length, eid := h.eids.length, iid := h.iids.length
             feature := h.feats.length })

omit [Field K] [LinearOrder K] [IsStrictOrderedRing K] [FloorRing K] in
/-- `filter_event` of both classes (data/event.py:223-283, data/event_with_score.py:208-237). -/
def filterEvent (h : Arrays K α φ ε) (self : Obj) (cond : Sel) : Res (Option (St K α φ ε)) :=
  match self.event with
  | none => .ok none
  | some a => do
    -- data/event.py:246-253: `data = copy(self)` holds the same addresses
    let rows ← cond.apply (cell h.evs a)
    let s := bindEvent h self rows
    let s := (s.1, { s.2 with nEvents := rows.length })
    -- data/event.py:256-259
    let s := copyArrays s.1 s.2
    -- data/event.py:262-277
    let s ← (List.range s.2.nOtypes).foldlM (roundFilter self) s
    -- data/event.py:280-281
    let s ← (match self.eventFeature with
      | some b => do
        let f ← cond.apply (cell s.1.efs b)
        return bindEventFeature s.1 s.2 (some f)
      | none => .ok s)
    -- data/event_with_score.py:234-235
    match self.score with
    | some b => do
      let xs ← cond.apply (cell s.1.nums b)
      return some (bindScore s.1 s.2 xs)
    | none => return some s

end

/-! ### recommenders -/

/-- A recommender object: as `Rec`, with the attributes it shares with containers as addresses
(`none` before the first fit). -/
structure RObj (γ θ V : Type) where
  nOtypes : Nat
  sEvent : Nat
  eventOtypes : List Nat
  nEvents : Nat
  nObjects : Option Nat
  eid : Option Nat
  iid : Option Nat
  event : Option Nat
  eventFeature : Option Nat
  score : Option Nat
  scoreDomain : Option Nat
  nScoreLevels : Option Int
  eventIndex : Option (List Int)
  seed : Option Int
  rng : Option γ
  params : Option θ
  fitResults : Dict String V

/-- The values of the attributes of a recommender. -/
def RObj.val (h : Arrays K α φ ε) (r : RObj γ θ V) : Rec K α φ ε γ θ V :=
  { info := { nOtypes := r.nOtypes, nObjects := (r.nObjects.map (cell h.ints)).getD []
              eid := (r.eid.map (cell h.eids)).getD [], iid := (r.iid.map (cell h.iids)).getD []
              feature := [], sEvent := r.sEvent, eventOtypes := r.eventOtypes, nEvents := r.nEvents
              event := r.event.map (cell h.evs), eventFeature := r.eventFeature.map (cell h.efs) }
    eventIndex := r.eventIndex, score := r.score.map (cell h.nums)
    scoreDomain := r.scoreDomain.map (cell h.nums), nScoreLevels := r.nScoreLevels, seed := r.seed
    rng := r.rng, params := r.params, fitResults := r.fitResults }

/-- A heap and one recommender. -/
abbrev RSt (K α φ ε γ θ V : Type) := Arrays K α φ ε × RObj γ θ V

/-- `__init__` (base/base.py:76-86, 152-161). -/
def newRec (seed : Option Int) (results : Dict String V) : RObj γ θ V :=
  { nOtypes := 0, sEvent := 0, eventOtypes := [], nEvents := 0, nObjects := none, eid := none
    iid := none, event := none, eventFeature := none, score := none, scoreDomain := none
    nScoreLevels := none, eventIndex := none, seed := seed, rng := none, params := none
    fitResults := results }

/-- `BaseEventRecommender.fit` (base/base.py:88-102, 193-217) on the container `o`. -/
def eventFit (mk : Int → γ) (env : γ) (s : RSt K α φ ε γ θ V) (o : Obj) (idx : Option (List Int)) :
    Mut (RSt K α φ ε γ θ V) (RSt K α φ ε γ θ V) :=
  let h := s.1
  let r := s.2
  -- base/base.py:99-102 with data/base.py:66-69
  let r := { r with rng := some (match r.seed with | some s => mk s | none => env)
                    nOtypes := o.nOtypes, nObjects := some o.nObjects, eid := some o.eid
                    iid := some o.iid }
  -- base/base.py:208 with data/event.py:136-140
  let r := { r with sEvent := o.sEvent, eventOtypes := o.eventOtypes, nEvents := o.nEvents
                    event := o.event, eventFeature := o.eventFeature }
  -- base/base.py:209-212
  let ix := (match idx with
    | none => (List.range r.sEvent).map Int.ofNat
    | some ix => ix)
  let r := { r with eventIndex := some ix }
  -- base/base.py:215
  match r.event with
  | none => .error (.attributeError, (h, r))
  | some a =>
    match (cell h.evs a).mapM (fun row => npTake row ix) with
    | .error e => .error (e, (h, r))
    | .ok ev =>
      let r := { r with event := some h.evs.length }
      let h := { h with evs := h.evs ++ [ev] }
      -- base/base.py:216
      match npTake (cell h.ints o.nObjects) (r.eventOtypes.map Int.ofNat) with
      | .error e => .error (e, (h, r))
      | .ok ns =>
        let r := { r with nObjects := some h.ints.length }
        let h := { h with ints := h.ints ++ [ns] }
        -- base/base.py:217
        match npTake ns ix with
        | .error e => .error (e, (h, r))
        | .ok ns =>
          .ok ({ h with ints := h.ints ++ [ns] }, { r with nObjects := some h.ints.length })

/-- `_set_score_info` (data/event_with_score.py:49-68): the recommender holds the arrays of the
container. -/
def setScoreInfo (s : RSt K α φ ε γ θ V) (o : Obj) : RSt K α φ ε γ θ V :=
  (s.1, { s.2 with scoreDomain := o.scoreDomain, score := o.score, nScoreLevels := o.nScoreLevels })

/-- The families of recommenders. -/
inductive Family where
  | predictor
  | explicit
  | implicit

/-- `fit` of the base class of a family (score_predictor/base.py:101-116, item_finder/base.py:102-131,
base/base.py:193-217). -/
def superFit [Field K] [LinearOrder K] [LinearOrder α] (fam : Family) (mk : Int → γ) (env : γ)
    (s : RSt K α φ ε γ θ V) (o : Obj) (idx : Option (List Int)) :
    Mut (RSt K α φ ε γ θ V) (RSt K α φ ε γ θ V) :=
  match eventFit mk env s o idx with
  | .error e => .error e
  | .ok s =>
    match fam with
    | .predictor => .ok (setScoreInfo s o)
    | .explicit =>
      if acceptsBinary (o.val s.1) then .ok (setScoreInfo s o) else .error (.valueError, s)
    | .implicit => .ok s

/-- `remove_data` (base/base.py:104-108, 184-191). -/
def removeData (r : RObj γ θ V) : RObj γ θ V :=
  { r with rng := none, event := none, eventFeature := none, score := none }

/-- The rest of `fit` of a concrete model (see `Rec.finish`). -/
def finish (L : Learner K γ θ V) (s : RSt K α φ ε γ θ V) :
    Mut (RSt K α φ ε γ θ V) (RSt K α φ ε γ θ V) :=
  match L.train (s.2.val s.1).view with
  | .error e => .error (e, s)
  | .ok (θ, results) => .ok (s.1, removeData { s.2 with
      params := some θ
      fitResults := results.foldl (fun d kv => d.set kv.1 kv.2) s.2.fitResults })

/-- `fit` of a concrete model. -/
def fit [Field K] [LinearOrder K] [LinearOrder α] (fam : Family) (L : Learner K γ θ V) (mk : Int → γ)
    (env : γ) (s : RSt K α φ ε γ θ V) (o : Obj) (idx : Option (List Int)) :
    Mut (RSt K α φ ε γ θ V) (RSt K α φ ε γ θ V) :=
  match superFit fam mk env s o idx with
  | .error e => .error e
  | .ok s => finish L s

/-! ### programs -/

/-- All containers and recommenders of a program. -/
structure World (K α φ ε γ θ V : Type) where
  heap : Arrays K α φ ε
  objs : List Obj
  recs : List (RObj γ θ V)

/-- The calls a program can make; containers and recommenders are numbered by creation. -/
inductive Op (K α φ ε γ θ V : Type) where
  | new (nOtypes : Int) (arg : OtypesArg)
  | setEvent (i : Nat) (event : Arr2 α) (score : List K) (dom : Option (List K)) (ef : Option (List ε))
  | setFeature (i : Nat) (otype : Nat) (eids : List α) (feature : List φ)
  | binarize (i : Nat) (thresh : Option K)
  | filter (i : Nat) (cond : Sel)
  | newRec (seed : Option Int) (results : Dict String V)
  | fit (fam : Family) (L : Learner K γ θ V) (env : γ) (j i : Nat) (idx : Option (List Int))
  | removeData (j : Nat)

section
variable [LinearOrder α] [Field K] [LinearOrder K] [IsStrictOrderedRing K] [FloorRing K]

/-- One call.  An exception leaves the objects in the state reached and is handled by the caller; a call
on an object that does not exist does nothing. -/
def step (mk : Int → γ) (w : World K α φ ε γ θ V) (op : Op K α φ ε γ θ V) : World K α φ ε γ θ V :=
  match op with
  | .new n arg =>
    match create w.heap n arg with
    | .error _ => w
    | .ok (h, o) => { w with heap := h, objs := w.objs ++ [o] }
  | .setEvent i event score dom ef =>
    match w.objs[i]? with
    | none => w
    | some o =>
      match setEvent (w.heap, o) event score dom ef with
      | .error (_, h, o) => { w with heap := h, objs := w.objs.set i o }
      | .ok (h, o) => { w with heap := h, objs := w.objs.set i o }
  | .setFeature i otype eids feature =>
    match w.objs[i]? with
    | none => w
    | some o =>
      match setFeature (w.heap, o) otype eids feature with
      | .error _ => w
      | .ok (h, o) => { w with heap := h, objs := w.objs.set i o }
  | .binarize i thresh =>
    match w.objs[i]? with
    | none => w
    | some o =>
      match binarizeScore (w.heap, o) thresh with
      | .error _ => w
      | .ok (h, o) => { w with heap := h, objs := w.objs.set i o }
  | .filter i cond =>
    match w.objs[i]? with
    | none => w
    | some o =>
      match filterEvent w.heap o cond with
      | .ok (some (h, o')) => { w with heap := h, objs := w.objs ++ [o'] }
      | _ => w
  | .newRec seed results => { w with recs := w.recs ++ [newRec seed results] }
  | .fit fam L env j i idx =>
    match w.recs[j]?, w.objs[i]? with
    | some r, some o =>
      match fit fam L mk env (w.heap, r) o idx with
      | .error (_, h, r) => { w with heap := h, recs := w.recs.set j r }
      | .ok (h, r) => { w with heap := h, recs := w.recs.set j r }
    | _, _ => w
  | .removeData j =>
    match w.recs[j]? with
    | none => w
    | some r => { w with recs := w.recs.set j (removeData r) }

/-- A program: a sequence of calls. -/
def run (mk : Int → γ) (w : World K α φ ε γ θ V) (ops : List (Op K α φ ε γ θ V)) : World K α φ ε γ θ V :=
  ops.foldl (step mk) w

/-- The start of a program. -/
def World.empty : World K α φ ε γ θ V := ⟨⟨[], [], [], [], [], [], []⟩, [], []⟩

end
end Kam.Heap
