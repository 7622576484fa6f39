/-
Model of `set_event` statement by statement, for calls that are interrupted (`KeyboardInterrupt`).
-/
import Verif.Score.Model

namespace Kam
namespace Load
variable {K α φ ε : Type} [LinearOrder α]

/-- The assignments of `EventData.set_event`, each to one attribute or to one item of an array (event.py:208-221). -/
inductive Stmt where
  | count (t : Nat)
  | externals (t : Nat)
  | internals (t : Nat)
  | array
  | column (e : Nat)
  | number
  | feature

/-- The assignments in their order: those to `n_objects[otype]`, `eid[otype]` and `iid[otype]` for each type (event.py:208-210; the targets
are assigned from left to right), `event` (event.py:212), its columns (event.py:213-215), `n_events` and `event_feature`
(event.py:217-221). -/
def program (d : EventData α φ ε) : List Stmt :=
  (List.range d.nOtypes).flatMap (fun t => [.count t, .externals t, .internals t]) ++
    (.array :: ((List.range d.sEvent).map .column ++ [.number, .feature]))

/-- One assignment.  `junk` is what is in the memory of the new array (event.py:212).  Simplified: what `_gen_id` returns is computed again
for each of the three assignments of a type. -/
def exec (event : Arr2 α) (ef : Option (List ε)) (junk : Nat → Nat → Int) (d : EventData α φ ε) :
    Stmt → Mut (EventData α φ ε) (EventData α φ ε)
  | .count t =>
    match d.otypeCols t event.ncols event.rows with
    | .error e => .error (e, d)
    | .ok sub => .ok { d with nObjects := d.nObjects.set t (EventData.genId sub).1 }
  | .externals t =>
    match d.otypeCols t event.ncols event.rows with
    | .error e => .error (e, d)
    | .ok sub => .ok { d with eid := d.eid.set t (some (EventData.genId sub).2.1) }
  | .internals t =>
    match d.otypeCols t event.ncols event.rows with
    | .error e => .error (e, d)
    | .ok sub => .ok { d with iid := d.iid.set t (some (EventData.genId sub).2.2) }
  | .array => .ok { d with event := some (event.rows.mapIdx (fun j _ => (List.range event.ncols).map (junk j))) }
  | .column e => EventData.setEventColumn event d e
  | .number => .ok { d with nEvents := (d.event.map List.length).getD 0 }
  | .feature => .ok { d with eventFeature := ef }

/-- The first `n` assignments of a call. -/
def run (event : Arr2 α) (ef : Option (List ε)) (junk : Nat → Nat → Int) (n : Nat) (d : EventData α φ ε) :
    Mut (EventData α φ ε) (EventData α φ ε) :=
  ((program d).take n).foldlM (exec event ef junk) d

variable [Field K] [LinearOrder K] [IsStrictOrderedRing K] [FloorRing K]

/-- The assignments of `EventWithScoreData.set_event` after those of the super class (event_with_score.py:150-158). -/
inductive ScoreStmt where
  | score
  | domain
  | levels

/-- One of these assignments.  Simplified: the estimated domain, a local variable, is computed again. -/
def execScore (score : List K) (dom : Option (List K)) (d : ScoreData K α φ ε) : ScoreStmt → Mut (ScoreData K α φ ε) (ScoreData K α φ ε)
  | .score => .ok { d with score := some score }
  | .domain =>
    match ScoreData.resolveDomain score dom with
    | .error e => .error (e, d)
    | .ok dm => .ok { d with scoreDomain := some dm }
  | .levels =>
    match ScoreData.resolveDomain score dom with
    | .error e => .error (e, d)
    | .ok dm =>
      match ScoreData.levelsOfDomain dm with
      | .error e => .error (e, d)
      | .ok n => .ok { d with nScoreLevels := some n }

/-- The first `n` assignments of a call of `EventWithScoreData.set_event` (event_with_score.py:130-158). -/
def runScore (event : Arr2 α) (score : List K) (dom : Option (List K)) (ef : Option (List ε)) (junk : Nat → Nat → Int) (n : Nat)
    (d : ScoreData K α φ ε) : Mut (ScoreData K α φ ε) (ScoreData K α φ ε) :=
  match run event ef junk n d.toEventData with
  | .error (e, b) => .error (e, { d with toEventData := b })
  | .ok b => ([ScoreStmt.score, .domain, .levels].take (n - (program d.toEventData).length)).foldlM (execScore score dom)
      { d with toEventData := b }

end Load
end Kam
