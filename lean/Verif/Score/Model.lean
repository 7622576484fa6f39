/-
Model of kamrecsys/data/event_with_score.py, the bin generation of kamrecsys/metrics/base.py,
`is_binary_score` of kamrecsys/utils/base.py and the acceptance test of
kamrecsys/item_finder/base.py.  Scores are elements of an ordered field (exact arithmetic).
-/
import Verif.Data.Model
import Mathlib.Algebra.Order.Floor.Ring
import Mathlib.Algebra.Order.Field.Basic
import Mathlib.Order.WithBot

namespace Kam

section
variable {K : Type} [Field K] [LinearOrder K] [IsStrictOrderedRing K] [FloorRing K]

/-- `np.min` of a 1-d array; `ValueError` when empty. -/
def npMin (xs : List K) : Res K :=
  match xs with
  | [] => .error .valueError
  | x :: xs => .ok (xs.foldl min x)

/-- `np.max` of a 1-d array; `ValueError` when empty. -/
def npMax (xs : List K) : Res K :=
  match xs with
  | [] => .error .valueError
  | x :: xs => .ok (xs.foldl max x)

/-- `np.diff` of a 1-d array. -/
def npDiff : List K → List K
  | x :: y :: xs => (y - x) :: npDiff (y :: xs)
  | _ => []

/-- Python's `int(q)`: truncation towards zero. -/
def pyInt (q : K) : Int := if 0 ≤ q then ⌊q⌋ else ⌈q⌉

/-- `np.arange(start, stop, step)` (exact arithmetic): `ceil((stop - start) / step)` entries, none
if that is not positive. A zero step raises. -/
def npArange (start stop step : K) : Res (List K) :=
  if step = 0 then .error .zeroDivisionError
  else .ok ((List.range ⌈(stop - start) / step⌉.toNat).map (fun (i : Nat) => start + (i : K) * step))

/-- A score or an infinite bin edge. -/
abbrev Ext (K : Type) := WithBot (WithTop K)

/-- `generate_score_bins(score_domain)` (metrics/base.py:45-64):
`hstack([-inf, arange(...) + score_domain[2] / 2, inf])`. -/
def generateScoreBins (dom : List K) : Res (List (Ext K)) := do
  let lo ← npGet dom 0
  let hi ← npGet dom 1
  let st ← npGet dom 2
  let bins ← npArange lo hi st
  return [⊥] ++ bins.map (fun b => (((b + st / 2 : K) : WithTop K) : Ext K)) ++ [((⊤ : WithTop K) : Ext K)]

/-- `np.digitize(xs, bins)` for one entry: bins must be monotone (`ValueError` otherwise); for
increasing bins the number of edges `<= x`, for decreasing ones the number of edges `> x`. -/
def npDigitize (bins : List (Ext K)) (xs : List K) : Res (List Int) :=
  if bins.Pairwise (· ≤ ·) then
    .ok (xs.map (fun (x : K) => (bins.countP (fun b => decide (b ≤ ((x : WithTop K) : Ext K))) : Int)))
  else if bins.Pairwise (· ≥ ·) then
    .ok (xs.map (fun (x : K) => (bins.countP (fun b => decide (((x : WithTop K) : Ext K) < b)) : Int)))
  else .error .valueError

/-- `np.linspace(lo, hi, n)`: `ValueError` for negative `n`. -/
def npLinspace (lo hi : K) (n : Int) : Res (List K) :=
  if n < 0 then .error .valueError
  else .ok ((List.range n.toNat).map (fun (i : Nat) =>
    if n = 1 then lo else lo + (i : K) * ((hi - lo) / ((n : K) - 1))))

/-- State of an `EventWithScoreData` container (event_with_score.py:96-128). -/
structure ScoreData (K α φ ε : Type) extends EventData α φ ε where
  scoreDomain : Option (List K)
  score : Option (List K)
  nScoreLevels : Option Int

variable {α φ ε : Type} [LinearOrder α]

namespace ScoreData

omit [Field K] [LinearOrder K] [IsStrictOrderedRing K] [FloorRing K] [LinearOrder α] in
/-- `EventWithScoreData.__init__` (event_with_score.py:123-128). -/
def init (nOtypes : Int) (arg : OtypesArg) : Res (ScoreData K α φ ε) := do
  let d ← EventData.init nOtypes arg
  return { d with scoreDomain := none, score := none, nScoreLevels := none }

/-- The domain used by `set_event`: given, or estimated (event_with_score.py:151-155). -/
def resolveDomain (score : List K) (dom : Option (List K)) : Res (List K) :=
  match dom with
  | some d => .ok d
  | none => do
    let lo ← npMin score
    let hi ← npMax score
    let st ← npMin (npDiff (npUnique score))
    return [lo, hi, st]

/-- `int((score_domain[1] - score_domain[0]) / score_domain[2]) + 1`
(event_with_score.py:157-158).  A zero stride raises; which exception depends on the number type
(`ZeroDivisionError` for Python numbers), modelled as `ZeroDivisionError`. -/
def levelsOfDomain (dom : List K) : Res Int := do
  let hi ← npGet dom 1
  let lo ← npGet dom 0
  let st ← npGet dom 2
  if st = 0 then .error .zeroDivisionError else return pyInt ((hi - lo) / st) + 1

/-- `set_event` (event_with_score.py:130-158).  The attributes are assigned one after another,
so an exception leaves the earlier assignments in place. -/
def setEvent (d : ScoreData K α φ ε) (event : Arr2 α) (score : List K) (dom : Option (List K))
    (ef : Option (List ε)) : Mut (ScoreData K α φ ε) (ScoreData K α φ ε) :=
  -- event_with_score.py:148
  match d.toEventData.setEvent event ef with
  | .error (e, b) => .error (e, { d with toEventData := b })
  | .ok b =>
    -- event_with_score.py:150
    let d := { d with toEventData := b, score := some score }
    -- event_with_score.py:151-155
    match resolveDomain score dom with
    | .error e => .error (e, d)
    | .ok dm =>
      -- event_with_score.py:156
      let d := { d with scoreDomain := some dm }
      -- event_with_score.py:157-158
      match levelsOfDomain dm with
      | .error e => .error (e, d)
      | .ok n => .ok { d with nScoreLevels := some n }

/-- `set_feature` is inherited (base.py:229-247). -/
def setFeature (d : ScoreData K α φ ε) (otype : Nat) (eids : List α) (feature : List φ) :
    Res (ScoreData K α φ ε) := do
  let b ← d.toEventData.setFeature otype eids feature
  return { d with toEventData := b }

/-- `get_score_levels` (event_with_score.py:83-93). -/
def getScoreLevels (d : ScoreData K α φ ε) : Res (List K) :=
  match d.scoreDomain, d.nScoreLevels with
  | some dom, some n => do
    let lo ← npGet dom 0
    let hi ← npGet dom 1
    npLinspace lo hi n
  | _, _ => .error .typeError

/-- `digitize_score` (event_with_score.py:160-183) with `generate_score_bins`
(event_with_score.py:70-81). -/
def digitizeScore (d : ScoreData K α φ ε) (score : Option (List K)) : Res (List Int) :=
  match d.scoreDomain with
  | none => .error .typeError
  | some dom => do
    let bins ← generateScoreBins dom
    let xs ← (match score with
      | some xs => .ok xs
      | none =>
        match d.score with
        | some xs => .ok xs
        | none => .error .typeError)
    let ds ← npDigitize bins xs
    return ds.map (· - 1)

/-- `binarize_score` (event_with_score.py:185-206).  Before `set_event` the attributes are `None`
and the arithmetic raises `TypeError` (Python 3). -/
def binarizeScore (d : ScoreData K α φ ε) (thresh : Option K) : Res (ScoreData K α φ ε) := do
  -- event_with_score.py:199-202
  let t ← (match thresh with
    | some t => .ok t
    | none =>
      match d.scoreDomain with
      | none => .error .typeError
      | some dom => do
        let hi ← npGet dom 1
        let lo ← npGet dom 0
        let lo' ← npGet dom 0
        return (hi - lo) / 2 + lo')
  -- event_with_score.py:204
  let xs ← (match d.score with
    | some xs => .ok xs
    | none => .error .typeError)
  -- event_with_score.py:204-206
  return { d with
    score := some (xs.map (fun x => if x ≤ t then 0 else 1))
    scoreDomain := some [0, 1, 1]
    nScoreLevels := some 2 }

omit [Field K] [LinearOrder K] [IsStrictOrderedRing K] [FloorRing K] in
/-- `filter_event` (event_with_score.py:208-237). -/
def filterEvent (d : ScoreData K α φ ε) (cond : Sel) : Res (Option (ScoreData K α φ ε)) := do
  match ← d.toEventData.filterEvent cond with
  | none => return none
  | some b =>
    let data := { d with toEventData := b }
    match d.score with
    | none => return some data
    | some xs => return some { data with score := some (← cond.apply xs) }

end ScoreData

omit [IsStrictOrderedRing K] [FloorRing K] in
/-- `is_binary_score` (utils/base.py:83-109). -/
def isBinaryScore (score : List K) (allowUniform : Bool) : Bool :=
  let elements := npUnique score
  if allowUniform then
    decide (elements = [0, 1]) || decide (elements = [0]) || decide (elements = [1])
  else decide (elements = [0, 1])

omit [IsStrictOrderedRing K] [FloorRing K] [LinearOrder α] in
/-- The acceptance test of explicit item finders (item_finder/base.py:124-128): `true` when the
container passes, `ValueError` is raised otherwise.  `np.array_equal` and `np.unique` of `None`
compare unequal to the expected arrays. -/
def acceptsBinary (d : ScoreData K α φ ε) : Bool :=
  (match d.scoreDomain with | some dom => decide (dom = [0, 1, 1]) | none => false) &&
  (match d.score with | some xs => isBinaryScore xs false | none => false) &&
  (match d.nScoreLevels with | some n => decide (n = 2) | none => false)

end
end Kam
