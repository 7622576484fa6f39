/-
The arithmetic of score containers with machine numbers: the functions of Verif/Score/Model.lean
with every operation rounded to binary64, in the order in which Python and numpy perform them.
Comparisons, minima and maxima are not rounded.
-/
import Verif.Float.Round
import Verif.Score.Model

namespace Kam
namespace Fl

section
variable {K : Type} [Field K] [LinearOrder K] [IsStrictOrderedRing K] [FloorRing K]

/-- `np.diff` (event_with_score.py:155): rounded differences of neighbours. -/
def diff : List K → List K
  | x :: y :: xs => fl (y - x) :: diff (y :: xs)
  | _ => []

/-- `np.arange(start, stop, step, dtype=float)` (metrics/base.py:60): `ceil((stop - start) / step)`
entries; the first two are `start` and `start + step`, the others `start + i * delta` where `delta`
is the difference of the first two (numpy's `DOUBLE_fill`). -/
def arange (start stop step : K) : Res (List K) :=
  if step = 0 then .error .zeroDivisionError
  else
    let len := ⌈fl (fl (stop - start) / step)⌉.toNat
    let delta := fl (fl (start + step) - start)
    .ok ((List.range len).map (fun (i : Nat) =>
      if i = 0 then start
      else if i = 1 then fl (start + step)
      else fl (start + fl ((i : K) * delta))))

/-- `generate_score_bins` (metrics/base.py:45-64). -/
def generateScoreBins (dom : List K) : Res (List (Ext K)) := do
  let lo ← npGet dom 0
  let hi ← npGet dom 1
  let st ← npGet dom 2
  let bins ← arange lo hi st
  return [⊥] ++ bins.map (fun b => (((fl (b + fl (st / 2)) : K) : WithTop K) : Ext K)) ++
    [((⊤ : WithTop K) : Ext K)]

/-- `np.linspace(lo, hi, n)` (event_with_score.py:92-93): `i * step + lo` with
`step = (hi - lo) / (n - 1)`, the last entry replaced by `hi` when there is more than one. -/
def linspace (lo hi : K) (n : Int) : Res (List K) :=
  if n < 0 then .error .valueError
  else
    let step := fl (fl (hi - lo) / ((n : K) - 1))
    .ok ((List.range n.toNat).map (fun (i : Nat) =>
      if n = 1 then lo
      else if (i : Int) = n - 1 then hi
      else fl (fl ((i : K) * step) + lo)))

variable {α φ ε : Type} [LinearOrder α]

/-- The domain used by `set_event` (event_with_score.py:151-155). -/
def resolveDomain (score : List K) (dom : Option (List K)) : Res (List K) :=
  match dom with
  | some d => .ok d
  | none => do
    let lo ← npMin score
    let hi ← npMax score
    let st ← npMin (diff (npUnique score))
    return [lo, hi, st]

/-- `int((score_domain[1] - score_domain[0]) / score_domain[2]) + 1`
(event_with_score.py:157-158). -/
def levelsOfDomain (dom : List K) : Res Int := do
  let hi ← npGet dom 1
  let lo ← npGet dom 0
  let st ← npGet dom 2
  if st = 0 then .error .zeroDivisionError else return pyInt (fl (fl (hi - lo) / st)) + 1

/-- `set_event` (event_with_score.py:130-158). -/
def setEvent (d : ScoreData K α φ ε) (event : Arr2 α) (score : List K) (dom : Option (List K))
    (ef : Option (List ε)) : Mut (ScoreData K α φ ε) (ScoreData K α φ ε) :=
  match d.toEventData.setEvent event ef with
  | .error (e, b) => .error (e, { d with toEventData := b })
  | .ok b =>
    let d := { d with toEventData := b, score := some score }
    match resolveDomain score dom with
    | .error e => .error (e, d)
    | .ok dm =>
      let d := { d with scoreDomain := some dm }
      match levelsOfDomain dm with
      | .error e => .error (e, d)
      | .ok n => .ok { d with nScoreLevels := some n }

/-- `get_score_levels` (event_with_score.py:83-93). -/
def getScoreLevels (d : ScoreData K α φ ε) : Res (List K) :=
  match d.scoreDomain, d.nScoreLevels with
  | some dom, some n => do
    let lo ← npGet dom 0
    let hi ← npGet dom 1
    linspace lo hi n
  | _, _ => .error .typeError

/-- `digitize_score` (event_with_score.py:160-183). -/
def digitizeScore (d : ScoreData K α φ ε) (score : Option (List K)) : Res (List Int) :=
  match d.scoreDomain with
  | none => .error .typeError
  | some dom => do
    let bins ← generateScoreBins dom
    let xs ← (match score with
      | some xs => .ok xs
      | none =>
        match d.score with
        | some xs => .ok xs
        | none => .error .typeError)
    let ds ← npDigitize bins xs
    return ds.map (· - 1)

/-- The default threshold of `binarize_score` (event_with_score.py:199-202). -/
def threshold (dom : List K) : Res K := do
  let hi ← npGet dom 1
  let lo ← npGet dom 0
  let lo' ← npGet dom 0
  return fl (fl (fl (hi - lo) / 2) + lo')

/-- `binarize_score` (event_with_score.py:185-206). -/
def binarizeScore (d : ScoreData K α φ ε) (thresh : Option K) : Res (ScoreData K α φ ε) := do
  let t ← (match thresh with
    | some t => .ok t
    | none =>
      match d.scoreDomain with
      | none => .error .typeError
      | some dom => threshold dom)
  let xs ← (match d.score with
    | some xs => .ok xs
    | none => .error .typeError)
  return { d with
    score := some (xs.map (fun x => if x ≤ t then 0 else 1))
    scoreDomain := some [0, 1, 1]
    nScoreLevels := some 2 }

end
end Fl
end Kam
