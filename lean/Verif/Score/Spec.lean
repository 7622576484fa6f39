/-
Specification vocabulary for score containers.
-/
import Verif.Score.Model
import Verif.Data.Spec

namespace Kam
namespace Spec
variable {K : Type} [Field K] [LinearOrder K] [IsStrictOrderedRing K] [FloorRing K]
variable {α φ ε : Type} [LinearOrder α]

/-- `ScoreBuilt d rows sc`: the score container `d` was loaded by `set_event` (on a container with
any history, with one score and, if any, one event feature per event), and then given object
features, binarized and filtered by any further calls; `rows` and `sc` are the external events and
the scores it should now hold. -/
inductive ScoreBuilt : ScoreData K α φ ε → List (List α) → List K → Prop
  | load {d0 d : ScoreData K α φ ε} {event : Arr2 α} {sc : List K} {dom : Option (List K)}
      {ef : Option (List ε)} :
      Reachable d0.toEventData → event.Regular →
      (∀ f, ef = some f → f.length = event.rows.length) → sc.length = event.rows.length →
      d0.setEvent event sc dom ef = .ok d → ScoreBuilt d event.rows sc
  | setFeature {d d' : ScoreData K α φ ε} {rows : List (List α)} {sc : List K} {t : Nat}
      {eids : List α} {f : List φ} :
      ScoreBuilt d rows sc → d.setFeature t eids f = .ok d' → ScoreBuilt d' rows sc
  | binarize {d d' : ScoreData K α φ ε} {rows : List (List α)} {sc : List K} {t : K} :
      ScoreBuilt d rows sc → d.binarizeScore (some t) = .ok d' →
      ScoreBuilt d' rows (sc.map (fun s => if s ≤ t then 0 else 1))
  | binarizeDefault {d d' : ScoreData K α φ ε} {rows : List (List α)} {sc : List K}
      {lo hi : K} {rest : List K} :
      ScoreBuilt d rows sc → d.scoreDomain = some (lo :: hi :: rest) →
      d.binarizeScore none = .ok d' →
      ScoreBuilt d' rows (sc.map (fun s => if s ≤ (lo + hi) / 2 then 0 else 1))
  | filterEvent {d d' : ScoreData K α φ ε} {rows rows' : List (List α)} {sc sc' : List K}
      {cond : Sel} :
      ScoreBuilt d rows sc → cond.apply rows = .ok rows' → cond.apply sc = .ok sc' →
      d.filterEvent cond = .ok (some d') → ScoreBuilt d' rows' sc'

end Spec
end Kam
