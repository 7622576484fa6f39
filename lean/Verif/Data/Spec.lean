/-
Specification vocabulary for the data containers, independent of the model's helpers.
-/
import Verif.Data.Model
import Mathlib.Data.Set.Card

namespace Kam
namespace Spec

/-- `x` occurs as an object of type `t` in the external event rows: in some row, at some
column of that type. -/
def IsObject {α : Type} (otypes : List Nat) (rows : List (List α)) (t : Nat) (x : α) : Prop :=
  ∃ r ∈ rows, ∃ e : Nat, otypes[e]? = some t ∧ r[e]? = some x

/-- Number of distinct objects of a type. -/
noncomputable def count {α : Type} (otypes : List Nat) (rows : List (List α)) (t : Nat) : Nat :=
  {x | IsObject otypes rows t x}.ncard

/-- Number of distinct objects of a type that are smaller than `x`. -/
noncomputable def rank {α : Type} [LT α] (otypes : List Nat) (rows : List (List α)) (t : Nat)
    (x : α) : Nat :=
  {y | IsObject otypes rows t y ∧ y < x}.ncard

/-- The containers a program can obtain: constructed, and then changed by any sequence of
`set_event`, `set_feature` and `filter_event` calls, successful or (for `set_event`, which
mutates before it may raise) failing. -/
inductive Reachable {α φ ε : Type} [LinearOrder α] : EventData α φ ε → Prop
  | init {n : Int} {arg : OtypesArg} {d : EventData α φ ε} :
      EventData.init n arg = .ok d → Reachable d
  | setEvent {d d' : EventData α φ ε} {event : Arr2 α} {ef : Option (List ε)} :
      Reachable d → event.Regular → d.setEvent event ef = .ok d' → Reachable d'
  | setEventError {d d' : EventData α φ ε} {event : Arr2 α} {ef : Option (List ε)} {e : Exc} :
      Reachable d → event.Regular → d.setEvent event ef = .error (e, d') → Reachable d'
  | setFeature {d d' : EventData α φ ε} {t : Nat} {eids : List α} {f : List φ} :
      Reachable d → d.setFeature t eids f = .ok d' → Reachable d'
  | filterEvent {d d' : EventData α φ ε} {cond : Sel} :
      Reachable d → d.filterEvent cond = .ok (some d') → Reachable d'

/-- `Built d rows`: `d` was loaded by `set_event` (on any reachable container, with event
features, if any, of the documented length) and then filtered and given object features by any
further calls; `rows` are the external events that remain. -/
inductive Built {α φ ε : Type} [LinearOrder α] : EventData α φ ε → List (List α) → Prop
  | load {d0 d : EventData α φ ε} {event : Arr2 α} {ef : Option (List ε)} :
      Reachable d0 → event.Regular → (∀ f, ef = some f → f.length = event.rows.length) →
      d0.setEvent event ef = .ok d → Built d event.rows
  | setFeature {d d' : EventData α φ ε} {rows : List (List α)} {t : Nat} {eids : List α}
      {f : List φ} :
      Built d rows → d.setFeature t eids f = .ok d' → Built d' rows
  | filterEvent {d d' : EventData α φ ε} {rows rows' : List (List α)} {cond : Sel} :
      Built d rows → cond.apply rows = .ok rows' → d.filterEvent cond = .ok (some d') →
      Built d' rows'

end Spec

/-- Structural well-formedness of a container: what `__init__` establishes and every method
keeps (proved in `Verif/Data/Props.lean`). -/
structure EventData.WF {α φ ε : Type} (d : EventData α φ ε) : Prop where
  pos : 1 ≤ d.nOtypes
  len_nObjects : d.nObjects.length = d.nOtypes
  len_eid : d.eid.length = d.nOtypes
  len_iid : d.iid.length = d.nOtypes
  len_feature : d.feature.length = d.nOtypes
  len_otypes : d.eventOtypes.length = d.sEvent
  otypes_lt : ∀ t ∈ d.eventOtypes, t < d.nOtypes

end Kam
