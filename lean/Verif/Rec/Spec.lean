/-
Specification vocabulary for recommenders.
-/
import Verif.Rec.Model
import Verif.Score.Spec

namespace Kam
namespace Spec
variable {K : Type} {α φ ε γ θ V : Type} [LinearOrder α]

/-- The columns that an `event_index` argument selects (default: all of them); negative indices
count from the end, others outside the event width are illegal. -/
def columnsOf (d : EventData α φ ε) (idx : Option (List Int)) : Res (List Nat) :=
  match idx with
  | none => .ok (List.range d.sEvent)
  | some ix => (Sel.index ix).positions d.sEvent

/-- `r'` results from a successful `fit` of the recommender `r`, of any of the three kinds, on
(the event part of) a container `d`. -/
inductive FittedBy [Field K] [LinearOrder K] (L : Learner K γ θ V) (mk : Int → γ) (env : γ) :
    Rec K α φ ε γ θ V → EventData α φ ε → Option (List Int) → Rec K α φ ε γ θ V → Prop
  | predictor {r r' : Rec K α φ ε γ θ V} {d : ScoreData K α φ ε} {idx : Option (List Int)} :
      Rec.fitPredictor L mk env r d idx = .ok r' → FittedBy L mk env r d.toEventData idx r'
  | explicit {r r' : Rec K α φ ε γ θ V} {d : ScoreData K α φ ε} {idx : Option (List Int)} :
      Rec.fitExplicit L mk env r d idx = .ok r' → FittedBy L mk env r d.toEventData idx r'
  | implicit {r r' : Rec K α φ ε γ θ V} {d : EventData α φ ε} {idx : Option (List Int)} :
      Rec.fitImplicit L mk env r d idx = .ok r' → FittedBy L mk env r d idx r'

open Classical in
/-- The internal id a model should see for the external id `x` of type `t`: its rank if it
occurred in training, the number of objects (the unknown object) otherwise. -/
noncomputable def lookup (otypes : List Nat) (rows : List (List α)) (t : Nat) (x : α) : Int :=
  if IsObject otypes rows t x then (rank otypes rows t x : Int) else (count otypes rows t : Int)

/-- `o` is the internal form of the request row for the selected columns `js`. -/
def Encodes (otypes : List Nat) (rows : List (List α)) (js : List Nat) (row : List α)
    (o : List Int) : Prop :=
  o.length = js.length ∧ ∀ (j c t : Nat) (x : α), js[j]? = some c → otypes[c]? = some t →
    row[c]? = some x → o[j]? = some (lookup otypes rows t x)

/-- `predict` of `r` scores the internal ids of the requested objects, for every non-empty batch
of requests of the width of the training events (which the constructor makes positive). -/
def PredictsRight (L : Learner K γ θ V) (r : Rec K α φ ε γ θ V) (p : θ) (d : EventData α φ ε)
    (rows : List (List α)) (js : List Nat) : Prop :=
  ∀ a : Arr2 α, a.Regular → a.ncols = d.sEvent → a.ncols ≠ 0 → a.rows ≠ [] →
    ∃ os, List.Forall₂ (Encodes d.eventOtypes rows js) a.rows os ∧
      Rec.predict L r (.mat a) = (L.rawPredict p os).map squeeze

/-- The three families of recommenders of the package. -/
inductive Kind where
  | predictor
  | explicit
  | implicit

/-- `fit` of a recommender of the given family.  An implicit item finder accepts every event
container: it uses the event part of `d` only. -/
def fitAs [Field K] [LinearOrder K] (kind : Kind) (L : Learner K γ θ V) (mk : Int → γ) (env : γ)
    (r : Rec K α φ ε γ θ V) (d : ScoreData K α φ ε) (idx : Option (List Int)) :
    Mut (Rec K α φ ε γ θ V) (Rec K α φ ε γ θ V) :=
  match kind with
  | .predictor => Rec.fitPredictor L mk env r d idx
  | .explicit => Rec.fitExplicit L mk env r d idx
  | .implicit => Rec.fitImplicit L mk env r d.toEventData idx

/-- Recommenders a program can obtain: constructed with the given seed and initial `fit_results_`,
then fitted any number of times, successfully or not.  A failing `fit` may leave any parameters
and any values of the results `ks` that the class assigns. -/
inductive History [Field K] [LinearOrder K] (kind : Kind) (L : Learner K γ θ V) (mk : Int → γ)
    (seed : Option Int) (res0 : Dict String V) (ks : List String) : Rec K α φ ε γ θ V → Prop
  | init : History kind L mk seed res0 ks (Rec.init seed res0)
  | fit {r r' : Rec K α φ ε γ θ V} {d : ScoreData K α φ ε} {idx : Option (List Int)} {env : γ} :
      History kind L mk seed res0 ks r → fitAs kind L mk env r d idx = .ok r' →
      History kind L mk seed res0 ks r'
  | error {r r' : Rec K α φ ε γ θ V} {d : ScoreData K α φ ε} {idx : Option (List Int)} {env : γ}
      {e : Exc} {p : Option θ} {fr : Dict String V} : History kind L mk seed res0 ks r →
      fitAs kind L mk env r d idx = .error (e, r') →
      (∀ k ∈ fr.keys, k ∈ r'.fitResults.keys ∨ k ∈ ks) →
      History kind L mk seed res0 ks { r' with params := p, fitResults := fr }

end Spec
end Kam
