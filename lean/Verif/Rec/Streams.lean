/-
Model of the random generators of recommenders in a program with several recommenders and `RandomState` objects.

`check_random_state` (scikit-learn, called in base/base.py:99) makes a new generator from an integer, returns a `RandomState` as it is
and numpy's global one for `None`.  So recommenders without an integer seed share the state of a generator with everything else in the
program that uses it.
-/
import Verif.Rec.Spec

namespace Kam
namespace Streams
open Spec

variable {K α φ ε γ θ V : Type} [LinearOrder α] [Field K] [LinearOrder K]

/-- The super class's `fit` of a recommender of the given family (score_predictor/base.py:101-116, item_finder/base.py:102-131,
base/base.py:193-217). -/
def superAs (kind : Kind) (mk : Int → γ) (env : γ) (r : Rec K α φ ε γ θ V) (d : ScoreData K α φ ε) (idx : Option (List Int)) :
    Mut (Rec K α φ ε γ θ V) (Rec K α φ ε γ θ V) :=
  match kind with
  | .predictor => Rec.predictorSuperFit mk env r d idx
  | .explicit => Rec.explicitSuperFit mk env r d idx
  | .implicit => Rec.eventFit mk env r d.toEventData idx

/-- What a program knows about its recommenders: for each its family, its class and its `RandomState` (number 0 is numpy's global one,
which stands for `None`); `left` is the state in which training leaves a generator, `seeded` makes a generator from an integer. -/
structure Setup (K γ θ V : Type) where
  kind : Nat → Kind
  learner : Nat → Learner K γ θ V
  left : Nat → View K γ → γ → γ
  handle : Nat → Nat
  seeded : Int → γ

/-- Generators and recommenders of a program. -/
structure World (K α φ ε γ θ V : Type) where
  streams : Nat → γ
  recs : Nat → Rec K α φ ε γ θ V

/-- What a program does: draw from a generator, however often, or call `fit` of a recommender. -/
inductive Op (K α φ ε γ : Type) where
  | draw (h : Nat) (f : γ → γ)
  | fit (i : Nat) (d : ScoreData K α φ ε) (idx : Option (List Int))

/-- The state in which a call of `fit` leaves the generator it was given: `check_random_state` draws nothing (base/base.py:99), and if the
super class's `fit` raises, nothing is drawn at all. -/
def afterFit (S : Setup K γ θ V) (i : Nat) (g : γ) (r : Rec K α φ ε γ θ V) (d : ScoreData K α φ ε) (idx : Option (List Int)) : γ :=
  match superAs (S.kind i) S.seeded g r d idx with
  | .error _ => g
  | .ok r1 => S.left i r1.view g

/-- A recommender after a call of `fit` that may have raised. -/
def refit (S : Setup K γ θ V) (i : Nat) (g : γ) (r : Rec K α φ ε γ θ V) (d : ScoreData K α φ ε) (idx : Option (List Int)) :
    Rec K α φ ε γ θ V :=
  match fitAs (S.kind i) (S.learner i) S.seeded g r d idx with
  | .error e => e.2
  | .ok r' => r'

/-- One operation.  A recommender with an integer seed makes its own generator (base/base.py:99), which nobody else sees. -/
def step (S : Setup K γ θ V) (w : World K α φ ε γ θ V) : Op K α φ ε γ → World K α φ ε γ θ V
  | .draw h f => { w with streams := Function.update w.streams h (f (w.streams h)) }
  | .fit i d idx =>
    { recs := Function.update w.recs i (refit S i (w.streams (S.handle i)) (w.recs i) d idx)
      streams := if (w.recs i).seed.isSome then w.streams
        else Function.update w.streams (S.handle i) (afterFit S i (w.streams (S.handle i)) (w.recs i) d idx) }

/-- A program. -/
def exec (S : Setup K γ θ V) (w : World K α φ ε γ θ V) (ops : List (Op K α φ ε γ)) : World K α φ ε γ θ V := ops.foldl (step S) w

end Streams
end Kam
