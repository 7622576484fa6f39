/-
Several topic models that are fitted in threads at the same time.
-/
import Verif.PLSA.Steps

namespace Kam
namespace PLSA
namespace Steps
variable {γ : Type}

/-- A statement that may draw from the generator. -/
abbrev TStmt (γ : Type) (n nu ni nl k : Nat) := γ × Obj n nu ni nl k → γ × Obj n nu ni nl k

/-- The pass of the loop of `_init_params` for event `e` (score_predictor/topic_model.py:166-168). -/
noncomputable def draw {n nu ni nl k : Nat} (R : Rng γ) (evs : Fin n → Ev nu ni nl) (e : Fin n) : TStmt γ n nu ni nl k := fun x =>
  ((R.dirichlet x.1 (initAlpha nl k (evs e).level)).2,
   { x.2 with q := Function.update x.2.q e (R.dirichlet x.1 (initAlpha nl k (evs e).level)).1 })

/-- A call of `fit` after the events have been prepared: the initial weights, one event after the other, and the statements of
`Verif/PLSA/Steps` (score_predictor/topic_model.py:247-316). -/
noncomputable def tprogram {n nu ni nl : Nat} (cf : Config γ) (evs : Fin n → Ev nu ni nl) : List (TStmt γ n nu ni nl cf.k) :=
  (List.finRange n).map (draw cf.rng evs) ++ (program cf evs).map fun s x => (x.1, s x.2)

variable {n nu ni nl k : Nat → Nat}

/-- The generators and the recommenders of a program, and the number of statements that each thread has executed.  Thread `i` fits
recommender `i`. -/
structure World (γ : Type) (n nu ni nl k : Nat → Nat) where
  streams : Nat → γ
  objs : ∀ i, Obj (n i) (nu i) (ni i) (nl i) (k i)
  done : Nat → Nat

/-- The next statement of thread `i` (score_predictor/topic_model.py:247-316).  `handle i` is the generator that `_rng` refers to: that of
numpy, one the caller has passed, or one that `fit` has made from an integer (base/base.py:99).  The events have been prepared by then and
are not changed by any of the threads.  Simplified: a statement is executed at once, as is a pass of the loop of `_init_params`. -/
def tstep (handle : Nat → Nat) (prog : ∀ i, List (TStmt γ (n i) (nu i) (ni i) (nl i) (k i))) (w : World γ n nu ni nl k) (i : Nat) :
    World γ n nu ni nl k :=
  match (prog i)[w.done i]? with
  | some s =>
    { streams := Function.update w.streams (handle i) (s (w.streams (handle i), w.objs i)).1
      objs := Function.update w.objs i (s (w.streams (handle i), w.objs i)).2
      done := Function.update w.done i (w.done i + 1) }
  | none => w

/-- A schedule: the threads in the order of their turns. -/
def interleave (handle : Nat → Nat) (prog : ∀ i, List (TStmt γ (n i) (nu i) (ni i) (nl i) (k i))) (w : World γ n nu ni nl k)
    (threads : List Nat) : World γ n nu ni nl k :=
  threads.foldl (tstep handle prog) w

end Steps
end PLSA
end Kam
