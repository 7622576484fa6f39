/-
Several recommenders that are fitted in threads at the same time.
-/
import Verif.Fit.Steps

namespace Kam
namespace MF
namespace Steps
variable {γ : Type} {nu ni k : Nat → Nat}

/-- The generators and the recommenders of a program, the number of statements of `Verif/Fit/Steps` that each thread has executed, and the
exceptions that have ended threads.  Thread `i` fits recommender `i`. -/
structure World (γ : Type) (nu ni k : Nat → Nat) where
  streams : Nat → γ
  objs : ∀ i, Obj γ (nu i) (ni i) (k i)
  done : Nat → Nat
  raised : Nat → Option Exc

/-- The next statement of thread `i` (score_predictor/matrix_factorization.py:142-207, 330-386, item_finder/matrix_factorization.py:153-209,
338-394, 528-572, 695-750).  `handle i` is the generator that `_rng` refers to: that of numpy, one the caller has passed, or one that `fit`
has made from an integer (base/base.py:99).  The events have been prepared by then and are not changed by any of the threads.
Simplified: a statement is executed at once, as is a pass of the loops over users and items. -/
def tstep (handle : Nat → Nat) (prog : ∀ i, List (Stmt γ (nu i) (ni i) (k i))) (w : World γ nu ni k) (i : Nat) : World γ nu ni k :=
  match w.raised i, (prog i)[w.done i]? with
  | none, some s =>
    match s { w.objs i with rng := w.streams (handle i) } with
    | .ok o =>
      { w with
        streams := Function.update w.streams (handle i) o.rng
        objs := Function.update w.objs i o
        done := Function.update w.done i (w.done i + 1) }
    | .error e => { w with raised := Function.update w.raised i (some e) }
  | _, _ => w

/-- A schedule: the threads in the order of their turns. -/
def interleave (handle : Nat → Nat) (prog : ∀ i, List (Stmt γ (nu i) (ni i) (k i))) (w : World γ nu ni k) (threads : List Nat) :
    World γ nu ni k :=
  threads.foldl (tstep handle prog) w

end Steps
end MF
end Kam
