/-
Model of `binarize_score` statement by statement, for calls that are interrupted and for calls in several threads.
-/
import Verif.Score.Model

namespace Kam
namespace Bin
variable {K α φ ε : Type} [Field K] [LinearOrder K] [LinearOrder α]

/-- The threshold and the new scores, before they are assigned: what a call has in local variables (event_with_score.py:199-204). -/
structure Locals (K : Type) where
  thresh : K
  scores : List K

/-- The steps of `binarize_score` by number: the threshold (event_with_score.py:199-202), the new scores and their assignment to `score`
(event_with_score.py:204), and the assignments to `score_domain` and `n_score_levels` (event_with_score.py:205-206). -/
def exec (thresh : Option K) (s : Locals K × ScoreData K α φ ε) : Nat → Res (Locals K × ScoreData K α φ ε)
  | 0 =>
    match thresh with
    | some t => .ok ({ s.1 with thresh := t }, s.2)
    | none =>
      match s.2.scoreDomain with
      | none => .error .typeError
      | some dom => do
        let hi ← npGet dom 1
        let lo ← npGet dom 0
        let lo' ← npGet dom 0
        return ({ s.1 with thresh := (hi - lo) / 2 + lo' }, s.2)
  | 1 =>
    match s.2.score with
    | none => .error .typeError
    | some xs => .ok ({ s.1 with scores := xs.map (fun x => if x ≤ s.1.thresh then 0 else 1) }, s.2)
  | 2 => .ok (s.1, { s.2 with score := some s.1.scores })
  | 3 => .ok (s.1, { s.2 with scoreDomain := some [0, 1, 1] })
  | 4 => .ok (s.1, { s.2 with nScoreLevels := some 2 })
  | _ => .ok s

/-- The container after the first `n` steps of a call (event_with_score.py:185-206). -/
def run (thresh : Option K) (n : Nat) (d : ScoreData K α φ ε) : Res (ScoreData K α φ ε) :=
  ((List.range n).foldlM (exec thresh) (⟨0, []⟩, d)).map Prod.snd

/-- The container, the number of steps each thread has made, its local variables, and the exceptions that have ended threads. -/
structure Shared (K α φ ε : Type) where
  data : ScoreData K α φ ε
  done : Nat → Nat
  locals : Nat → Locals K
  raised : Nat → Option Exc

/-- The next step of thread `i`, if it has one and has not been ended by an exception (event_with_score.py:199-206). -/
def step (calls : Nat → Option K) (s : Shared K α φ ε) (i : Nat) : Shared K α φ ε :=
  if (s.raised i).isSome ∨ 5 ≤ s.done i then s
  else
    match exec (calls i) (s.locals i, s.data) (s.done i) with
    | .ok (l, d) =>
      { s with data := d, done := Function.update s.done i (s.done i + 1), locals := Function.update s.locals i l }
    | .error e => { s with raised := Function.update s.raised i (some e) }

/-- A schedule: the threads in the order of their turns. -/
def schedule (calls : Nat → Option K) (d : ScoreData K α φ ε) (threads : List Nat) : Shared K α φ ε :=
  threads.foldl (step calls) ⟨d, fun _ => 0, fun _ => ⟨0, []⟩, fun _ => none⟩

end Bin
end Kam
