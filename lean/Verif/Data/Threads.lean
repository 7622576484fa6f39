/-
Several threads that call `set_event` of one container at the same time.

A step of a thread is one of the assignments of `Verif/Data/Steps`, with the evaluation of its right-hand side.  Simplified: Python could
switch threads also within this evaluation.
-/
import Verif.Data.Steps

namespace Kam
namespace Threads
open Load
variable {α φ ε : Type} [LinearOrder α]

/-- The arguments of a call of `set_event` and what its new array holds before the columns are written (event.py:197, 212). -/
structure Call (α ε : Type) where
  event : Arr2 α
  ef : Option (List ε)
  junk : Nat → Nat → Int

/-- The container, the number of assignments each thread has made, and the exceptions that have ended threads. -/
structure Shared (α φ ε : Type) where
  data : EventData α φ ε
  done : Nat → Nat
  raised : Nat → Option Exc

/-- One assignment (event.py:208-221).  The array in `event` may be that of another thread: a column of another length is refused by numpy
unless it consists of one number, which is repeated (event.py:215). -/
def write (c : Call α ε) (d : EventData α φ ε) : Stmt → Mut (EventData α φ ε) (EventData α φ ε)
  | .column e =>
    match exec c.event c.ef c.junk d (.column e) with
    | .error x => .error x
    | .ok d' =>
      if (d.event.map List.length) = some c.event.rows.length then .ok d'
      else if c.event.rows.length = 1 then
        exec { c.event with rows := List.replicate ((d.event.map List.length).getD 0) (c.event.rows.headD []) } c.ef c.junk d (.column e)
      else .error (.valueError, d)
  | s => exec c.event c.ef c.junk d s

/-- The next assignment of thread `i`, if it has one and has not been ended by an exception. -/
def step (calls : Nat → Call α ε) (s : Shared α φ ε) (i : Nat) : Shared α φ ε :=
  match s.raised i, (program s.data)[s.done i]? with
  | none, some stmt =>
    match write (calls i) s.data stmt with
    | .ok d => { s with data := d, done := Function.update s.done i (s.done i + 1) }
    | .error (e, d) => { s with data := d, raised := Function.update s.raised i (some e) }
  | _, _ => s

/-- A schedule: the threads in the order in which they make their assignments. -/
def schedule (calls : Nat → Call α ε) (d : EventData α φ ε) (threads : List Nat) : Shared α φ ε :=
  threads.foldl (step calls) ⟨d, fun _ => 0, fun _ => none⟩

end Threads
end Kam
