/-
Model of the splitters of kamrecsys/model_selection/split.py as Python generators.

`Verif.Split.Model` describes a call of `split` by the list of everything it yields.  Here
the generators are objects: `split` makes one, `next` runs it up to its next `yield`, and
between two calls of `next` anything else may happen.  Other generators may be made and
run, also ones that share the same `RandomState`; somebody else may draw from that
`RandomState`; and the caller may overwrite the array of group labels, of which the
generator holds a reference only (`indexable` of sklearn returns an array as it is,
split.py:123, 246, 364).
-/
import Verif.Split.Model

set_option linter.unusedSectionVars false

namespace Kam.Split

variable {α : Type} [LinearOrder α] {γ : Type}
variable {K : Type} [Field K] [LinearOrder K] [IsStrictOrderedRing K] [FloorRing K]

/-! ### The loops, with the state of the generator of random numbers after them -/

/-- `next(iters[i])` for the first time, for every group (split.py:283-284), together with the
state of the `RandomState` afterwards, also when one of them raises. -/
def kfoldDraws {β : Type} [LinearOrder β] (rng : Rng γ) (k : Nat) (shuffle : Bool)
    (labels : List β) : γ → List β → Res (List (β × List (List Nat))) × γ
  | s, [] => (.ok [], s)
  | s, g :: gs =>
    match kfold rng k shuffle s (members labels g).length with
    | .error e => (.error e, s)
    | .ok (tests, s') =>
      match kfoldDraws rng k shuffle labels s' gs with
      | (.error e, s'') => (.error e, s'')
      | (.ok rest, s'') => (.ok ((g, tests) :: rest), s'')

/-- `indices[groups == g][group_test_i]` (split.py:285): `IndexError` when a position is not
one of the group, which can only happen if the labels were changed since the first fold. -/
def pick (arr : List Nat) (js : List Nat) : Res (List Nat) :=
  js.mapM (fun j => match arr[j]? with
    | some i => .ok i
    | none => .error .indexError)

/-- The inner loop of one fold of `KFoldWithinGroups` (split.py:283-285). -/
def kfoldMark {β : Type} [LinearOrder β] (labels : List β) (fold : Nat) :
    List Bool → List (β × List (List Nat)) → Res (List Bool)
  | mask, [] => .ok mask
  | mask, (g, tests) :: rest =>
    match tests[fold]? with
    | none => .error .stopIteration
    | some t =>
      match pick (members labels g) t with
      | .error e => .error e
      | .ok idx => kfoldMark labels fold (setTrue mask idx) rest

/-- The inner loop of one fold of `ShuffleSplitWithinGroups` (split.py:146-151), together with
the state of the `RandomState` afterwards, also when it raises. -/
def shuffleMark {β : Type} [LinearOrder β] (rng : Rng γ) (c : ShuffleConfig K)
    (labels : List β) : γ → List Bool → List β → Res (List Bool) × γ
  | s, mask, [] => (.ok mask, s)
  | s, mask, g :: gs =>
    match trainTestSplit rng c s (members labels g) with
    | .error e => (.error e, s)
    | .ok (_, testI, s') => shuffleMark rng c labels s' (setTrue mask testI) gs

/-! ### Generators -/

/-- What a call returns: a new generator, an exception, a fold, the end of the generator
(`StopIteration`), or nothing of interest. -/
inductive Out where
  | opened (id : Nat)
  | raised (e : Exc)
  | yielded (fold : Fold)
  | stopped
  | none
deriving DecidableEq

/-- Where a generator made by `split` stands.  Before its first `next` nothing at all has
been executed, because `split` contains `yield` (split.py:127, 257): `kfold` and `shuffle`.
Later it is inside the loop over the folds (split.py:144, 281): the iterators of the groups
and the number of the next fold, or the sorted labels and the number of folds to go.  A
generator that has ended or has raised is `finished`. -/
inductive Body (β K : Type) where
  | kfold (k : Nat) (shuffle : Bool) (n : Nat)
  | kfoldAt (k n : Nat) (iters : List (β × List (List Nat))) (fold : Nat)
  | shuffle (c : ShuffleConfig K) (n : Nat)
  | shuffleAt (c : ShuffleConfig K) (n : Nat) (order : List β) (left : Nat)
  | finished

/-- The fold that `BaseCrossValidator.split` makes of a mask. -/
def foldOf (n : Nat) (m : List Bool) : Fold :=
  ((List.range n).filter (fun i => !(m.getD i false)),
   (List.range n).filter (fun i => m.getD i false))

/-- One round of the loop over the folds of `KFoldWithinGroups` (split.py:281-286). -/
def kfoldRound {β : Type} [LinearOrder β] (labels : List β) (k n : Nat)
    (iters : List (β × List (List Nat))) (fold : Nat) : Out × Body β K :=
  if fold < k then
    match kfoldMark labels fold (List.replicate n false) iters with
    | .error e => (.raised e, .finished)
    | .ok m => (.yielded (foldOf n m), .kfoldAt k n iters (fold + 1))
  else (.stopped, .finished)

/-- One round of the loop over the folds of `ShuffleSplitWithinGroups` (split.py:144-152). -/
def shuffleRound {β : Type} [LinearOrder β] (rng : Rng γ) (labels : List β) (s : γ)
    (c : ShuffleConfig K) (n : Nat) (order : List β) : Nat → Out × γ × Body β K
  | 0 => (.stopped, s, .finished)
  | left + 1 =>
    match shuffleMark rng c labels s (List.replicate n false) order with
    | (.error e, s') => (.raised e, s', .finished)
    | (.ok m, s') => (.yielded (foldOf n m), s', .shuffleAt c n order left)

/-- `next` of a generator: `labels` is the present content of the label array and `s` the
present state of the `RandomState`; what is returned, the state of the `RandomState`
afterwards, and where the generator stands then (split.py:122-152, 245-286). -/
def Body.next {β : Type} [LinearOrder β] (rng : Rng γ) (labels : List β) (s : γ) :
    Body β K → Out × γ × Body β K
  | .kfold k sh n =>
    if labels.length != n then (.raised .valueError, s, .finished)
    else if k > n then (.raised .valueError, s, .finished)
    else
      match kfoldDraws rng k sh labels s (npUnique labels) with
      | (.error e, s') => (.raised e, s', .finished)
      | (.ok iters, s') =>
        let r := kfoldRound labels k n iters 0
        (r.1, s', r.2)
  | .kfoldAt k n iters fold =>
    let r := kfoldRound labels k n iters fold
    (r.1, s, r.2)
  | .shuffle c n =>
    if labels.length != n then (.raised .valueError, s, .finished)
    else shuffleRound rng labels s c n (npUnique labels) c.nSplits.toNat
  | .shuffleAt c n order left => shuffleRound rng labels s c n order left
  | .finished => (.stopped, s, .finished)

/-- `random_state`: an integer, or a `RandomState` object, which others may hold as well.
`None` stands for the object behind `np.random`, object number 0. -/
inductive RState where
  | seed (z : Int)
  | object (r : Nat)

/-- The arguments of the three splitters (split.py:84-94, 203-217, 326-338). -/
inductive Splitter (K : Type) where
  | kfold (k : Int) (shuffle : Bool) (rs : RState)
  | shuffle (c : ShuffleConfig K) (rs : RState)
  | interlaced (k : Int)

/-- What the constructors check (split.py:89, 209-213, 332-336). -/
def Splitter.construct : Splitter K → Res Unit
  | .kfold k _ _ => if k ≤ 1 then .error .valueError else .ok ()
  | .shuffle c _ => validateInit c.testSize c.trainSize
  | .interlaced k => if k ≤ 1 then .error .valueError else .ok ()

/-- `get_n_splits` (split.py:173, 307, 397). -/
def Splitter.getNSplits : Splitter K → Int
  | .kfold k _ _ => k
  | .shuffle c _ => c.nSplits
  | .interlaced k => k

/-- The `RandomState` of a generator.  `check_random_state(random_state)` makes a new object
out of an integer, and it does so inside the generator (split.py:140, 270): `pending` before
the first `next`, `own` afterwards. -/
inductive Source (γ : Type) where
  | pending (z : Int)
  | own (s : γ)
  | object (r : Nat)

/-- A generator object: with the array of labels number `a`, or without group labels, in which
case `np.zeros(n_samples)` is made (split.py:135, 265); or the generator of
`PredefinedSplit.split`, by the folds it has not yet yielded (split.py:376). -/
inductive Gen (α γ K : Type) where
  | grouped (a : Nat) (src : Source γ) (b : Body α K)
  | whole (n : Nat) (src : Source γ) (b : Body Int K)
  | predefined (folds : List Fold)

/-- `RandomState` objects, label arrays and generators. -/
structure LWorld (α γ K : Type) where
  rs : Nat → γ
  arr : Nat → List α
  gens : List (Gen α γ K)

/-- A step of a history: `split` of a splitter for `n` samples with a label array or with
`groups=None`; `next` of a generator; a draw from a `RandomState` by somebody else; an
assignment to an element of a label array. -/
inductive LOp (α K : Type) where
  | split (sp : Splitter K) (n : Nat) (groups : Option Nat)
  | next (j : Nat)
  | draw (r m : Nat)
  | write (a i : Nat) (v : α)

def RState.source : RState → Source γ
  | .seed z => .pending z
  | .object r => .object r

/-- A call of `split` after the constructor: `KFoldWithinGroups` and
`ShuffleSplitWithinGroups` execute nothing (split.py:96-127, 219-257); `InterlacedKFold.split`
is no generator itself, it checks its arguments and returns the generator of
`PredefinedSplit` (split.py:340-376). -/
def Splitter.open (sp : Splitter K) (n : Nat) (groups : Option (Nat × List α)) :
    Res (Gen α γ K) :=
  match sp, groups with
  | .kfold k sh rs, some (a, _) => .ok (.grouped a rs.source (.kfold k.toNat sh n))
  | .kfold k sh rs, none => .ok (.whole n rs.source (.kfold k.toNat sh n))
  | .shuffle c rs, some (a, _) => .ok (.grouped a rs.source (.shuffle c n))
  | .shuffle c rs, none => .ok (.whole n rs.source (.shuffle c n))
  | .interlaced k, some (_, l) =>
    if l.length != n then .error .valueError
    else
      match interlacedKFold k n with
      | .error e => .error e
      | .ok folds => .ok (.predefined folds)
  | .interlaced k, none =>
    match interlacedKFold k n with
    | .error e => .error e
    | .ok folds => .ok (.predefined folds)

/-- The state of the `RandomState` a generator uses; `seed z` is the state of
`np.random.RandomState(z)`. -/
def Source.state (seed : Int → γ) (rs : Nat → γ) : Source γ → γ
  | .pending z => seed z
  | .own s => s
  | .object r => rs r

/-- The `RandomState` of a generator after it was left in state `s`. -/
def Source.after (s : γ) : Source γ → Source γ
  | .pending _ => .own s
  | .own _ => .own s
  | .object r => .object r

/-- The `RandomState` objects after the one a generator uses was left in state `s`. -/
def Source.update (rs : Nat → γ) (s : γ) : Source γ → Nat → γ
  | .object r => fun r' => if r' = r then s else rs r'
  | _ => rs

/-- `SplitterClass(...).split(X, groups=groups)`: the constructor and the call of `split`. -/
def Splitter.make (sp : Splitter K) (n : Nat) (groups : Option (Nat × List α)) :
    Res (Gen α γ K) :=
  match sp.construct with
  | .error e => .error e
  | .ok () => sp.open n groups

/-- A new generator is kept under the next number. -/
def LWorld.add (w : LWorld α γ K) : Res (Gen α γ K) → Out × LWorld α γ K
  | .error e => (.raised e, w)
  | .ok g => (.opened w.gens.length, { w with gens := w.gens ++ [g] })

/-- One step of a history. -/
def lstep (rng : Rng γ) (seed : Int → γ) (w : LWorld α γ K) : LOp α K → Out × LWorld α γ K
  | .split sp n groups => w.add (sp.make n (groups.map (fun a => (a, w.arr a))))
  | .next j =>
    match w.gens[j]? with
    | none => (.none, w)
    | some (.grouped a src b) =>
      let r := b.next rng (w.arr a) (src.state seed w.rs)
      (r.1, { w with
        rs := src.update w.rs r.2.1
        gens := w.gens.set j (.grouped a (src.after r.2.1) r.2.2) })
    | some (.whole n src b) =>
      let r := b.next rng (List.replicate n (0 : Int)) (src.state seed w.rs)
      (r.1, { w with
        rs := src.update w.rs r.2.1
        gens := w.gens.set j (.whole n (src.after r.2.1) r.2.2) })
    | some (.predefined []) => (.stopped, w)
    | some (.predefined (f :: fs)) =>
      (.yielded f, { w with gens := w.gens.set j (.predefined fs) })
  | .draw r m =>
    (.none, { w with rs := fun r' => if r' = r then (rng.shuffle (w.rs r) m).2 else w.rs r' })
  | .write a i v =>
    (.none, { w with arr := fun a' => if a' = a then (w.arr a).set i v else w.arr a' })

/-- A history: what every step returned, and the state at the end. -/
def lrun (rng : Rng γ) (seed : Int → γ) : LWorld α γ K → List (LOp α K) → List Out × LWorld α γ K
  | w, [] => ([], w)
  | w, o :: ops =>
    let r := lstep rng seed w o
    let rest := lrun rng seed r.2 ops
    (r.1 :: rest.1, rest.2)

end Kam.Split
