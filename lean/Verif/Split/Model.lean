/-
Model of kamrecsys/model_selection/split.py, together with the parts of
`sklearn.model_selection` the three splitters are built from.

The module imports the private helper `_validate_shuffle_split_init` and passes the
arguments of `KFold` by position, so it runs with the scikit-learn releases up to 0.21; the
sklearn functions below are modelled after that release.

`X` and `y` only matter through the number of samples, which is the argument `n`.  All
generators are modelled as the list of everything they yield: an exception raised by the
first `next` of the generator is the result of the whole call.  None of the modelled
generators can raise later than at its first `next`, because what is checked does not
depend on the fold.
-/
import Verif.Py.Basic
import Mathlib.Algebra.Order.Floor.Ring
import Mathlib.Algebra.Order.Field.Basic

set_option linter.unusedSectionVars false

namespace Kam.Split

variable {α : Type} [LinearOrder α]

/-- A random number generator with state `γ`, such as `np.random.RandomState`:
`shuffle s n` is the array `rng.shuffle(np.arange(n))` / `rng.permutation(n)` (some
permutation of `0, ..., n - 1`), together with the state after the call. -/
structure Rng (γ : Type) where
  shuffle : γ → Nat → List Nat × γ
  perm : ∀ s n, (shuffle s n).1.Perm (List.range n)

/-- One element yielded by a splitter: the training indices and the test indices. -/
abbrev Fold := List Nat × List Nat

/-- `sklearn.model_selection.BaseCrossValidator.split`: for every yielded boolean mask, the
indices where it is false and the indices where it is true.  The masks are read when they
are yielded, so that the splitters below may reuse one mask array (split.py:139, 145, 152
and 269, 282, 286). -/
def baseSplit (n : Nat) (masks : List (List Bool)) : List Fold :=
  masks.map (fun m =>
    ((List.range n).filter (fun i => !(m.getD i false)),
     (List.range n).filter (fun i => m.getD i false)))

/-- `test_fold[idx] = True` (split.py:151, 285).  The positions always are positions of the
array: they are taken from `np.arange(n_samples)`. -/
def setTrue (mask : List Bool) (idx : List Nat) : List Bool :=
  idx.foldl (fun m i => m.set i true) mask

/-- `indices[groups == g]` with `indices = np.arange(n_samples)` (split.py:148, 277, 285). -/
def members (groups : List α) (g : α) : List Nat :=
  (List.range groups.length).filter (fun i => groups[i]? = some g)

/-! ### sklearn's `KFold` -/

/-- Fold sizes of `KFold._iter_test_indices`: `n // k` for every fold, plus one for the first
`n % k` folds. -/
def kfoldSizes (n k : Nat) : List Nat :=
  (List.range k).map (fun f => n / k + if f < n % k then 1 else 0)

/-- The loop of `KFold._iter_test_indices`: `indices[start:stop]` for the successive sizes,
beginning at `current`. -/
def kfoldSlices (indices : List Nat) (current : Nat) : List Nat → List (List Nat)
  | [] => []
  | size :: sizes =>
    (indices.drop current).take size :: kfoldSlices indices (current + size) sizes

/-- Test indices of the folds of `KFold(k, shuffle, rng).split(X)` for `n = len(X)`.  Raises
`ValueError` when there are more folds than samples. The test indices of every fold are
recovered from a mask, hence increasing.  The training indices, which the caller ignores,
are left out. -/
def kfold {γ : Type} (rng : Rng γ) (k : Nat) (shuffle : Bool) (s : γ) (n : Nat) :
    Res (List (List Nat) × γ) :=
  if n < k then .error .valueError
  else
    let (indices, s') := if shuffle then rng.shuffle s n else (List.range n, s)
    .ok ((kfoldSlices indices 0 (kfoldSizes n k)).map
      (fun t => (List.range n).filter (fun i => decide (i ∈ t))), s')

/-! ### `KFoldWithinGroups` -/

/-- The first `next(iters[i])` of every group in the order of `group_indices`: the test
indices of all folds of every group (split.py:274-278, 283-284).  The shuffling of a group
happens at the first `next` of its generator, that is, in this order. -/
def kfoldGroups {γ : Type} (rng : Rng γ) (k : Nat) (shuffle : Bool) (groups : List α) :
    γ → List α → Res (List (α × List (List Nat)))
  | _, [] => .ok []
  | s, g :: gs =>
    match kfold rng k shuffle s (members groups g).length with
    | .error e => .error e
    | .ok (tests, s') =>
      match kfoldGroups rng k shuffle groups s' gs with
      | .error e => .error e
      | .ok rest => .ok ((g, tests) :: rest)

/-- The inner loop of one fold: `next(iters[i])` and
`test_fold[indices[groups == g][group_test_i]] = True` for every group (split.py:283-285).
A generator without a further fold would raise `StopIteration`. -/
def kfoldMask (groups : List α) (fold : Nat) :
    List Bool → List (α × List (List Nat)) → Res (List Bool)
  | mask, [] => .ok mask
  | mask, (g, tests) :: rest =>
    match tests[fold]? with
    | none => .error .stopIteration
    | some t => kfoldMask groups fold (setTrue mask (gather (members groups g) t)) rest

/-- `KFoldWithinGroups._iter_test_masks` (split.py:259-286) for an array of group labels. -/
def kfoldMasks {γ : Type} (rng : Rng γ) (k : Nat) (shuffle : Bool) (s : γ) (groups : List α) :
    Res (List (List Bool)) :=
  match kfoldGroups rng k shuffle groups s (npUnique groups) with
  | .error e => .error e
  | .ok iters =>
    (List.range k).mapM (fun fold =>
      kfoldMask groups fold (List.replicate groups.length false) iters)

/-- `KFoldWithinGroups(n_splits, shuffle, random_state).split(X, groups=groups)` for `n`
samples (split.py:203-257): `s` is the state of `check_random_state(random_state)`.
`indexable` rejects group labels of another length than `X` (`ValueError`, split.py:246). -/
def kfoldWithinGroups {γ : Type} (rng : Rng γ) (nSplits : Int) (shuffle : Bool) (s : γ)
    (n : Nat) (groups : Option (List α)) : Res (List Fold) :=
  if nSplits ≤ 1 then .error .valueError
  else if groups.any (fun g => g.length != n) then .error .valueError
  else if nSplits > n then .error .valueError
  else
    match (match groups with
      | some g => kfoldMasks rng nSplits.toNat shuffle s g
      | none => kfoldMasks rng nSplits.toNat shuffle s (List.replicate n (0 : Int))) with
    | .error e => .error e
    | .ok masks => .ok (baseSplit n masks)

/-! ### `InterlacedKFold` -/

/-- `sklearn.model_selection.PredefinedSplit(test_fold).split()`: one fold for every
distinct value of `test_fold` except `-1`, in increasing order; it tests the samples with
that value. -/
def predefinedSplit (testFold : List Int) : List Fold :=
  baseSplit testFold.length
    (((npUnique testFold).filter (fun f => decide (f ≠ -1))).map
      (fun f => testFold.map (fun v => decide (v = f))))

/-- `InterlacedKFold(n_splits).split(X)` for `n` samples (split.py:326-376); the argument
`groups` is not used. -/
def interlacedKFold (nSplits : Int) (n : Nat) : Res (List Fold) :=
  if nSplits ≤ 1 then .error .valueError
  else if nSplits > n then .error .valueError
  else .ok (predefinedSplit ((List.range n).map (fun i : Nat => (i : Int) % nSplits)))

/-! ### `ShuffleSplitWithinGroups` -/

variable {K : Type} [Field K] [LinearOrder K] [IsStrictOrderedRing K] [FloorRing K]

/-- `test_size` / `train_size`: `None`, an integer or a float. -/
inductive Size (K : Type) where
  | none
  | int (c : Int)
  | frac (q : K)

/-- `sklearn.model_selection._split._validate_shuffle_split_init` (called at split.py:89). -/
def validateInit (test train : Size K) : Res Unit :=
  match test, train with
  | .none, .none => .error .valueError
  | .frac q, .none => if 1 ≤ q then .error .valueError else .ok ()
  | .frac q, .int _ => if 1 ≤ q then .error .valueError else .ok ()
  | .frac q, .frac r =>
    if 1 ≤ q then .error .valueError
    else if 1 ≤ r then .error .valueError
    else if 1 < r + q then .error .valueError else .ok ()
  | .none, .frac r => if 1 ≤ r then .error .valueError else .ok ()
  | .int _, .frac r => if 1 ≤ r then .error .valueError else .ok ()
  | .none, .int _ => .ok ()
  | .int _, .int _ => .ok ()
  | .int _, .none => .ok ()

/-- Range check of one size in `sklearn.model_selection._split._validate_shuffle_split`: an
integer lies strictly between 0 and the number of samples, a float strictly between 0
and 1. -/
def sizeInRange (n : Nat) : Size K → Bool
  | .none => true
  | .int c => decide (0 < c ∧ c < n)
  | .frac q => decide (0 < q ∧ q < 1)

/-- `sklearn.model_selection._split._validate_shuffle_split(n, test_size, train_size)` as
called by `train_test_split`: the numbers of training and test samples.  Both sizes `None`
select the default `test_size = 0.25`, which the constructor excludes; that case is
rejected here. Exact arithmetic stands for `ceil` and `floor` of floating-point products. -/
def validateSplit (n : Nat) (test train : Size K) : Res (Int × Int) :=
  if !(sizeInRange n test) || !(sizeInRange n train) then .error .valueError
  else
    let nTest : Option Int := match test with
      | .none => Option.none
      | .int c => some c
      | .frac q => some ⌈q * (n : K)⌉
    let nTrain : Option Int := match train with
      | .none => Option.none
      | .int c => some c
      | .frac q => some ⌊q * (n : K)⌋
    match nTrain, nTest with
    | Option.none, Option.none => .error .valueError
    | Option.none, some t => finish ((n : Int) - t) t
    | some r, Option.none => finish r ((n : Int) - r)
    | some r, some t => finish r t
where
  /-- The final checks: not more samples than there are, and a non-empty training set. -/
  finish (r t : Int) : Res (Int × Int) :=
    if r + t > n then .error .valueError
    else if r = 0 then .error .valueError
    else .ok (r, t)

/-- Arguments of `ShuffleSplitWithinGroups` (split.py:84-94). -/
structure ShuffleConfig (K : Type) where
  nSplits : Int
  testSize : Size K
  trainSize : Size K
  shuffle : Bool

/-- `train_test_split(arr, test_size, train_size, shuffle, random_state=rng)`: without
shuffling the training set is a prefix of the array and the test set follows; with shuffling
both are read off a random permutation, the test set first (`ShuffleSplit._iter_indices`). -/
def trainTestSplit {γ : Type} (rng : Rng γ) (c : ShuffleConfig K) (s : γ) (arr : List Nat) :
    Res (List Nat × List Nat × γ) :=
  match validateSplit arr.length c.testSize c.trainSize with
  | .error e => .error e
  | .ok (nTrain, nTest) =>
    if c.shuffle then
      let p := rng.shuffle s arr.length
      .ok (gather arr ((p.1.drop nTest.toNat).take nTrain.toNat),
        gather arr (p.1.take nTest.toNat), p.2)
    else
      .ok (gather arr (List.range nTrain.toNat),
        gather arr ((List.range nTest.toNat).map (fun i => nTrain.toNat + i)), s)

/-- The inner loop of one fold (split.py:146-151); the training part is not used. -/
def shuffleMask {γ : Type} (rng : Rng γ) (c : ShuffleConfig K) (groups : List α) :
    γ → List Bool → List α → Res (List Bool × γ)
  | s, mask, [] => .ok (mask, s)
  | s, mask, g :: gs =>
    match trainTestSplit rng c s (members groups g) with
    | .error e => .error e
    | .ok (_, testI, s') => shuffleMask rng c groups s' (setTrue mask testI) gs

/-- The outer loop (split.py:144-152), `k` folds to go. -/
def shuffleMasks {γ : Type} (rng : Rng γ) (c : ShuffleConfig K) (groups : List α) :
    γ → Nat → Res (List (List Bool))
  | _, 0 => .ok []
  | s, k + 1 =>
    match shuffleMask rng c groups s (List.replicate groups.length false) (npUnique groups) with
    | .error e => .error e
    | .ok (mask, s') =>
      match shuffleMasks rng c groups s' k with
      | .error e => .error e
      | .ok masks => .ok (mask :: masks)

/-- `ShuffleSplitWithinGroups(...).split(X, groups=groups)` for `n` samples (split.py:84-152). -/
def shuffleSplitWithinGroups {γ : Type} (rng : Rng γ) (c : ShuffleConfig K) (s : γ)
    (n : Nat) (groups : Option (List α)) : Res (List Fold) :=
  match validateInit c.testSize c.trainSize with
  | .error e => .error e
  | .ok () =>
    if groups.any (fun g => g.length != n) then .error .valueError
    else
      match (match groups with
        | some g => shuffleMasks rng c g s c.nSplits.toNat
        | none => shuffleMasks rng c (List.replicate n (0 : Int)) s c.nSplits.toNat) with
      | .error e => .error e
      | .ok masks => .ok (baseSplit n masks)

end Kam.Split
