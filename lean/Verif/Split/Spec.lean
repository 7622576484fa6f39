/-
Specification vocabulary for the splitters, independent of how they build their folds.
-/
import Mathlib.Algebra.Order.Floor.Ring
import Mathlib.Algebra.Order.Field.Basic
import Mathlib.Data.List.Basic

namespace Kam.Spec

/-- A fold over `n` samples: training and test indices are increasing lists, the test
indices are samples, and the training indices are exactly the remaining samples. -/
structure IsFold (n : Nat) (train test : List Nat) : Prop where
  train_sorted : train.Pairwise (· < ·)
  test_sorted : test.Pairwise (· < ·)
  test_lt : ∀ i ∈ test, i < n
  train_iff : ∀ i, i ∈ train ↔ i < n ∧ i ∉ test

/-- Number of the listed samples that belong to group `g`. -/
def inGroup {α : Type} [DecidableEq α] (groups : List α) (g : α) (idx : List Nat) : Nat :=
  (idx.filter (fun i => decide (groups[i]? = some g))).length

/-- What `test_size` prescribes for a group of `m` samples: an integer is the number of test
samples; a float is the fraction of test samples, rounded up; when only `train_size` is
given, the test samples are those left over by the training samples (an integer, or a
fraction rounded down).  `test` and `train` are the two arguments (`none` for `None`,
`inl` for an integer, `inr` for a float). -/
inductive TestCount {K : Type} [Field K] [LinearOrder K] (m : Nat) :
    Option (Int ⊕ K) → Option (Int ⊕ K) → Nat → Prop
  | int (c : Nat) (train) : TestCount m (some (.inl (c : Int))) train c
  | frac (q : K) (train) (t : Nat) (h₁ : q * (m : K) ≤ t) (h₂ : (t : K) < q * (m : K) + 1) :
      TestCount m (some (.inr q)) train t
  | restInt (c t : Nat) (h : t + c = m) : TestCount m none (some (.inl (c : Int))) t
  | restFrac (q : K) (r t : Nat) (h₁ : (r : K) ≤ q * (m : K)) (h₂ : q * (m : K) < r + 1)
      (h : t + r = m) : TestCount m none (some (.inr q)) t

/-- What the arguments prescribe for the training samples of a group of `m` samples: an
integer is the number of training samples; a float is the fraction, rounded down; without
`train_size`, they are the samples that are not test samples. -/
inductive TrainCount {K : Type} [Field K] [LinearOrder K] (m : Nat) :
    Option (Int ⊕ K) → Option (Int ⊕ K) → Nat → Prop
  | int (c : Nat) (test) : TrainCount m test (some (.inl (c : Int))) c
  | frac (q : K) (test) (r : Nat) (h₁ : (r : K) ≤ q * (m : K)) (h₂ : q * (m : K) < r + 1) :
      TrainCount m test (some (.inr q)) r
  | rest (test : Int ⊕ K) (t r : Nat) (h : TestCount m (some test) none t) (h' : t + r = m) :
      TrainCount m (some test) none r

/-- A size argument in its admissible range for a group of `m` samples. -/
def SizeOk {K : Type} [Field K] [LinearOrder K] (m : Nat) : Option (Int ⊕ K) → Prop
  | none => True
  | some (.inl c) => 0 < c ∧ c < m
  | some (.inr q) => 0 < q ∧ q < 1

/-- The size arguments can be met in a group of `m` samples: both are in range, and the
prescribed numbers of test and training samples fit, with at least one training sample. -/
def Fits {K : Type} [Field K] [LinearOrder K] (m : Nat) (test train : Option (Int ⊕ K)) : Prop :=
  SizeOk m test ∧ SizeOk m train ∧
    ∃ t r, TestCount m test train t ∧ TrainCount m test train r ∧ 0 < r ∧ t + r ≤ m

/-- The size arguments the constructor accepts: not both `None`, floats below one, and two
floats that do not exceed one together. -/
def SizesAllowed {K : Type} [Field K] [LinearOrder K] (test train : Option (Int ⊕ K)) : Prop :=
  (test ≠ none ∨ train ≠ none) ∧ (∀ q, test = some (.inr q) → q < 1) ∧
    (∀ r, train = some (.inr r) → r < 1) ∧
    (∀ q r, test = some (.inr q) → train = some (.inr r) → q + r ≤ 1)

end Kam.Spec
