/-
Python and numpy primitives used by the models of the kamrecsys sources.

This file is part of the trusted base: it records how the primitives are read.
-/
import Mathlib.Order.Defs.LinearOrder
import Mathlib.Data.Int.Order.Basic
import Mathlib.Data.List.Basic

namespace Kam

/-- Python exception classes raised by the modelled code (or by the numpy / python
primitives it calls). -/
inductive Exc where
  | valueError
  | typeError
  | indexError
  | keyError
  | zeroDivisionError
  | attributeError
  | stopIteration
  | ioError
  deriving DecidableEq, Repr

/-- Result of a Python call without side effects: a value or an exception. -/
abbrev Res (α : Type) := Except Exc α

/-- Result of a Python method that mutates `self : σ`: a value (the new state in the uses
below), or the exception together with the state `self` is left in when the exception
propagates. -/
abbrev Mut (σ : Type) (α : Type) := Except (Exc × σ) α

/-! ### dict -/

/-- A Python `dict`: association list in insertion order, keys distinct (the operations
below keep them distinct). -/
abbrev Dict (κ ν : Type) := List (κ × ν)

namespace Dict
variable {κ ν : Type} [DecidableEq κ]

/-- `d.get(k)`; `none` when the key is absent. -/
def get? (d : Dict κ ν) (k : κ) : Option ν :=
  match d with
  | [] => none
  | (k', v) :: d => if k' = k then some v else get? d k

/-- `d[k] = v`: replaces the value of an existing key in place, appends a new key. -/
def set (d : Dict κ ν) (k : κ) (v : ν) : Dict κ ν :=
  match d with
  | [] => [(k, v)]
  | (k', v') :: d => if k' = k then (k', v) :: d else (k', v') :: set d k v

/-- A dict comprehension `{k: v for (k, v) in pairs}`. -/
def ofPairs (ps : List (κ × ν)) : Dict κ ν :=
  ps.foldl (fun d p => set d p.1 p.2) []

/-- `k in d` -/
def mem (d : Dict κ ν) (k : κ) : Bool := (get? d k).isSome

/-- `d[k]`, raising `KeyError` when absent. -/
def getItem (d : Dict κ ν) (k : κ) : Res ν :=
  match get? d k with
  | some v => .ok v
  | none => .error .keyError

/-- `d.get(k, dflt)` -/
def getD (d : Dict κ ν) (k : κ) (dflt : ν) : ν := (get? d k).getD dflt

/-- `d.keys()` in insertion order. -/
def keys (d : Dict κ ν) : List κ := d.map (·.1)

end Dict

/-! ### numpy arrays -/

/-- Sorted insertion without duplicates (helper of `npUnique`). -/
def insertUniq {α : Type} [LinearOrder α] (x : α) : List α → List α
  | [] => [x]
  | y :: ys => if x < y then x :: y :: ys else if x = y then y :: ys else y :: insertUniq x ys

/-- `np.unique(a)`: the sorted distinct elements of the (flattened) array. -/
def npUnique {α : Type} [LinearOrder α] (l : List α) : List α := l.foldr insertUniq []

/-- Position addressed by the index `i` in an axis of length `n`, with numpy's (and
python's) wrap-around of negative indices; `none` is `IndexError`. -/
def npIndex (n : Nat) (i : Int) : Option Nat :=
  if 0 ≤ i then (if i < n then some i.toNat else none)
  else if -(n : Int) ≤ i then some (i + n).toNat else none

/-- `a[i]` on a 1-d array or list. -/
def npGet {β : Type} (a : List β) (i : Int) : Res β :=
  match npIndex a.length i with
  | none => .error .indexError
  | some j =>
    match a[j]? with
    | some x => .ok x
    | none => .error .indexError

/-- `a[idx]` / `a.take(idx)` with an integer index array. -/
def npTake {β : Type} (a : List β) (idx : List Int) : Res (List β) := idx.mapM (npGet a)

/-- `a[i] = v` on a 1-d array or list. -/
def npSet {β : Type} (a : List β) (i : Int) (v : β) : Res (List β) :=
  match npIndex a.length i with
  | none => .error .indexError
  | some j => .ok (a.set j v)

/-- The elements at the positions `js` (positions outside the array are impossible for the
callers below, which obtain `js` from the length of the array). -/
def gather {β : Type} (a : List β) (js : List Nat) : List β := js.filterMap (fun j => a[j]?)

/-- `mask.nonzero()[0]` for a boolean vector, counting from `k`. -/
def nonzeroFrom (k : Nat) : List Bool → List Nat
  | [] => []
  | true :: m => k :: nonzeroFrom (k + 1) m
  | false :: m => nonzeroFrom (k + 1) m

/-- Elements of a row selected by a boolean mask of the same length: `row[mask]`. -/
def selMask {β : Type} : List Bool → List β → List β
  | true :: m, x :: xs => x :: selMask m xs
  | false :: m, _ :: xs => selMask m xs
  | _, _ => []

/-- `row[mask] = vals`. -/
def putMask {β : Type} : List Bool → List β → List β → List β
  | true :: m, _ :: xs, v :: vs => v :: putMask m xs vs
  | false :: m, x :: xs, vs => x :: putMask m xs vs
  | _, xs, _ => xs

/-- First-axis selector accepted by `a[sel]`: a boolean mask or an integer index array. -/
inductive Sel where
  | mask (m : List Bool)
  | index (ix : List Int)
  deriving Repr

/-- Positions selected from an axis of length `n`.  A boolean mask must have exactly that
length (numpy raises `IndexError` otherwise) and selects its `nonzero()` positions; integer
indices wrap around and raise `IndexError` when out of range. -/
def Sel.positions (s : Sel) (n : Nat) : Res (List Nat) :=
  match s with
  | .mask m => if m.length = n then .ok (nonzeroFrom 0 m) else .error .indexError
  | .index ix => ix.mapM (fun i =>
      match npIndex n i with
      | some j => .ok j
      | none => .error .indexError)

/-- `a[sel]` along the first axis. -/
def Sel.apply {β : Type} (s : Sel) (a : List β) : Res (List β) :=
  match s.positions a.length with
  | .ok js => .ok (gather a js)
  | .error e => .error e

/-- A 2-d array: the number of columns and the rows (each of that length, see
`Arr2.Regular`). -/
structure Arr2 (β : Type) where
  ncols : Nat
  rows : List (List β)

/-- Every row has `ncols` entries. -/
def Arr2.Regular {β : Type} (a : Arr2 β) : Prop := ∀ r ∈ a.rows, r.length = a.ncols

/-- An array argument: 1-d, 2-d or of another number of dimensions. -/
inductive ArrN (β : Type) where
  | vec (xs : List β)
  | mat (a : Arr2 β)
  | other

/-- `a[:, e]` on rows: `IndexError` when a row is too short. -/
def column {β : Type} (rows : List (List β)) (e : Nat) : Res (List β) :=
  rows.mapM (fun r =>
    match r[e]? with
    | some x => .ok x
    | none => .error .indexError)

/-- `a[:, e] = vals`. -/
def setColumn {β : Type} (rows : List (List β)) (e : Nat) (vals : List β) : List (List β) :=
  List.zipWith (fun r v => r.set e v) rows vals

/-- `np.bincount(idx, weights=w, minlength=n)` restricted to the first `n` bins (every caller
has `idx < n`, where it is the whole array). -/
def bincount {K : Type} [Add K] [Zero K] (n : Nat) (iw : List (Nat × K)) : List K :=
  (List.range n).map (fun j => ((iw.filter (fun p => p.1 = j)).map (·.2)).sum)

end Kam
