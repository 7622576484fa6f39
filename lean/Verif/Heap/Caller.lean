/-
Arrays that belong to the caller of the package.

The arguments of Verif/Heap/Model are values, as if the caller passed lists or never touched an array
again.  Here the caller may pass a numpy array, keep it and assign into it later.  The code copies
`score` (`np.array`, data/event_with_score.py:150), while `np.asanyarray` returns an array it is given
itself, so a container holds the array passed as `score_domain` (data/event_with_score.py:156) and a
recommender the one passed as `event_index` (base/base.py:212).  Arrays passed as `event`,
`event_feature`, `eid` and `feature` are read and copied (data/event.py:208-221, data/base.py:229-247)
and remain values.
-/
import Verif.Heap.Model

namespace Kam.Heap

variable {K α φ ε γ θ V : Type}

/-- An argument: a list, or an array of the caller, which are numbered by creation. -/
inductive Arg (β : Type) where
  | list (xs : List β)
  | array (c : Nat)

/-- A program with its own arrays. -/
structure CWorld (K α φ ε γ θ V : Type) where
  /-- the containers and recommenders -/
  lib : World K α φ ε γ θ V
  /-- the addresses of the caller's arrays of numbers -/
  nums : List Nat
  /-- the caller's arrays of indexes -/
  index : List (List Int)
  /-- the array of indexes a recommender holds as its `event_index`, if it is one of the caller's -/
  held : Nat → Option Nat

/-- What a program can do. -/
inductive COp (K α φ ε γ θ V : Type) where
  /-- a call whose arguments are no arrays the caller keeps -/
  | call (op : Op K α φ ε γ θ V)
  /-- `a = np.array(xs)` -/
  | numArray (xs : List K)
  /-- `a[:] = xs` -/
  | numAssign (c : Nat) (xs : List K)
  /-- `data.set_event(event, score, score_domain, event_feature)` -/
  | setEvent (i : Nat) (event : Arr2 α) (score : Arg K) (dom : Option (Arg K)) (ef : Option (List ε))
  /-- `a = np.array(xs, dtype=int)` -/
  | indexArray (xs : List Int)
  /-- `a[:] = xs` -/
  | indexAssign (c : Nat) (xs : List Int)
  /-- `rec.fit(data, event_index=a)` -/
  | fit (fam : Family) (L : Learner K γ θ V) (env : γ) (j i : Nat) (idx : Nat)

section
variable [LinearOrder α] [Field K] [LinearOrder K] [IsStrictOrderedRing K] [FloorRing K]

/-- `EventWithScoreData.set_event` with an array as `score_domain`: the container holds that array
(data/event_with_score.py:130-158). -/
def setEventWith (s : St K α φ ε) (event : Arr2 α) (score : List K) (a : Nat) (ef : Option (List ε)) :
    Mut (St K α φ ε) (St K α φ ε) :=
  -- data/event_with_score.py:148
  match setEventBase s event ef with
  | .error e => .error e
  | .ok s =>
    -- data/event_with_score.py:150
    let s := bindScore s.1 s.2 score
    -- data/event_with_score.py:156
    let s := (s.1, { s.2 with scoreDomain := some a })
    -- data/event_with_score.py:157-158
    match ScoreData.levelsOfDomain (cell s.1.nums a) with
    | .error e => .error (e, s)
    | .ok n => .ok (s.1, { s.2 with nScoreLevels := some n })

omit [LinearOrder α] [Field K] [LinearOrder K] [IsStrictOrderedRing K] [FloorRing K] in
/-- The numbers passed as `score`. -/
def CWorld.read (w : CWorld K α φ ε γ θ V) : Arg K → Option (List K)
  | .list xs => some xs
  | .array c => (w.nums[c]?).map (cell w.lib.heap.nums)

/-- The recommender `j` gets an `event_index`, if `fit` is called at all. -/
def CWorld.hold (w : CWorld K α φ ε γ θ V) (j i : Nat) (c : Option Nat) : Nat → Option Nat :=
  match w.lib.recs[j]?, w.lib.objs[i]? with
  | some _, some _ => fun k => if k = j then c else w.held k
  | _, _ => w.held

/-- One thing a program does.  Arrays, containers and recommenders that do not exist are ignored. -/
def cstep (mk : Int → γ) (w : CWorld K α φ ε γ θ V) (op : COp K α φ ε γ θ V) : CWorld K α φ ε γ θ V :=
  match op with
  | .call (.fit fam L env j i idx) =>
    { w with lib := step mk w.lib (.fit fam L env j i idx), held := w.hold j i none }
  | .call op => { w with lib := step mk w.lib op }
  | .numArray xs =>
    { w with lib := { w.lib with heap := { w.lib.heap with nums := w.lib.heap.nums ++ [xs] } }
             nums := w.nums ++ [w.lib.heap.nums.length] }
  | .numAssign c xs =>
    match w.nums[c]? with
    | none => w
    | some a => { w with lib := { w.lib with heap := { w.lib.heap with nums := w.lib.heap.nums.set a xs } } }
  | .setEvent i event score dom ef =>
    match w.read score with
    | none => w
    | some xs =>
      match dom with
      | none => { w with lib := step mk w.lib (.setEvent i event xs none ef) }
      | some (.list ys) => { w with lib := step mk w.lib (.setEvent i event xs (some ys) ef) }
      | some (.array c) =>
        match w.nums[c]?, w.lib.objs[i]? with
        | some a, some o =>
          match setEventWith (w.lib.heap, o) event xs a ef with
          | .error (_, h, o) => { w with lib := { w.lib with heap := h, objs := w.lib.objs.set i o } }
          | .ok (h, o) => { w with lib := { w.lib with heap := h, objs := w.lib.objs.set i o } }
        | _, _ => w
  | .indexArray xs => { w with index := w.index ++ [xs] }
  | .indexAssign c xs =>
    -- every recommender that holds the array sees the new values
    { w with index := w.index.set c xs
             lib := { w.lib with recs := w.lib.recs.mapIdx (fun j r =>
               if c < w.index.length ∧ w.held j = some c then { r with eventIndex := some xs } else r) } }
  | .fit fam L env j i c =>
    match w.index[c]? with
    | none => w
    | some xs =>
      { w with lib := step mk w.lib (.fit fam L env j i (some xs)), held := w.hold j i (some c) }

/-- A program. -/
def crun (mk : Int → γ) (w : CWorld K α φ ε γ θ V) (ops : List (COp K α φ ε γ θ V)) :
    CWorld K α φ ε γ θ V :=
  ops.foldl (cstep mk) w

omit [LinearOrder α] [Field K] [LinearOrder K] [IsStrictOrderedRing K] [FloorRing K] in
/-- The start of a program. -/
def CWorld.empty : CWorld K α φ ε γ θ V := ⟨World.empty, [], [], fun _ => none⟩

end
end Kam.Heap
