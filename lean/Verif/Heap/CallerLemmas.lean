/-
Helper lemmas for C117: what a call does depends on the numbers in `score` and `score_domain` arrays and
not on their addresses.
-/
import Verif.Heap.Caller
import Verif.Heap.Lemmas4

set_option linter.unusedSectionVars false

namespace Kam.Heap

variable {K α φ ε γ θ V : Type}

/-- Two attributes that refer to the same numbers, at addresses that satisfy `P` on the left. -/
def Ref (P : Nat → Prop) (n m : List (List K)) : Option Nat → Option Nat → Prop
  | none, none => True
  | some a, some b => a < n.length ∧ b < m.length ∧ P a ∧ cell n a = cell m b
  | _, _ => False

lemma Ref.grow {P : Nat → Prop} {n m n' m' : List (List K)} {x y : Option Nat} (h : Ref P n m x y)
    (hn : n <+: n') (hm : m <+: m') : Ref P n' m' x y := by
  obtain ⟨a, rfl⟩ := hn
  obtain ⟨b, rfl⟩ := hm
  rcases x with _ | x <;> rcases y with _ | y <;> simp only [Ref] at h ⊢
  obtain ⟨h1, h2, h3, h4⟩ := h
  refine ⟨by simp; omega, by simp; omega, h3, ?_⟩
  rw [cell_append_lt _ _ h1, cell_append_lt _ _ h2, h4]

lemma Ref.eq {P : Nat → Prop} {n m : List (List K)} {x y : Option Nat} (h : Ref P n m x y) :
    y.map (cell m) = x.map (cell n) := by
  rcases x with _ | x <;> rcases y with _ | y <;> simp only [Ref] at h
  · rfl
  · simp [h.2.2.2]

lemma Ref.new {P : Nat → Prop} {n m : List (List K)} (hP : ∀ a, n.length ≤ a → P a) (xs : List K) :
    Ref P (n ++ [xs]) (m ++ [xs]) (some n.length) (some m.length) := by
  simp [Ref, hP]

/-- The same object with other addresses of its `score` and `score_domain`. -/
def Obj.rebase (o : Obj) (s d : Option Nat) : Obj := { o with score := s, scoreDomain := d }

/-- The same heap with other arrays of numbers. -/
def Arrays.rebase (h : Arrays K α φ ε) (m : List (List K)) : Arrays K α φ ε := { h with nums := m }

/-- The same recommender with other addresses of its `score` and `score_domain`. -/
def RObj.rebase (r : RObj γ θ V) (s d : Option Nat) : RObj γ θ V := { r with score := s, scoreDomain := d }

/-- Both. -/
def St.rebase (m : List (List K)) (s d : Option Nat) (x : St K α φ ε) : St K α φ ε :=
  (x.1.rebase m, x.2.rebase s d)

/-- Both. -/
def RSt.rebase (m : List (List K)) (s d : Option Nat) (x : RSt K α φ ε γ θ V) : RSt K α φ ε γ θ V :=
  (x.1.rebase m, x.2.rebase s d)

/-- A function on the states of a result. -/
def mapMut {σ : Type} (f : σ → σ) : Mut σ σ → Mut σ σ
  | .ok s => .ok (f s)
  | .error (e, s) => .error (e, f s)

/-- A function on a result. -/
def mapRes {σ : Type} (f : σ → σ) : Res σ → Res σ
  | .ok s => .ok (f s)
  | .error e => .error e

lemma mapMut_bind {σ : Type} (f : σ → σ) (x : Mut σ σ) (g g' : σ → Mut σ σ)
    (h : ∀ s, g (f s) = mapMut f (g' s)) : (mapMut f x >>= g) = mapMut f (x >>= g') := by
  rcases x with ⟨e, s⟩ | s
  · rfl
  · exact h s

lemma mapRes_bind {σ : Type} (f : σ → σ) (x : Res σ) (g g' : σ → Res σ)
    (h : ∀ s, g (f s) = mapRes f (g' s)) : (mapRes f x >>= g) = mapRes f (x >>= g') := by
  rcases x with e | s
  · rfl
  · exact h s

lemma foldlM_mapMut {σ ι : Type} (f : σ → σ) (g : σ → ι → Mut σ σ) (hg : ∀ s i, g (f s) i = mapMut f (g s i))
    (l : List ι) : ∀ s, l.foldlM g (f s) = mapMut f (l.foldlM g s) := by
  induction l with
  | nil => intro s; rfl
  | cons i l ih =>
    intro s
    simp only [List.foldlM_cons, hg]
    rcases g s i with ⟨e, t⟩ | t
    · rfl
    · exact ih t

lemma foldlM_mapRes {σ ι : Type} (f : σ → σ) (g g' : σ → ι → Res σ)
    (hg : ∀ s i, g' (f s) i = mapRes f (g s i))
    (l : List ι) : ∀ s, l.foldlM g' (f s) = mapRes f (l.foldlM g s) := by
  induction l with
  | nil => intro s; rfl
  | cons i l ih =>
    intro s
    simp only [List.foldlM_cons, hg]
    rcases g s i with e | t
    · rfl
    · exact ih t

section
variable [LinearOrder α]

lemma storeEvent_rebase (m : List (List K)) (s d : Option Nat) (h : Arrays K α φ ε) (o : Obj)
    (x : EventData α φ ε) : storeEvent (h.rebase m) (o.rebase s d) x = (storeEvent h o x).rebase m := by
  unfold storeEvent
  show (match o.event, x.event with | some a, some rows => _ | _, _ => _) = _
  rcases o.event with _ | a <;> rcases x.event with _ | rows <;> rfl

lemma bindEventFeature_rebase (m : List (List K)) (s d : Option Nat) (h : Arrays K α φ ε) (o : Obj)
    (ef : Option (List ε)) :
    bindEventFeature (h.rebase m) (o.rebase s d) ef = (bindEventFeature h o ef).rebase m s d := by
  cases ef <;> rfl

lemma roundObjects_rebase (m : List (List K)) (s d : Option Nat) (event : Arr2 α) (x : St K α φ ε) (t : Nat) :
    roundObjects event (x.rebase m s d) t = mapMut (St.rebase m s d) (roundObjects event x t) := by
  unfold roundObjects
  have : ((x.rebase m s d).2.val (x.rebase m s d).1).toEventData = (x.2.val x.1).toEventData := rfl
  rw [this]
  rcases EventData.setEventObjects event (x.2.val x.1).toEventData t with ⟨e, _⟩ | y <;> rfl

lemma roundColumn_rebase (m : List (List K)) (s d : Option Nat) (event : Arr2 α) (x : St K α φ ε) (t : Nat) :
    roundColumn event (x.rebase m s d) t = mapMut (St.rebase m s d) (roundColumn event x t) := by
  unfold roundColumn
  have : ((x.rebase m s d).2.val (x.rebase m s d).1).toEventData = (x.2.val x.1).toEventData := rfl
  rw [this]
  rcases EventData.setEventColumn event (x.2.val x.1).toEventData t with ⟨e, _⟩ | y
  · rfl
  · show Except.ok (_, _) = Except.ok (_, _)
    congr 2
    exact storeEvent_rebase m s d x.1 x.2 y

lemma setEventBase_rebase (m : List (List K)) (s d : Option Nat) (event : Arr2 α) (ef : Option (List ε))
    (x : St K α φ ε) :
    setEventBase (x.rebase m s d) event ef = mapMut (St.rebase m s d) (setEventBase x event ef) := by
  unfold setEventBase
  have e1 := foldlM_mapMut (St.rebase m s d) (roundObjects event) (roundObjects_rebase m s d event)
    (List.range x.2.nOtypes) x
  show (List.range x.2.nOtypes).foldlM (roundObjects event) (x.rebase m s d) >>= _ = _
  rw [e1]
  refine mapMut_bind _ _ _ _ fun y => ?_
  have e2 := foldlM_mapMut (St.rebase m s d) (roundColumn event) (roundColumn_rebase m s d event)
    (List.range y.2.sEvent) (bindEvent y.1 y.2 (event.rows.map (fun r => r.map (fun _ => (0 : Int)))))
  refine (congrArg (· >>= _) e2).trans (mapMut_bind _ _ _ _ fun z => ?_)
  show Except.ok _ = Except.ok _
  congr 1
  exact bindEventFeature_rebase m s d z.1 { z.2 with nEvents := event.rows.length } ef

/-- `EventData.set_event` leaves the arrays of numbers alone. -/
lemma setEventBase_same (event : Arr2 α) (ef : Option (List ε)) (x : St K α φ ε) :
    setEventBase x event ef = mapMut (St.rebase x.1.nums x.2.score x.2.scoreDomain) (setEventBase x event ef) :=
  setEventBase_rebase x.1.nums x.2.score x.2.scoreDomain event ef x

lemma setFeature_rebase (m : List (List K)) (s d : Option Nat) (t : Nat) (eids : List α) (f : List φ)
    (x : St K α φ ε) :
    setFeature (x.rebase m s d) t eids f = mapRes (St.rebase m s d) (setFeature x t eids f) := by
  unfold setFeature
  have : ((x.rebase m s d).2.val (x.rebase m s d).1).toEventData = (x.2.val x.1).toEventData := rfl
  rw [this]
  rcases (x.2.val x.1).toEventData.setFeature t eids f with e | y <;> rfl

lemma roundFilter_rebase (m : List (List K)) (s d : Option Nat) (self : Obj) (x : St K α φ ε) (t : Nat) :
    roundFilter (self.rebase s d) (x.rebase m s d) t = mapRes (St.rebase m s d) (roundFilter self x t) := by
  unfold roundFilter
  have e1 : ((x.rebase m s d).2.val (x.rebase m s d).1).toEventData = (x.2.val x.1).toEventData := rfl
  have e2 : ((self.rebase s d).val (x.rebase m s d).1).toEventData = (self.val x.1).toEventData := rfl
  rw [e1, e2]
  rcases EventData.filterOtype (self.val x.1).toEventData (x.2.val x.1).toEventData t with e | y
  · rfl
  · show Except.ok (_, _) = Except.ok (_, _)
    congr 2
    have := storeEvent_rebase m s d x.1 x.2 y
    show storeFeature (storeObjects (storeEvent (x.1.rebase m) (x.2.rebase s d) y) _ y) _ y = _
    rw [this]
    rfl

/-- The part of `filter_event` that is inherited (data/event.py:223-283). -/
def filterBase (h : Arrays K α φ ε) (self : Obj) (cond : Sel) (a : Nat) : Res (St K α φ ε) := do
  let rows ← cond.apply (cell h.evs a)
  let s := bindEvent h self rows
  let s := (s.1, { s.2 with nEvents := rows.length })
  let s := copyArrays s.1 s.2
  let s ← (List.range s.2.nOtypes).foldlM (roundFilter self) s
  match self.eventFeature with
  | some b => do
    let f ← cond.apply (cell s.1.efs b)
    return bindEventFeature s.1 s.2 (some f)
  | none => .ok s

/-- The part added for scores (data/event_with_score.py:234-235). -/
def filterScore (self : Obj) (cond : Sel) (s : St K α φ ε) : Res (Option (St K α φ ε)) :=
  match self.score with
  | some b => do
    let xs ← cond.apply (cell s.1.nums b)
    return some (bindScore s.1 s.2 xs)
  | none => return some s

lemma filterEvent_parts (h : Arrays K α φ ε) (self : Obj) (cond : Sel) :
    filterEvent h self cond = match self.event with
      | none => .ok none
      | some a => filterBase h self cond a >>= filterScore self cond := by
  unfold filterEvent filterBase filterScore
  rcases self.event with _ | a
  · rfl
  simp only [bind, Except.bind, pure, Except.pure]
  rcases cond.apply (cell h.evs a) with e | rows
  · rfl
  simp only
  rcases (List.range (copyArrays (bindEvent h self rows).1
    { (bindEvent h self rows).2 with nEvents := rows.length }).2.nOtypes).foldlM (roundFilter self)
    (copyArrays (bindEvent h self rows).1 { (bindEvent h self rows).2 with nEvents := rows.length }) with e | s
  · rfl
  simp only
  rcases self.eventFeature with _ | b
  · rfl
  simp only
  rcases cond.apply (cell s.1.efs b) with e | f <;> rfl

lemma filterBase_rebase (m : List (List K)) (s d : Option Nat) (h : Arrays K α φ ε) (self : Obj) (cond : Sel)
    (a : Nat) :
    filterBase (h.rebase m) (self.rebase s d) cond a = mapRes (St.rebase m s d) (filterBase h self cond a) := by
  unfold filterBase
  have e0 : (h.rebase m).evs = h.evs := rfl
  rw [e0]
  rcases cond.apply (cell h.evs a) with e | rows
  · rfl
  simp only [bind, Except.bind, pure, Except.pure]
  have e1 := foldlM_mapRes (St.rebase m s d) (roundFilter self) (roundFilter (self.rebase s d))
    (roundFilter_rebase m s d self) (List.range self.nOtypes)
    (copyArrays (bindEvent h self rows).1 { (bindEvent h self rows).2 with nEvents := rows.length })
  have e2 : copyArrays (bindEvent (h.rebase m) (self.rebase s d) rows).1
      { (bindEvent (h.rebase m) (self.rebase s d) rows).2 with nEvents := rows.length } =
    St.rebase m s d (copyArrays (bindEvent h self rows).1
      { (bindEvent h self rows).2 with nEvents := rows.length }) := rfl
  rw [e2]
  have e3 : (St.rebase m s d (copyArrays (bindEvent h self rows).1
      { (bindEvent h self rows).2 with nEvents := rows.length })).2.nOtypes = self.nOtypes := rfl
  have e4 : (copyArrays (bindEvent h self rows).1
      { (bindEvent h self rows).2 with nEvents := rows.length }).2.nOtypes = self.nOtypes := rfl
  rw [e3, e4, e1]
  rcases (List.range self.nOtypes).foldlM (roundFilter self)
    (copyArrays (bindEvent h self rows).1 { (bindEvent h self rows).2 with nEvents := rows.length }) with e | x
  · rfl
  show (match self.eventFeature with | some b => _ | none => _) =
    mapRes (St.rebase m s d) (match self.eventFeature with | some b => _ | none => _)
  rcases self.eventFeature with _ | b
  · rfl
  dsimp only
  have e5 : (St.rebase m s d x).1.efs = x.1.efs := rfl
  rw [e5]
  rcases cond.apply (cell x.1.efs b) with e | f <;> rfl

end

/-- `BaseEventRecommender.fit` does not read the arrays of numbers. -/
lemma eventFit_rebase (m : List (List K)) (s d s' d' : Option Nat) (mk : Int → γ) (env : γ)
    (x : RSt K α φ ε γ θ V) (o : Obj) (idx : Option (List Int)) :
    eventFit mk env (x.rebase m s d) (o.rebase s' d') idx =
      mapMut (RSt.rebase m s d) (eventFit mk env x o idx) := by
  obtain ⟨⟨h1, h2, h3, h4, h5, h6, h7⟩, r⟩ := x
  obtain ⟨o1, o2, o3, o4, o5, o6, o7, o8, o9, o10, o11, o12, o13⟩ := o
  obtain ⟨r1, r2, r3, r4, r5, r6, r7, r8, r9, r10, r11, r12, r13, r14, r15, r16, r17⟩ := r
  unfold eventFit
  dsimp only [RSt.rebase, Arrays.rebase, RObj.rebase, Obj.rebase]
  rcases o9 with _ | a
  · rfl
  rcases idx with _ | ix
  all_goals
    dsimp only
    generalize hz : (cell h5 a).mapM (fun row => npTake row _) = z
    rcases z with e | ev
    · rfl
    dsimp only
    rcases npTake (cell h1 o5) (o3.map Int.ofNat) with e | ns
    · rfl
    dsimp only
    generalize npTake ns _ = y
    rcases y with e | ns' <;> rfl

end Kam.Heap
