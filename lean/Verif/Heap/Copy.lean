/-
C141: copies of containers and recommenders made with `copy.copy`, `copy.deepcopy` and `pickle`.

A shallow copy holds the addresses of its source, a deep copy (or what is read back from a pickle) holds new arrays with the same
contents.  The classes of the package define none of the hooks of these modules, so attributes are copied one by one.
-/
import Verif.Heap.Props

set_option linter.unusedSectionVars false

namespace Kam.Heap

variable {K α φ ε γ θ V : Type}

/-! ### model -/

/-- A deep copy of an array an object holds: the arrays afterwards and the new address (the attributes are those of data/base.py:214-227,
data/event.py:177-195, data/event_with_score.py:123-128, base/base.py:76-86). -/
def dup {β : Type} (l : List (List β)) (x : Option Nat) : List (List β) × Option Nat :=
  (l ++ (x.map (cell l)).toList, x.map (fun _ => l.length))

/-- `copy.deepcopy(data)` or `pickle.loads(pickle.dumps(data))` (attributes: data/base.py:214-227, data/event.py:177-195,
data/event_with_score.py:123-128).  If `score` and `score_domain` are one array, the copies are two; no method assigns into them. -/
def deepcopyObj (h : Arrays K α φ ε) (o : Obj) : St K α φ ε :=
  let ev := dup h.evs o.event
  let ef := dup h.efs o.eventFeature
  let sc := dup h.nums o.score
  let dm := dup sc.1 o.scoreDomain
  ({ ints := h.ints ++ [cell h.ints o.nObjects], eids := h.eids ++ [cell h.eids o.eid], iids := h.iids ++ [cell h.iids o.iid]
     feats := h.feats ++ [cell h.feats o.feature], evs := ev.1, efs := ef.1, nums := dm.1 },
   { o with nObjects := h.ints.length, eid := h.eids.length, iid := h.iids.length, feature := h.feats.length
            event := ev.2, eventFeature := ef.2, score := sc.2, scoreDomain := dm.2 })

/-- `copy.deepcopy(recommender)` or `pickle.loads(pickle.dumps(recommender))` (attributes: base/base.py:76-86, 152-161,
data/event_with_score.py:49-68). -/
def deepcopyRObj (h : Arrays K α φ ε) (r : RObj γ θ V) : RSt K α φ ε γ θ V :=
  let no := dup h.ints r.nObjects
  let ei := dup h.eids r.eid
  let ii := dup h.iids r.iid
  let ev := dup h.evs r.event
  let ef := dup h.efs r.eventFeature
  let sc := dup h.nums r.score
  let dm := dup sc.1 r.scoreDomain
  ({ h with ints := no.1, eids := ei.1, iids := ii.1, evs := ev.1, efs := ef.1, nums := dm.1 },
   { r with nObjects := no.2, eid := ei.2, iid := ii.2, event := ev.2, eventFeature := ef.2, score := sc.2, scoreDomain := dm.2 })

/-- Calls of the library and copies made by the program. -/
inductive XOp (K α φ ε γ θ V : Type) where
  | call (op : Op K α φ ε γ θ V)
  /-- `copy.copy(data)` -/
  | copy (i : Nat)
  /-- `copy.deepcopy(data)` or a pickle -/
  | deepcopy (i : Nat)
  /-- `copy.copy(recommender)` -/
  | copyRec (j : Nat)
  /-- `copy.deepcopy(recommender)` or a pickle -/
  | deepcopyRec (j : Nat)

/-- A program with copies: the world, and for every container the one of which it is a shallow copy, directly or over others. -/
structure XWorld (K α φ ε γ θ V : Type) where
  w : World K α φ ε γ θ V
  roots : List Nat

section
variable [LinearOrder α] [Field K] [LinearOrder K] [IsStrictOrderedRing K] [FloorRing K]

/-- One call or copy (the calls: Verif/Heap/Model; attributes: data/base.py:214-227, base/base.py:76-86). -/
def xstep (mk : Int → γ) (s : XWorld K α φ ε γ θ V) : XOp K α φ ε γ θ V → XWorld K α φ ε γ θ V
  | .call op =>
    let w := step mk s.w op
    ⟨w, s.roots ++ List.range' s.roots.length (w.objs.length - s.roots.length)⟩
  | .copy i =>
    match s.w.objs[i]?, s.roots[i]? with
    | some o, some r => ⟨{ s.w with objs := s.w.objs ++ [o] }, s.roots ++ [r]⟩
    | _, _ => s
  | .deepcopy i =>
    match s.w.objs[i]? with
    | some o =>
      let c := deepcopyObj s.w.heap o
      ⟨{ s.w with heap := c.1, objs := s.w.objs ++ [c.2] }, s.roots ++ [s.roots.length]⟩
    | none => s
  | .copyRec j =>
    match s.w.recs[j]? with
    | some r => { s with w := { s.w with recs := s.w.recs ++ [r] } }
    | none => s
  | .deepcopyRec j =>
    match s.w.recs[j]? with
    | some r =>
      let c := deepcopyRObj s.w.heap r
      { s with w := { s.w with heap := c.1, recs := s.w.recs ++ [c.2] } }
    | none => s

/-- A program. -/
def xrun (mk : Int → γ) (s : XWorld K α φ ε γ θ V) (ops : List (XOp K α φ ε γ θ V)) : XWorld K α φ ε γ θ V := ops.foldl (xstep mk) s

/-- The start of a program. -/
def XWorld.empty : XWorld K α φ ε γ θ V := ⟨World.empty, []⟩

/-- A program whose containers are values: a copy is the same value once more. -/
def vxstep (ds : List (ScoreData K α φ ε)) : XOp K α φ ε γ θ V → List (ScoreData K α φ ε)
  | .call op => vstep ds op
  | .copy i | .deepcopy i =>
    match ds[i]? with
    | some d => ds ++ [d]
    | none => ds
  | _ => ds

end

/-! ### copies -/

section dup
variable {β : Type} {l : List (List β)} {x : Option Nat}

lemma dup_cell (hv : ∀ a, x = some a → a < l.length) : (dup l x).2.map (cell (dup l x).1) = x.map (cell l) := by
  cases x with
  | none => rfl
  | some a => simp [dup]

lemma dup_keep {a : Nat} (h : a < l.length) : cell (dup l x).1 a = cell l a := cell_append_lt _ _ h

lemma dup_length : l.length ≤ (dup l x).1.length := by simp [dup]

lemma dup_valid : ∀ a, (dup l x).2 = some a → a < (dup l x).1.length := by
  intro a h
  cases x with
  | none => cases h
  | some b => simp only [dup, Option.map_some, Option.some.injEq] at h; simp [dup, ← h]

lemma dup_new : ∀ a, (dup l x).2 = some a → a = l.length := by
  intro a h
  cases x with
  | none => cases h
  | some b => simp only [dup, Option.map_some, Option.some.injEq] at h; exact h.symm

end dup

lemma deepcopyObj_fresh {h : Arrays K α φ ε} {o : Obj} (hv : o.Valid h) :
    Fresh h (deepcopyObj h o) ∧ (deepcopyObj h o).2.val (deepcopyObj h o).1 = o.val h := by
  have hsc : ∀ a, o.scoreDomain = some a → a < (dup h.nums o.score).1.length := fun a e => (hv.scoreDomain a e).trans_le dup_length
  constructor
  · refine ⟨⟨?_, ?_, ?_, ?_, dup_length, dup_length, dup_length.trans dup_length, ?_, ?_, ?_, ?_, fun a ha => dup_keep ha, fun a ha => dup_keep ha,
      fun a ha => (dup_keep (ha.trans_le dup_length)).trans (dup_keep ha)⟩, ⟨?_, ?_, ?_, ?_, dup_valid, dup_valid,
      fun a e => (dup_valid a e).trans_le dup_length, dup_valid⟩, rfl, rfl, rfl, rfl⟩
    all_goals first
      | (simp [deepcopyObj]; done)
      | exact fun a ha _ => cell_append_lt _ _ ha
  · unfold Obj.val deepcopyObj
    dsimp only
    rw [dup_cell hv.event, dup_cell hv.eventFeature, dup_cell hsc, map_cell_congr hv.scoreDomain (fun a _ h => dup_keep h),
      map_cell_congr (l₀ := (dup h.nums o.score).1) dup_valid (fun a _ h => dup_keep h), dup_cell hv.score]
    simp only [cell_append_len]

lemma deepcopyRObj_fit {h : Arrays K α φ ε} {r : RObj γ θ V} (hv : r.Valid h) :
    FitI h (deepcopyRObj h r) ∧ (deepcopyRObj h r).2.val (deepcopyRObj h r).1 = r.val h := by
  have hsc : ∀ a, r.scoreDomain = some a → a < (dup h.nums r.score).1.length := fun a e => (hv.scoreDomain a e).trans_le dup_length
  constructor
  · refine ⟨⟨dup_length, dup_length, dup_length, le_rfl, dup_length, dup_length, dup_length.trans dup_length, fun a ha _ => dup_keep ha,
      fun a ha _ => dup_keep ha, fun a ha _ => dup_keep ha, fun _ _ _ => rfl, fun a ha => dup_keep ha, fun a ha => dup_keep ha,
      fun a ha => (dup_keep (ha.trans_le dup_length)).trans (dup_keep ha)⟩, ⟨dup_valid, dup_valid, dup_valid, dup_valid, dup_valid,
      fun a e => (dup_valid a e).trans_le dup_length, dup_valid⟩⟩
  · unfold RObj.val deepcopyRObj
    dsimp only
    rw [dup_cell hv.nObjects, dup_cell hv.eid, dup_cell hv.iid, dup_cell hv.event, dup_cell hv.eventFeature, dup_cell hsc,
      map_cell_congr hv.scoreDomain (fun a _ h => dup_keep h),
      map_cell_congr (l₀ := (dup h.nums r.score).1) dup_valid (fun a _ h => dup_keep h), dup_cell hv.score]

/-! ### programs without shallow copies of containers -/

section
variable [LinearOrder α] [Field K] [LinearOrder K] [IsStrictOrderedRing K] [FloorRing K]

/-- The program copies no container with `copy.copy`. -/
def XOp.Deep : XOp K α φ ε γ θ V → Prop
  | .copy _ => False
  | _ => True

lemma xstep_deep (mk : Int → γ) {s : XWorld K α φ ε γ θ V} (hs : Inv s.w) (op : XOp K α φ ε γ θ V) (hd : op.Deep) :
    Inv (xstep mk s op).w ∧ (xstep mk s op).w.vals = vxstep s.w.vals op := by
  cases op with
  | call op => exact hs.step mk op
  | copy i => exact absurd hd (by simp [XOp.Deep])
  | deepcopy i =>
    rcases ho : s.w.objs[i]? with _ | o
    · simp only [xstep, ho, vxstep, vals_getElem?]
      exact ⟨hs, rfl⟩
    · have hf := deepcopyObj_fresh (hs.objs o (List.mem_of_getElem? ho))
      have h := hs.fresh hf.1
      simp only [xstep, ho, vxstep, vals_getElem?, Option.map_some]
      refine ⟨h.1, h.2.trans ?_⟩
      rw [show (deepcopyObj s.w.heap o).val = o.val s.w.heap from hf.2]
  | copyRec j =>
    rcases hr : s.w.recs[j]? with _ | r
    · simp only [xstep, hr, vxstep]; exact ⟨hs, trivial⟩
    · simp only [xstep, hr, vxstep]
      refine ⟨⟨hs.objs, fun x hx => ?_, hs.nObjects, hs.eid, hs.iid, hs.feature⟩, rfl⟩
      rcases List.mem_append.1 hx with hx | hx
      · exact hs.recs x hx
      · simp at hx; subst hx; exact hs.recs _ (List.mem_of_getElem? hr)
  | deepcopyRec j =>
    rcases hr : s.w.recs[j]? with _ | r
    · simp only [xstep, hr, vxstep]; exact ⟨hs, trivial⟩
    · have hf := (deepcopyRObj_fit (hs.recs r (List.mem_of_getElem? hr))).1
      simp only [xstep, hr, vxstep]
      refine ⟨⟨fun o ho => hf.keep.valid (hs.objs o ho), fun x hx => ?_, hs.nObjects, hs.eid, hs.iid, hs.feature⟩,
        List.map_congr_left (fun o ho => hf.keep.val (hs.objs o ho))⟩
      rcases List.mem_append.1 hx with hx | hx
      · exact hf.keep.rvalid (hs.recs x hx)
      · simp at hx; subst hx; exact hf.valid

/-- C141: whatever a program does, with deep copies and pickles of containers and with any copies of recommenders, its containers report what
they would report if they were values: a copy starts with the value of its source, and afterwards neither changes the other. -/
theorem C141_deepcopy (mk : Int → γ) (ops : List (XOp K α φ ε γ θ V)) (hd : ∀ op ∈ ops, op.Deep) :
    (xrun mk XWorld.empty ops).w.vals = ops.foldl vxstep [] := by
  suffices h : ∀ s : XWorld K α φ ε γ θ V, Inv s.w → (xrun mk s ops).w.vals = ops.foldl vxstep s.w.vals from
    h XWorld.empty Inv.empty
  induction ops with
  | nil => intro s _; rfl
  | cons op ops ih =>
    intro s hs
    have h := xstep_deep mk hs op (hd op (by simp))
    have := ih (fun x hx => hd x (by simp [hx])) (xstep mk s op) h.1
    rw [h.2] at this
    exact this

/-! ### programs with shallow copies -/

/-- Two containers hold different object arrays. -/
structure Apart (o o' : Obj) : Prop where
  nObjects : o.nObjects ≠ o'.nObjects
  eid : o.eid ≠ o'.eid
  iid : o.iid ≠ o'.iid
  feature : o.feature ≠ o'.feature

/-- All addresses exist; containers that are not shallow copies of each other hold different arrays. -/
structure XInv (s : XWorld K α φ ε γ θ V) : Prop where
  objs : ∀ o ∈ s.w.objs, o.Valid s.w.heap
  recs : ∀ r ∈ s.w.recs, r.Valid s.w.heap
  length : s.roots.length = s.w.objs.length
  bound : ∀ r ∈ s.roots, r < s.roots.length
  apart : ∀ (i j : Nat) (o o' : Obj), s.w.objs[i]? = some o → s.w.objs[j]? = some o' → s.roots[i]? ≠ s.roots[j]? → Apart o o'

lemma XInv.empty : XInv (XWorld.empty : XWorld K α φ ε γ θ V) := by
  constructor <;> simp [XWorld.empty, World.empty]

/-- A new container with new arrays. -/
lemma XInv.fresh {s : XWorld K α φ ε γ θ V} (hs : XInv s) {c : St K α φ ε} (hc : Fresh s.w.heap c) :
    XInv ⟨{ s.w with heap := c.1, objs := s.w.objs ++ [c.2] }, s.roots ++ [s.roots.length]⟩ := by
  refine ⟨?_, fun r hr => hc.keep.rvalid (hs.recs r hr), by simp [hs.length], ?_, ?_⟩
  · intro x hx
    rcases List.mem_append.1 hx with hx | hx
    · exact hc.keep.valid (hs.objs x hx)
    · simp at hx; subst hx; exact hc.valid
  · intro r hr
    simp only [List.length_append, List.length_singleton]
    rcases List.mem_append.1 hr with hr | hr
    · exact (hs.bound r hr).trans (Nat.lt_succ_self _)
    · simp at hr; omega
  · have hnew : ∀ o ∈ s.w.objs, Apart o c.2 := fun o ho => by
      have hv := hs.objs o ho
      exact ⟨by rw [hc.nObjects]; exact hv.nObjects.ne, by rw [hc.eid]; exact hv.eid.ne, by rw [hc.iid]; exact hv.iid.ne,
        by rw [hc.feature]; exact hv.feature.ne⟩
    have hsymm : ∀ {a b : Obj}, Apart a b → Apart b a := fun h => ⟨h.1.symm, h.2.symm, h.3.symm, h.4.symm⟩
    have cases' : ∀ i o, (s.w.objs ++ [c.2])[i]? = some o → (s.w.objs[i]? = some o ∧ i < s.w.objs.length) ∨ (i = s.w.objs.length ∧ o = c.2) := by
      intro i o h
      by_cases hi : i < s.w.objs.length
      · rw [List.getElem?_append_left hi] at h; exact .inl ⟨h, hi⟩
      · rw [List.getElem?_append_right (by omega)] at h
        by_cases he : i = s.w.objs.length
        · subst he; simp at h; exact .inr ⟨rfl, h.symm⟩
        · rw [List.getElem?_eq_none (by simp; omega)] at h; cases h
    intro i j o o' hi hj hne
    rcases cases' i o hi with ⟨hi, li⟩ | ⟨rfl, rfl⟩ <;> rcases cases' j o' hj with ⟨hj, lj⟩ | ⟨rfl, rfl⟩
    · refine hs.apart i j o o' hi hj ?_
      dsimp only at hne
      rwa [List.getElem?_append_left (by rw [hs.length]; exact li), List.getElem?_append_left (by rw [hs.length]; exact lj)] at hne
    · exact hnew o (List.mem_of_getElem? hi)
    · exact hsymm (hnew o' (List.mem_of_getElem? hj))
    · exact absurd rfl hne

/-- Nothing but new arrays and recommenders. -/
lemma XInv.grow {s : XWorld K α φ ε γ θ V} (hs : XInv s) {h : Arrays K α φ ε} (hk : KeepAll s.w.heap h) {rs : List (RObj γ θ V)}
    (hr : ∀ r ∈ rs, r.Valid h) : XInv ⟨{ s.w with heap := h, recs := rs }, s.roots⟩ :=
  ⟨fun o ho => hk.valid (hs.objs o ho), hr, hs.length, hs.bound, hs.apart⟩

lemma XInv.own {s : XWorld K α φ ε γ θ V} (hs : XInv s) {k : Nat} {o : Obj} (ho : s.w.objs[k]? = some o) {c : St K α φ ε}
    (hc : Own s.w.heap o c) : XInv ⟨{ s.w with heap := c.1, objs := s.w.objs.set k c.2 }, s.roots⟩ := by
  refine ⟨?_, fun r hr => hc.keep.rvalid (hs.recs r hr), by simp [hs.length], hs.bound, ?_⟩
  · intro x hx
    rcases mem_of_mem_set hx with rfl | hx
    · exact hc.valid
    · exact hc.keep.valid (hs.objs x hx)
  · have back : ∀ (i : Nat) (x : Obj), (s.w.objs.set k c.2)[i]? = some x → ∃ y, s.w.objs[i]? = some y ∧ x.nObjects = y.nObjects ∧ x.eid = y.eid ∧
        x.iid = y.iid ∧ x.feature = y.feature := by
      intro i x hx
      by_cases hi : k = i
      · subst hi
        obtain ⟨hlt, _⟩ := List.getElem?_eq_some_iff.1 ho
        simp [hlt] at hx
        subst hx
        exact ⟨o, ho, hc.nObjects, hc.eid, hc.iid, hc.feature⟩
      · rw [List.getElem?_set_ne hi] at hx
        exact ⟨x, hx, rfl, rfl, rfl, rfl⟩
    intro i j x x' hx hx' hne
    obtain ⟨y, hy, a1, a2, a3, a4⟩ := back i x hx
    obtain ⟨y', hy', b1, b2, b3, b4⟩ := back j x' hx'
    have h := hs.apart i j y y' hy hy' hne
    exact ⟨by rw [a1, b1]; exact h.1, by rw [a2, b2]; exact h.2, by rw [a3, b3]; exact h.3, by rw [a4, b4]; exact h.4⟩

/-- The call assigns into arrays that shallow copies share: `set_event` or `set_feature` on container `k`. -/
def XOp.Assigns (k : Nat) : XOp K α φ ε γ θ V → Prop
  | .call (.setEvent i _ _ _ _) => i = k
  | .call (.setFeature i _ _ _) => i = k
  | _ => False

/-- The call is made on container `k`. -/
def XOp.On (k : Nat) : XOp K α φ ε γ θ V → Prop
  | .call op => op.target = some k
  | _ => False

/-- The call spares container `x`: it is not made on it, and does not assign into arrays of a shallow copy or source of it. -/
def Spares (x : Nat) (s : XWorld K α φ ε γ θ V) (op : XOp K α φ ε γ θ V) : Prop :=
  ¬ op.On x ∧ ∀ k, op.Assigns k → s.roots[k]? ≠ s.roots[x]?

lemma xstep_inv (mk : Int → γ) {s : XWorld K α φ ε γ θ V} (hs : XInv s) (op : XOp K α φ ε γ θ V) : XInv (xstep mk s op) ∧
    ∀ x o, s.w.objs[x]? = some o → Spares x s op →
      ∃ o', (xstep mk s op).w.objs[x]? = some o' ∧ o'.val (xstep mk s op).w.heap = o.val s.w.heap ∧ (xstep mk s op).roots[x]? = s.roots[x]? := by
  have app : ∀ {β : Type} (l : List β) (m : List β) {x : Nat} {o : β}, l[x]? = some o → (l ++ m)[x]? = some o := by
    intro β l m x o h
    obtain ⟨hlt, _⟩ := List.getElem?_eq_some_iff.1 h
    rw [List.getElem?_append_left hlt, h]
  have rapp : ∀ (m : List Nat) {x : Nat} {o : Obj}, s.w.objs[x]? = some o → (s.roots ++ m)[x]? = s.roots[x]? := by
    intro m x o h
    obtain ⟨hlt, _⟩ := List.getElem?_eq_some_iff.1 h
    rw [List.getElem?_append_left (by rw [hs.length]; exact hlt)]
  cases op with
  | call op =>
    have h := step_effect' mk hs.objs hs.recs op
    simp only [xstep]
    generalize Heap.step mk s.w op = w' at h
    cases h with
    | nothing hv =>
      have e : s.w.objs.length - s.roots.length = 0 := by rw [hs.length]; omega
      simp only [e, List.range'_zero, List.append_nil]
      exact ⟨hs, fun x o ho _ => ⟨o, ho, rfl, trivial⟩⟩
    | own k o c ho hc hv hk ht =>
      have e : (s.w.objs.set k c.2).length - s.roots.length = 0 := by rw [hs.length]; simp
      simp only [e, List.range'_zero, List.append_nil]
      refine ⟨hs.own ho hc, fun x y hy hsp => ?_⟩
      have hne : k ≠ x := by
        rintro rfl
        apply hsp.1
        rcases ht with ⟨a, b, c, d, rfl⟩ | ⟨a, b, c, rfl⟩ | ⟨⟨a, rfl⟩, _⟩ <;> rfl
      refine ⟨y, by rw [List.getElem?_set_ne hne]; exact hy, ?_, trivial⟩
      have hvy := hs.objs y (List.mem_of_getElem? hy)
      have hroot : (XOp.call op : XOp K α φ ε γ θ V).Assigns k → y.val c.1 = y.val s.w.heap := fun ha => by
        have h := hs.apart x k y o hy ho (hsp.2 k ha).symm
        exact hc.keep.val_eq hvy h.1 h.2 h.3 h.4
      rcases ht with ⟨a, b, c, d, rfl⟩ | ⟨a, b, c, rfl⟩ | ⟨⟨a, rfl⟩, hall⟩
      · exact hroot rfl
      · exact hroot rfl
      · exact hall.val hvy
    | fresh c hc hv =>
      have e : (s.w.objs ++ [c.2]).length - s.roots.length = 1 := by rw [hs.length]; simp
      simp only [e, List.range'_one]
      exact ⟨hs.fresh hc, fun x o ho _ => ⟨o, app _ _ ho, hc.keep.val (hs.objs o (List.mem_of_getElem? ho)), rapp _ ho⟩⟩
    | recommender j c hc hv hj =>
      have e : s.w.objs.length - s.roots.length = 0 := by rw [hs.length]; omega
      simp only [e, List.range'_zero, List.append_nil]
      refine ⟨hs.grow hc.keep (fun r hr => ?_), fun x o ho _ => ⟨o, ho, hc.keep.val (hs.objs o (List.mem_of_getElem? ho)), trivial⟩⟩
      rcases mem_of_mem_set hr with rfl | hr
      · exact hc.valid
      · exact hc.keep.rvalid (hs.recs r hr)
    | newRec r hr hv =>
      have e : s.w.objs.length - s.roots.length = 0 := by rw [hs.length]; omega
      simp only [e, List.range'_zero, List.append_nil]
      refine ⟨hs.grow (Keep.refl _) (fun x hx => ?_), fun x o ho _ => ⟨o, ho, rfl, trivial⟩⟩
      rcases List.mem_append.1 hx with hx | hx
      · exact hs.recs x hx
      · simp at hx; subst hx; exact hr
  | copy i =>
    simp only [xstep]
    rcases ho : s.w.objs[i]? with _ | o
    · exact ⟨hs, fun x o ho _ => ⟨o, ho, rfl, rfl⟩⟩
    rcases hr : s.roots[i]? with _ | r
    · exact ⟨hs, fun x o ho _ => ⟨o, ho, rfl, rfl⟩⟩
    refine ⟨⟨?_, hs.recs, by simp [hs.length], ?_, ?_⟩, fun x o ho _ => ⟨o, app _ _ ho, rfl, rapp _ ho⟩⟩
    · intro x hx
      rcases List.mem_append.1 hx with hx | hx
      · exact hs.objs x hx
      · simp at hx; subst hx; exact hs.objs _ (List.mem_of_getElem? ho)
    · intro x hx
      simp only [List.length_append, List.length_singleton]
      rcases List.mem_append.1 hx with hx | hx
      · exact (hs.bound x hx).trans (Nat.lt_succ_self _)
      · simp at hx; subst hx; exact (hs.bound _ (List.mem_of_getElem? hr)).trans (Nat.lt_succ_self _)
    · have back : ∀ (k : Nat) (x : Obj), (s.w.objs ++ [o])[k]? = some x → ∃ k' : Nat, s.w.objs[k']? = some x ∧ (s.roots ++ [r])[k]? = s.roots[k']? := by
        intro k x hx
        by_cases hk : k < s.w.objs.length
        · rw [List.getElem?_append_left hk] at hx
          exact ⟨k, hx, rapp _ hx⟩
        · have hk' : k = s.w.objs.length := by
            by_contra hne
            rw [List.getElem?_eq_none (by simp; omega)] at hx; cases hx
          subst hk'
          simp at hx; subst hx
          refine ⟨i, ho, ?_⟩
          rw [hr, ← hs.length]; simp
      intro a b x y hx hy hne
      obtain ⟨a', ha, ea⟩ := back a x hx
      obtain ⟨b', hb, eb⟩ := back b y hy
      refine hs.apart a' b' x y ha hb ?_
      dsimp only at hne
      rwa [ea, eb] at hne
  | deepcopy i =>
    simp only [xstep]
    rcases ho : s.w.objs[i]? with _ | o
    · exact ⟨hs, fun x o ho _ => ⟨o, ho, rfl, rfl⟩⟩
    have hf := (deepcopyObj_fresh (hs.objs o (List.mem_of_getElem? ho))).1
    exact ⟨hs.fresh hf, fun x o ho _ => ⟨o, app _ _ ho, hf.keep.val (hs.objs o (List.mem_of_getElem? ho)), rapp _ ho⟩⟩
  | copyRec j =>
    simp only [xstep]
    rcases hr : s.w.recs[j]? with _ | r
    · exact ⟨hs, fun x o ho _ => ⟨o, ho, rfl, rfl⟩⟩
    refine ⟨hs.grow (Keep.refl _) (fun x hx => ?_), fun x o ho _ => ⟨o, ho, rfl, rfl⟩⟩
    rcases List.mem_append.1 hx with hx | hx
    · exact hs.recs x hx
    · simp at hx; subst hx; exact hs.recs _ (List.mem_of_getElem? hr)
  | deepcopyRec j =>
    simp only [xstep]
    rcases hr : s.w.recs[j]? with _ | r
    · exact ⟨hs, fun x o ho _ => ⟨o, ho, rfl, rfl⟩⟩
    have hf := (deepcopyRObj_fit (hs.recs r (List.mem_of_getElem? hr))).1
    refine ⟨hs.grow hf.keep (fun x hx => ?_), fun x o ho _ => ⟨o, ho, hf.keep.val (hs.objs o (List.mem_of_getElem? ho)), rfl⟩⟩
    rcases List.mem_append.1 hx with hx | hx
    · exact hf.keep.rvalid (hs.recs x hx)
    · simp at hx; subst hx; exact hf.valid

lemma xrun_inv (mk : Int → γ) {s : XWorld K α φ ε γ θ V} (hs : XInv s) (ops : List (XOp K α φ ε γ θ V)) : XInv (xrun mk s ops) := by
  induction ops generalizing s with
  | nil => exact hs
  | cons op ops ih => exact ih (xstep_inv mk hs op).1

/-- C141: a container reports the same after any calls and copies that are not made on it, unless `set_event` or `set_feature` is called on
a container that is a shallow copy of it, or of which it is one, directly or over others. -/
theorem C141_spared (mk : Int → γ) (before later : List (XOp K α φ ε γ θ V)) (x : Nat)
    (hx : x < (xrun mk XWorld.empty before).w.objs.length)
    (hsp : ∀ pre op post, later = pre ++ op :: post → Spares x (xrun mk (xrun mk XWorld.empty before) pre) op) :
    (xrun mk XWorld.empty (before ++ later)).w.vals[x]? = (xrun mk XWorld.empty before).w.vals[x]? := by
  have happ : xrun mk XWorld.empty (before ++ later) = xrun mk (xrun mk XWorld.empty before) later := by simp [xrun]
  rw [happ]
  have hI := xrun_inv mk (XInv.empty (K := K) (α := α) (φ := φ) (ε := ε) (γ := γ) (θ := θ) (V := V)) before
  clear happ
  generalize xrun mk XWorld.empty before = s at *
  induction later generalizing s with
  | nil => rfl
  | cons op ops ih =>
    have h := xstep_inv mk hI op
    obtain ⟨o', h1, h2, -⟩ := h.2 x _ (List.getElem?_eq_getElem hx) (hsp [] op ops rfl)
    have hlt : x < (xstep mk s op).w.objs.length := (List.getElem?_eq_some_iff.1 h1).1
    have := ih (xstep mk s op) hlt (fun pre op' post e => by
      have := hsp (op :: pre) op' post (by rw [e]; rfl)
      exact this) h.1
    change (xrun mk (xstep mk s op) ops).w.vals[x]? = _
    rw [this, vals_getElem?, vals_getElem?, h1, List.getElem?_eq_getElem hx]
    simp only [Option.map_some, h2]

/-! ### recommenders -/

/-- The call trains recommender `k`. -/
def XOp.Fits (k : Nat) : XOp K α φ ε γ θ V → Prop
  | .call (.fit _ _ _ j _ _) => j = k
  | _ => False

/-- Recommender `k` holds no array a container holds, and predicts what `r₀` predicts. -/
structure Frozen (s : XWorld K α φ ε γ θ V) (k : Nat) (r₀ : Rec K α φ ε γ θ V) (r : RObj γ θ V) : Prop where
  inv : XInv s
  at_ : s.w.recs[k]? = some r
  nObjects : ∀ o ∈ s.w.objs, r.nObjects ≠ some o.nObjects
  eid : ∀ o ∈ s.w.objs, r.eid ≠ some o.eid
  iid : ∀ o ∈ s.w.objs, r.iid ≠ some o.iid
  predicts : ∀ (L : Learner K γ θ V) (eev : ArrN α), Rec.predict L (r.val s.w.heap) eev = Rec.predict L r₀ eev

lemma predict_removeData (h : Arrays K α φ ε) (r : RObj γ θ V) (L : Learner K γ θ V) (eev : ArrN α) :
    Rec.predict L ((removeData r).val h) eev = Rec.predict L (r.val h) eev := rfl

lemma Frozen.step (mk : Int → γ) {s : XWorld K α φ ε γ θ V} {k : Nat} {r₀ : Rec K α φ ε γ θ V} {r : RObj γ θ V} (hF : Frozen s k r₀ r)
    (op : XOp K α φ ε γ θ V) (hop : ¬ op.Fits k) : ∃ r', Frozen (xstep mk s op) k r₀ r' := by
  have hI := (xstep_inv mk hF.inv op).1
  have hv := hF.inv.recs r (List.mem_of_getElem? hF.at_)
  have app : ∀ {β : Type} (l : List β) (m : List β) {x : Nat} {o : β}, l[x]? = some o → (l ++ m)[x]? = some o := by
    intro β l m x o h
    obtain ⟨hlt, _⟩ := List.getElem?_eq_some_iff.1 h
    rw [List.getElem?_append_left hlt, h]
  have fresh : ∀ (c : St K α φ ε) (rs : List Nat), Fresh s.w.heap c → XInv ⟨{ s.w with heap := c.1, objs := s.w.objs ++ [c.2] }, rs⟩ →
      Frozen ⟨{ s.w with heap := c.1, objs := s.w.objs ++ [c.2] }, rs⟩ k r₀ r := by
    intro c rs hc hI
    refine ⟨hI, hF.at_, fun o ho => ?_, fun o ho => ?_, fun o ho => ?_, fun L eev => by
      rw [show r.val c.1 = r.val s.w.heap from hc.keep.rval hv]; exact hF.predicts L eev⟩
    · rcases List.mem_append.1 ho with ho | ho
      · exact hF.nObjects o ho
      · simp at ho; subst ho; rw [hc.nObjects]; exact fun e => lt_irrefl _ (hv.nObjects _ e)
    · rcases List.mem_append.1 ho with ho | ho
      · exact hF.eid o ho
      · simp at ho; subst ho; rw [hc.eid]; exact fun e => lt_irrefl _ (hv.eid _ e)
    · rcases List.mem_append.1 ho with ho | ho
      · exact hF.iid o ho
      · simp at ho; subst ho; rw [hc.iid]; exact fun e => lt_irrefl _ (hv.iid _ e)
  cases op with
  | call op =>
    have h := step_effect' mk hF.inv.objs hF.inv.recs op
    simp only [xstep] at hI ⊢
    generalize Heap.step mk s.w op = w' at h hI
    cases h with
    | nothing hv' => exact ⟨r, hI, hF.at_, hF.nObjects, hF.eid, hF.iid, hF.predicts⟩
    | own i o c ho hc hv' hk ht =>
      have hmem := List.mem_of_getElem? ho
      refine ⟨r, hI, hF.at_, fun x hx => ?_, fun x hx => ?_, fun x hx => ?_, fun L eev => ?_⟩
      · rcases mem_of_mem_set hx with rfl | hx
        · rw [hc.nObjects]; exact hF.nObjects o hmem
        · exact hF.nObjects x hx
      · rcases mem_of_mem_set hx with rfl | hx
        · rw [hc.eid]; exact hF.eid o hmem
        · exact hF.eid x hx
      · rcases mem_of_mem_set hx with rfl | hx
        · rw [hc.iid]; exact hF.iid o hmem
        · exact hF.iid x hx
      · rw [show r.val c.1 = r.val s.w.heap from hc.keep.rval_eq hv (hF.nObjects o hmem) (hF.eid o hmem) (hF.iid o hmem)]
        exact hF.predicts L eev
    | fresh c hc hv' => exact ⟨r, fresh c _ hc hI⟩
    | recommender j c hc hv' hj =>
      by_cases hjk : j = k
      · subst hjk
        rcases hj with ⟨a, b, c, d, e, rfl⟩ | ⟨r', hr', rfl⟩
        · exact absurd rfl hop
        · obtain ⟨hlt, _⟩ := List.getElem?_eq_some_iff.1 hF.at_
          rw [hF.at_] at hr'
          cases hr'
          exact ⟨removeData r, hI, by simp [hlt], hF.nObjects, hF.eid, hF.iid, fun L eev => (predict_removeData _ r L eev).trans (hF.predicts L eev)⟩
      · refine ⟨r, hI, ?_, hF.nObjects, hF.eid, hF.iid, fun L eev => by
          rw [show r.val c.1 = r.val s.w.heap from hc.keep.rval hv]; exact hF.predicts L eev⟩
        simp only [List.getElem?_set_ne hjk]
        exact hF.at_
    | newRec r' hr' hv' => exact ⟨r, hI, app _ _ hF.at_, hF.nObjects, hF.eid, hF.iid, hF.predicts⟩
  | copy i =>
    simp only [xstep] at hI ⊢
    rcases ho : s.w.objs[i]? with _ | o
    · exact ⟨r, hF⟩
    rcases hr : s.roots[i]? with _ | r'
    · exact ⟨r, hF⟩
    rw [ho, hr] at hI
    have hmem := List.mem_of_getElem? ho
    refine ⟨r, hI, hF.at_, fun x hx => ?_, fun x hx => ?_, fun x hx => ?_, hF.predicts⟩ <;> rcases List.mem_append.1 hx with hx | hx
    · exact hF.nObjects x hx
    · simp at hx; subst hx; exact hF.nObjects _ hmem
    · exact hF.eid x hx
    · simp at hx; subst hx; exact hF.eid _ hmem
    · exact hF.iid x hx
    · simp at hx; subst hx; exact hF.iid _ hmem
  | deepcopy i =>
    simp only [xstep] at hI ⊢
    rcases ho : s.w.objs[i]? with _ | o
    · exact ⟨r, hF⟩
    rw [ho] at hI
    exact ⟨r, fresh _ _ (deepcopyObj_fresh (hF.inv.objs o (List.mem_of_getElem? ho))).1 hI⟩
  | copyRec j =>
    simp only [xstep] at hI ⊢
    rcases hr : s.w.recs[j]? with _ | r'
    · exact ⟨r, hF⟩
    rw [hr] at hI
    exact ⟨r, hI, app _ _ hF.at_, hF.nObjects, hF.eid, hF.iid, hF.predicts⟩
  | deepcopyRec j =>
    simp only [xstep] at hI ⊢
    rcases hr : s.w.recs[j]? with _ | r'
    · exact ⟨r, hF⟩
    rw [hr] at hI
    have hf := (deepcopyRObj_fit (hF.inv.recs r' (List.mem_of_getElem? hr))).1
    exact ⟨r, hI, app _ _ hF.at_, hF.nObjects, hF.eid, hF.iid, fun L eev => by
      rw [show r.val (deepcopyRObj s.w.heap r').1 = r.val s.w.heap from hf.keep.rval hv]; exact hF.predicts L eev⟩

/-- C141: a deep copy of a recommender, or what is read back from its pickle, predicts whatever happens afterwards what the recommender
predicted when it was copied, unless it is fitted itself: also if its training container is loaded anew, which changes the predictions of
the original (`C24_refuted`). -/
theorem C141_frozen (mk : Int → γ) (before later : List (XOp K α φ ε γ θ V)) (j : Nat)
    (hj : j < (xrun mk XWorld.empty before).w.recs.length)
    (hl : ∀ op ∈ later, ¬ op.Fits (xrun mk XWorld.empty before).w.recs.length) (L : Learner K γ θ V) (eev : ArrN α) :
    (xrun mk XWorld.empty (before ++ .deepcopyRec j :: later)).w.predict L (xrun mk XWorld.empty before).w.recs.length eev =
      (xrun mk XWorld.empty before).w.predict L j eev := by
  have happ : xrun mk XWorld.empty (before ++ .deepcopyRec j :: later) =
      xrun mk (xstep mk (xrun mk XWorld.empty before) (.deepcopyRec j)) later := by simp [xrun]
  rw [happ]
  have hI := xrun_inv mk (XInv.empty (K := K) (α := α) (φ := φ) (ε := ε) (γ := γ) (θ := θ) (V := V)) before
  clear happ
  generalize xrun mk XWorld.empty before = s at *
  have hr := List.getElem?_eq_getElem hj
  generalize s.w.recs[j] = r at hr
  have hf := deepcopyRObj_fit (hI.recs r (List.mem_of_getElem? hr))
  have hI' := (xstep_inv mk hI (.deepcopyRec j)).1
  have hF : ∃ r', Frozen (xstep mk s (.deepcopyRec j)) s.w.recs.length (r.val s.w.heap) r' := by
    simp only [xstep, hr] at hI' ⊢
    refine ⟨(deepcopyRObj s.w.heap r).2, hI', by simp, fun o ho e => ?_, fun o ho e => ?_, fun o ho e => ?_, fun L eev => ?_⟩
    · have := dup_new _ e; have := (hI.objs o ho).nObjects; omega
    · have := dup_new _ e; have := (hI.objs o ho).eid; omega
    · have := dup_new _ e; have := (hI.objs o ho).iid; omega
    · rw [show (deepcopyRObj s.w.heap r).2.val (deepcopyRObj s.w.heap r).1 = r.val s.w.heap from hf.2]
  have key : ∀ (later : List (XOp K α φ ε γ θ V)) (t : XWorld K α φ ε γ θ V), (∀ op ∈ later, ¬ op.Fits s.w.recs.length) →
      (∃ r', Frozen t s.w.recs.length (r.val s.w.heap) r') → ∃ r', Frozen (xrun mk t later) s.w.recs.length (r.val s.w.heap) r' := by
    intro later
    induction later with
    | nil => exact fun t _ h => h
    | cons op ops ih =>
      intro t hl h
      obtain ⟨r', h⟩ := h
      exact ih (xstep mk t op) (fun x hx => hl x (by simp [hx])) (h.step mk op (hl op (by simp)))
  obtain ⟨r', h⟩ := key later _ hl hF
  simp only [World.predict, h.at_, hr, Option.map_some, h.predicts]

end

/-! ### a program -/

/-- Two events are loaded, and the container is copied in both ways. -/
def exCopies : List (XOp ℚ Nat Unit Unit Unit Unit Unit) := exBefore.map .call ++ [.copy 0, .deepcopy 0]

/-- C141, `copy.copy(data)` is not independent of `data`: loading other events into the copy leaves the internal events of the source, but
overwrites the id tables they refer to, so the source reports other events. -/
theorem C141_shallow_refuted : ∃ (before : List (XOp ℚ Nat Unit Unit Unit Unit Unit)) (op : Op ℚ Nat Unit Unit Unit Unit Unit),
    op.target = some 1 ∧
    ((xrun (fun _ => ()) XWorld.empty (before ++ [.copy 0])).w.vals[0]?).map (fun d => (d.event, d.toEventData.toEid 0 0)) =
      some (some [[0, 0], [1, 1]], .ok 1) ∧
    ((xrun (fun _ => ()) XWorld.empty (before ++ [.copy 0, .call op])).w.vals[0]?).map (fun d => (d.event, d.toEventData.toEid 0 0)) =
      some (some [[0, 0], [1, 1]], .ok 5) :=
  ⟨[.call (.new 2 .none), .call (.setEvent 0 ⟨2, [[1, 1], [2, 2]]⟩ [1, 2] (some [1, 2, 1]) none)],
    .setEvent 1 ⟨2, [[5, 1], [6, 2]]⟩ [1, 2] (some [1, 2, 1]) none, rfl, rfl, rfl⟩

/-- The hypotheses of `C141_deepcopy`, and its conclusion: the deep copy keeps the events when its source is loaded anew, and reports
those of its source until then. -/
example : (∀ op ∈ exBefore.map XOp.call ++ [.deepcopy 0, .call exReload], op.Deep) ∧
    (xrun (fun _ => ()) XWorld.empty (exBefore.map XOp.call ++ [.deepcopy 0, .call exReload])).w.vals.map (fun d => d.eid) =
      [[some [0, 1], some [1, 2]], [some [2], some [2]], [some [1, 2], some [1, 2]]] :=
  ⟨by simp [exBefore, XOp.Deep], rfl⟩

/-- The hypotheses of `C141_spared` for the source of a shallow copy: the score of the copy is binarized, its deep copy is loaded anew. -/
example : 0 < (xrun (fun _ => ()) XWorld.empty exCopies).w.objs.length ∧
    (∀ pre op post, ([.call (.binarize 2 none), .call (.setEvent 3 ⟨2, [[0, 1], [1, 2]]⟩ [1, 2] (some [1, 2, 1]) none)] :
      List (XOp ℚ Nat Unit Unit Unit Unit Unit)) = pre ++ op :: post →
      Spares 0 (xrun (fun _ => ()) (xrun (fun _ => ()) XWorld.empty exCopies) pre) op) ∧
    (xrun (fun _ => ()) XWorld.empty exCopies).roots = [0, 1, 0, 3] := by
  refine ⟨by decide, ?_, rfl⟩
  intro pre op post h
  match pre, h with
  | [], h =>
    obtain ⟨rfl, _⟩ := List.cons.inj h
    exact ⟨by simp [XOp.On, Op.target], fun k hk => absurd hk (by simp [XOp.Assigns])⟩
  | [a], h =>
    obtain ⟨rfl, h'⟩ := List.cons.inj h
    obtain ⟨rfl, _⟩ := List.cons.inj h'
    refine ⟨by simp [XOp.On, Op.target], fun k hk => ?_⟩
    simp only [XOp.Assigns] at hk
    subst hk
    decide
  | a :: b :: l, h => simp at h

/-- The recommender of `exBefore` is trained. -/
def exTrained : List (XOp ℚ Nat Unit Unit Unit Unit Unit) := (exBefore.map .call) ++ [.call (.fit .implicit exFirst () 0 0 none)]

/-- The hypotheses of `C141_frozen`: a recommender is trained and copied, its training container is loaded anew; the copy (1) predicts for
the event (1, 1) what the original (0) predicted before, not what that predicts now. -/
example : 0 < (xrun (fun _ => ()) XWorld.empty exTrained).w.recs.length ∧
    (∀ op ∈ [(.call exReload : XOp ℚ Nat Unit Unit Unit Unit Unit)], ¬ op.Fits 1) ∧
    (xrun (fun _ => ()) XWorld.empty exTrained).w.predict exFirst 0 (.vec [1, 1]) =
      some (.ok (.scalar 0)) ∧
    (xrun (fun _ => ()) XWorld.empty (exTrained ++
      .deepcopyRec 0 :: [.call exReload])).w.predict exFirst 1 (.vec [1, 1]) = some (.ok (.scalar 0)) ∧
    (xrun (fun _ => ()) XWorld.empty (exTrained ++
      .deepcopyRec 0 :: [.call exReload])).w.predict exFirst 0 (.vec [1, 1]) = some (.ok (.scalar 1)) :=
  ⟨by decide, by simp [exReload, XOp.Fits], rfl, rfl, rfl⟩

end Kam.Heap
