/-
Renaming the objects of a data container: what a container does with external ids depends on their order only.
-/
import Verif.Py.Lemmas
import Verif.Score.Model
import Mathlib.Order.Monotone.Basic

set_option linter.unusedSectionVars false

namespace Kam.Relabel

variable {α β φ ε : Type} [LinearOrder α] [LinearOrder β]

/-! ### Specification -/

/-- A row of external ids after renaming: the id in column `e` is an object of type `ots[e]`, and the objects of type `t`
are renamed by `f t`. -/
def row (f : Nat → α → β) (ots : List Nat) (r : List α) : List β :=
  r.mapIdx (fun e x => f (ots.getD e 0) x)

/-- The same for the rows of a two-dimensional array. -/
def rows (f : Nat → α → β) (ots : List Nat) (rs : List (List α)) : List (List β) := rs.map (row f ots)

/-- The same for an array argument. -/
def arr (f : Nat → α → β) (ots : List Nat) : ArrN α → ArrN β
  | .vec r => .vec (row f ots r)
  | .mat a => .mat ⟨a.ncols, rows f ots a.rows⟩
  | .other => .other

/-- A container after renaming: the id tables change, everything else stays. -/
def data (f : Nat → α → β) (d : EventData α φ ε) : EventData β φ ε where
  nOtypes := d.nOtypes
  nObjects := d.nObjects
  eid := d.eid.mapIdx (fun t o => o.map (List.map (f t)))
  iid := d.iid.mapIdx (fun t o => o.map (List.map (fun p => (f t p.1, p.2))))
  feature := d.feature
  sEvent := d.sEvent
  eventOtypes := d.eventOtypes
  nEvents := d.nEvents
  event := d.event
  eventFeature := d.eventFeature

/-- The same for a container with scores. -/
def scoreData {K : Type} (f : Nat → α → β) (d : ScoreData K α φ ε) : ScoreData K β φ ε where
  toEventData := data f d.toEventData
  scoreDomain := d.scoreDomain
  score := d.score
  nScoreLevels := d.nScoreLevels

/-- A result of a method that changes the object. -/
def mutMap {σ τ : Type} (g : σ → τ) : Mut σ σ → Mut τ τ
  | .ok x => .ok (g x)
  | .error (e, x) => .error (e, g x)

/-! ### Dictionaries and arrays -/

/-- A dictionary with renamed keys. -/
def dict {ν : Type} (f : α → β) (m : Dict α ν) : Dict β ν := List.map (fun p => (f p.1, p.2)) m

theorem get?_dict {ν : Type} {f : α → β} (hf : StrictMono f) (m : Dict α ν) (k : α) :
    Dict.get? (dict f m) (f k) = Dict.get? m k := by
  induction m with
  | nil => rfl
  | cons p m ih =>
    simp only [dict, List.map_cons, Dict.get?, hf.injective.eq_iff]
    split
    · rfl
    · exact ih

theorem getItem_dict {ν : Type} {f : α → β} (hf : StrictMono f) (m : Dict α ν) (k : α) :
    Dict.getItem (dict f m) (f k) = Dict.getItem m k := by
  simp only [Dict.getItem, get?_dict hf]

theorem set_dict {ν : Type} {f : α → β} (hf : StrictMono f) (m : Dict α ν) (k : α) (v : ν) :
    Dict.set (dict f m) (f k) v = dict f (Dict.set m k v) := by
  induction m with
  | nil => rfl
  | cons p m ih =>
    simp only [dict, List.map_cons, Dict.set, hf.injective.eq_iff]
    split
    · rfl
    · simp only [List.map_cons, List.cons.injEq, true_and]
      exact ih

theorem ofPairs_dict {ν : Type} {f : α → β} (hf : StrictMono f) (ps : List (α × ν)) :
    Dict.ofPairs (dict f ps) = dict f (Dict.ofPairs ps) := by
  have key : ∀ (ps : List (α × ν)) (m : Dict α ν),
      (dict f ps).foldl (fun d p => Dict.set d p.1 p.2) (dict f m) =
        dict f (ps.foldl (fun d p => Dict.set d p.1 p.2) m) := by
    intro ps
    induction ps with
    | nil => intro m; rfl
    | cons p ps ih =>
      intro m
      simp only [dict, List.map_cons, List.foldl_cons]
      have := set_dict hf m p.1 p.2
      simp only [dict] at this
      rw [this]
      exact ih _
  exact key ps []

theorem zipIdx_dict (f : α → β) (l : List α) (n : Nat) : (l.map f).zipIdx n = dict f (l.zipIdx n) := by
  induction l generalizing n with
  | nil => rfl
  | cons x l ih => simp only [List.map_cons, List.zipIdx_cons, dict, List.cons.injEq, true_and]; exact ih _

theorem npUnique_strictMono {f : α → β} (hf : StrictMono f) (l : List α) :
    npUnique (l.map f) = (npUnique l).map f :=
  npUnique_map (fun _ _ _ _ h => hf h)

theorem npGet_map {γ δ : Type} (g : γ → δ) (a : List γ) (i : Int) :
    npGet (a.map g) i = (npGet a i).map g := by
  simp only [npGet, List.length_map]
  cases npIndex a.length i with
  | none => rfl
  | some j =>
    simp only [List.getElem?_map]
    cases a[j]? <;> rfl

theorem mapM_map_ok {γ δ ζ E : Type} (g : δ → ζ) (h : γ → Except E δ) (l : List γ) :
    l.mapM (fun x => (h x).map g) = (l.mapM h).map (List.map g) := by
  induction l with
  | nil => rfl
  | cons x xs ih =>
    simp only [List.mapM_cons, ih]
    cases h x with
    | error e => rfl
    | ok y =>
      cases xs.mapM h <;> rfl

theorem npTake_map {γ δ : Type} (g : γ → δ) (a : List γ) (ix : List Int) :
    npTake (a.map g) ix = (npTake a ix).map (List.map g) := by
  simp only [npTake]
  rw [← mapM_map_ok]
  exact mapM_congr _ (fun i _ => npGet_map g a i)

/-- A computation whose continuation commutes with renaming. -/
theorem bind_map_comm {E γ δ ζ : Type} (g : δ → ζ) (x : Except E γ) (k : γ → Except E δ) (k' : γ → Except E ζ)
    (h : ∀ v, k' v = (k v).map g) : (x >>= k') = (x >>= k).map g := by
  cases x with
  | error e => rfl
  | ok v => exact h v

/-! ### Rows -/

theorem getElem?_row (f : Nat → α → β) (ots : List Nat) (r : List α) (e : Nat) :
    (row f ots r)[e]? = r[e]?.map (f (ots.getD e 0)) := by
  simp [row, List.getElem?_mapIdx]

theorem length_row (f : Nat → α → β) (ots : List Nat) (r : List α) : (row f ots r).length = r.length := by
  simp [row]

theorem selMask_row (f : Nat → α → β) (t : Nat) (ots : List Nat) (r : List α) :
    selMask (ots.map (fun s => decide (s = t))) (row f ots r) =
      (selMask (ots.map (fun s => decide (s = t))) r).map (f t) := by
  induction r generalizing ots with
  | nil => cases ots <;> simp [row, selMask]
  | cons x r ih =>
    cases ots with
    | nil => simp [selMask]
    | cons s ots =>
      have h1 : row f (s :: ots) (x :: r) = f s x :: row f ots r := by
        simp [row, List.mapIdx_cons]
      rw [h1]
      simp only [List.map_cons]
      by_cases hs : s = t
      · subst hs
        simp only [decide_true, selMask, List.map_cons, ih]
      · simp only [hs, decide_false, selMask, ih]

theorem column_rows (f : Nat → α → β) (ots : List Nat) (rs : List (List α)) (e : Nat) :
    column (rows f ots rs) e = (column rs e).map (List.map (f (ots.getD e 0))) := by
  simp only [column, rows]
  rw [mapM_map, ← mapM_map_ok]
  refine mapM_congr _ (fun r _ => ?_)
  rw [getElem?_row]
  cases r[e]? <;> rfl

theorem npGet_row (f : Nat → α → β) (ots : List Nat) (r : List α) (e : Nat) :
    npGet (row f ots r) e = (npGet r e).map (f (ots.getD e 0)) := by
  simp only [npGet, length_row]
  by_cases h : e < r.length
  · rw [npIndex_ofNat h]
    simp only [getElem?_row]
    cases r[e]? <;> rfl
  · have : npIndex r.length (e : Int) = none := by
      simp only [npIndex]
      rw [if_pos (by omega), if_neg (by omega)]
    rw [this]
    rfl

/-! ### Containers -/

theorem init_data (f : Nat → α → β) (n : Int) (arg : OtypesArg) :
    (EventData.init n arg : Res (EventData β φ ε)) = (EventData.init n arg : Res (EventData α φ ε)).map (data f) := by
  have h1 : ∀ (m : Nat) (f : Nat → α → β), (List.replicate m none).mapIdx (fun t (o : Option (List α)) => o.map (List.map (f t))) =
      List.replicate m none := by
    intro m f
    apply List.ext_getElem?
    intro i
    simp only [List.getElem?_mapIdx, List.getElem?_replicate]
    split <;> rfl
  have h2 : ∀ (m : Nat) (f : Nat → α → β), (List.replicate m none).mapIdx
      (fun t (o : Option (Dict α Nat)) => o.map (List.map (fun p => (f t p.1, p.2)))) = List.replicate m none := by
    intro m f
    apply List.ext_getElem?
    intro i
    simp only [List.getElem?_mapIdx, List.getElem?_replicate]
    split <;> rfl
  simp only [EventData.init]
  split
  · rfl
  · cases arg with
    | none => simp only [Except.map, data, h1, h2]
    | arr k es =>
      simp only
      split
      · rfl
      · split
        · rfl
        · split
          · rfl
          · split
            · rfl
            · simp only [Except.map, data, h1, h2]

theorem genId_map {f : α → β} (hf : StrictMono f) (xs : List α) :
    EventData.genId (xs.map f) =
      ((EventData.genId xs).1, (EventData.genId xs).2.1.map f, dict f (EventData.genId xs).2.2) := by
  simp only [EventData.genId, npUnique_strictMono hf, List.length_map, zipIdx_dict, ofPairs_dict hf]

theorem mapIdx_set {γ δ : Type} (g : Nat → γ → δ) (l : List γ) (t : Nat) (x : γ) :
    (l.set t x).mapIdx g = (l.mapIdx g).set t (g t x) := by
  apply List.ext_getElem?
  intro i
  simp only [List.getElem?_mapIdx, List.getElem?_set, List.length_mapIdx]
  split
  · split
    · subst_vars; rfl
    · rfl
  · rfl

theorem setEventObjects_data {f : Nat → α → β} (hf : ∀ t, StrictMono (f t)) (ev : Arr2 α) (d : EventData α φ ε) (t : Nat) :
    EventData.setEventObjects ⟨ev.ncols, rows f d.eventOtypes ev.rows⟩ (data f d) t =
      mutMap (data f) (EventData.setEventObjects ev d t) := by
  simp only [EventData.setEventObjects, EventData.otypeCols]
  have ho : (data f d).eventOtypes = d.eventOtypes := rfl
  rw [ho]
  by_cases h : d.eventOtypes.length ≠ ev.ncols
  · simp only [if_pos h]; rfl
  · simp only [if_neg h]
    have hsub : (rows f d.eventOtypes ev.rows).flatMap (selMask (d.eventOtypes.map (fun s => decide (s = t)))) =
        (ev.rows.flatMap (selMask (d.eventOtypes.map (fun s => decide (s = t))))).map (f t) := by
      simp only [rows, List.flatMap_map, List.map_flatMap, selMask_row]
    rw [hsub, genId_map (hf t)]
    simp only [mutMap, data, mapIdx_set, Option.map_some, dict]

theorem setEventObjects_otypes {ev : Arr2 α} {d d' : EventData α φ ε} {t : Nat}
    (h : EventData.setEventObjects ev d t = .ok d') : d'.eventOtypes = d.eventOtypes := by
  simp only [EventData.setEventObjects] at h
  split at h
  · cases h
  · cases h; rfl

/-- A fold over steps that commute with renaming. -/
theorem foldlM_mutMap {σ τ ι : Type} (g : σ → τ) (P : σ → Prop) (step : σ → ι → Mut σ σ) (step' : τ → ι → Mut τ τ)
    (hs : ∀ s i, P s → step' (g s) i = mutMap g (step s i)) (hP : ∀ s i s', P s → step s i = .ok s' → P s')
    (l : List ι) (s : σ) (h : P s) : l.foldlM step' (g s) = mutMap g (l.foldlM step s) := by
  induction l generalizing s with
  | nil => rfl
  | cons i l ih =>
    simp only [List.foldlM_cons, hs s i h]
    cases hi : step s i with
    | error e => rfl
    | ok s' => exact ih s' (hP s i s' h hi)

theorem setEventColumn_data {f : Nat → α → β} (hf : ∀ t, StrictMono (f t)) (ev : Arr2 α) (d : EventData α φ ε) (e : Nat) :
    EventData.setEventColumn ⟨ev.ncols, rows f d.eventOtypes ev.rows⟩ (data f d) e =
      mutMap (data f) (EventData.setEventColumn ev d e) := by
  simp only [EventData.setEventColumn]
  have ho : (data f d).eventOtypes = d.eventOtypes := rfl
  have hi : (data f d).iid = d.iid.mapIdx (fun t o => o.map (List.map (fun p => (f t p.1, p.2)))) := rfl
  rw [ho, hi]
  cases ht : d.eventOtypes[e]? with
  | none => rfl
  | some t =>
    simp only [List.getElem?_mapIdx]
    cases hm : d.iid[t]? with
    | none => rfl
    | some o =>
      cases o with
      | none => rfl
      | some m =>
        simp only [Option.map_some, column_rows]
        cases hc : column ev.rows e with
        | error x => rfl
        | ok col =>
          have hd : d.eventOtypes.getD e 0 = t := by simp [List.getD, ht]
          have hv : (col.map (f t)).mapM (Dict.getItem (List.map (fun p => (f t p.1, p.2)) m)) =
              col.mapM (Dict.getItem m) := by
            rw [mapM_map]
            exact mapM_congr _ (fun x _ => getItem_dict (hf t) m x)
          simp only [Except.map, hd, hv]
          cases col.mapM (Dict.getItem m) <;> rfl

theorem setEventColumn_otypes {ev : Arr2 α} {d d' : EventData α φ ε} {t : Nat}
    (h : EventData.setEventColumn ev d t = .ok d') : d'.eventOtypes = d.eventOtypes := by
  simp only [EventData.setEventColumn] at h
  repeat' split at h
  all_goals first | cases h; rfl | cases h

theorem zeros_rows (f : Nat → α → β) (ots : List Nat) (rs : List (List α)) :
    (rows f ots rs).map (fun r => r.map (fun _ => (0 : Int))) = rs.map (fun r => r.map (fun _ => (0 : Int))) := by
  simp only [rows, List.map_map, Function.comp_def]
  refine List.map_congr_left (fun r _ => ?_)
  simp [length_row, List.map_const']

/-- `set_event` with renamed ids makes the renamed container. -/
theorem setEvent_data {f : Nat → α → β} (hf : ∀ t, StrictMono (f t)) (d : EventData α φ ε) (ev : Arr2 α)
    (ef : Option (List ε)) :
    (data f d).setEvent ⟨ev.ncols, rows f d.eventOtypes ev.rows⟩ ef = mutMap (data f) (d.setEvent ev ef) := by
  simp only [EventData.setEvent]
  have h1 : (List.range (data f d).nOtypes).foldlM
      (EventData.setEventObjects ⟨ev.ncols, rows f d.eventOtypes ev.rows⟩) (data f d) =
      mutMap (data f) ((List.range d.nOtypes).foldlM (EventData.setEventObjects ev) d) :=
    foldlM_mutMap (data f) (fun s => s.eventOtypes = d.eventOtypes) _ _
      (fun s i hs => by rw [← hs]; exact setEventObjects_data hf ev s i)
      (fun s i s' hs h => by rw [setEventObjects_otypes h, hs]) _ d rfl
  rw [h1]
  cases h2 : (List.range d.nOtypes).foldlM (EventData.setEventObjects ev) d with
  | error e => rfl
  | ok d1 =>
    have ho : d1.eventOtypes = d.eventOtypes := by
      have key : ∀ (l : List Nat) (s s' : EventData α φ ε), l.foldlM (EventData.setEventObjects ev) s = .ok s' →
          s'.eventOtypes = s.eventOtypes := by
        intro l
        induction l with
        | nil => intro s s' h; cases h; rfl
        | cons i l ih =>
          intro s s' h
          simp only [List.foldlM_cons] at h
          cases hi : EventData.setEventObjects ev s i with
          | error e => rw [hi] at h; cases h
          | ok s1 =>
            rw [hi] at h
            rw [ih s1 s' h, setEventObjects_otypes hi]
      exact key _ _ _ h2
    simp only [mutMap, bind, Except.bind, zeros_rows]
    have h3 := foldlM_mutMap (data f) (fun s => s.eventOtypes = d.eventOtypes)
      (EventData.setEventColumn ev) (EventData.setEventColumn ⟨ev.ncols, rows f d.eventOtypes ev.rows⟩)
      (fun s i hs => by rw [← hs]; exact setEventColumn_data hf ev s i)
      (fun s i s' hs h => by rw [setEventColumn_otypes h, hs]) (List.range d1.sEvent)
      { d1 with event := some (ev.rows.map (fun r => r.map (fun _ => (0 : Int)))) } ho
    have h4 : ({ data f d1 with event := some (ev.rows.map (fun r => r.map (fun _ => (0 : Int)))) } : EventData β φ ε) =
        data f { d1 with event := some (ev.rows.map (fun r => r.map (fun _ => (0 : Int)))) } := rfl
    have h5 : (data f d1).sEvent = d1.sEvent := rfl
    rw [h4, h5, h3]
    cases (List.range d1.sEvent).foldlM (EventData.setEventColumn ev)
        { d1 with event := some (ev.rows.map (fun r => r.map (fun _ => (0 : Int)))) } with
    | error e => rfl
    | ok d2 => simp [rows, mutMap, data]

theorem eidOfColumn_data (f : Nat → α → β) (d : EventData α φ ε) (e : Nat) :
    (data f d).eidOfColumn e = (d.eidOfColumn e).map (List.map (f (d.eventOtypes.getD e 0))) := by
  simp only [EventData.eidOfColumn]
  have ho : (data f d).eventOtypes = d.eventOtypes := rfl
  have hi : (data f d).eid = d.eid.mapIdx (fun t o => o.map (List.map (f t))) := rfl
  rw [ho, hi]
  cases ht : d.eventOtypes[e]? with
  | none => rfl
  | some t =>
    simp only [List.getElem?_mapIdx, List.getD, ht, Option.getD_some]
    cases hm : d.eid[t]? with
    | none => rfl
    | some o => cases o <;> rfl

theorem iidOfColumn_data (f : Nat → α → β) (d : EventData α φ ε) (e : Nat) :
    (data f d).iidOfColumn e = (d.iidOfColumn e).map (dict (f (d.eventOtypes.getD e 0))) := by
  simp only [EventData.iidOfColumn]
  have ho : (data f d).eventOtypes = d.eventOtypes := rfl
  have hi : (data f d).iid = d.iid.mapIdx (fun t o => o.map (List.map (fun p => (f t p.1, p.2)))) := rfl
  rw [ho, hi]
  cases ht : d.eventOtypes[e]? with
  | none => rfl
  | some t =>
    simp only [List.getElem?_mapIdx, List.getD, ht, Option.getD_some]
    cases hm : d.iid[t]? with
    | none => rfl
    | some o => cases o <;> rfl

/-- A row produced column by column. -/
theorem mapM_range_row (f : Nat → α → β) (ots : List Nat) (g : Nat → Res α) (g' : Nat → Res β)
    (h : ∀ e, g' e = (g e).map (f (ots.getD e 0))) (n : Nat) :
    (List.range n).mapM g' = ((List.range n).mapM g).map (row f ots) := by
  have key : ∀ (m s : Nat), (List.range' s m).mapM g' =
      ((List.range' s m).mapM g).map (fun r => r.mapIdx (fun e x => f (ots.getD (s + e) 0) x)) := by
    intro m
    induction m with
    | zero => intro s; rfl
    | succ m ih =>
      intro s
      simp only [List.range'_succ, List.mapM_cons, h s, ih (s + 1)]
      cases g s with
      | error e => rfl
      | ok x =>
        cases (List.range' (s + 1) m).mapM g with
        | error e => rfl
        | ok xs =>
          simp only [Except.map, bind, Except.bind, pure, Except.pure, List.mapIdx_cons, Nat.add_zero, Except.ok.injEq,
            List.cons.injEq, true_and]
          apply List.ext_getElem?
          intro i
          simp only [List.getElem?_mapIdx]
          have : s + 1 + i = s + (i + 1) := by omega
          rw [this]
  have := key n 0
  simp only [← List.range_eq_range', Nat.zero_add] at this
  exact this

theorem toEidRow_data (f : Nat → α → β) (d : EventData α φ ε) (r : List Int) :
    (data f d).toEidRow r = (d.toEidRow r).map (row f d.eventOtypes) := by
  simp only [EventData.toEidRow]
  refine mapM_range_row f d.eventOtypes _ _ (fun e => ?_) d.sEvent
  simp only [eidOfColumn_data]
  cases d.eidOfColumn e with
  | error x => rfl
  | ok ids =>
    simp only [Except.map, bind, Except.bind]
    cases npGet r (e : Int) with
    | error x => rfl
    | ok i =>
      simp only [npGet_map]
      cases npGet ids i <;> rfl

theorem eidDtype_data (f : Nat → α → β) (d : EventData α φ ε) : (data f d).eidDtype = d.eidDtype := by
  have h : (data f d).eid[0]? = (d.eid[0]?).map (Option.map (List.map (f 0))) := by
    simp [data]
  unfold EventData.eidDtype
  rw [h]
  cases d.eid[0]? with
  | none => rfl
  | some o => cases o <;> rfl

/-- `to_eid_event` of the renamed container gives the renamed events. -/
theorem toEidEvent_data (f : Nat → α → β) (d : EventData α φ ε) (x : ArrN Int) :
    (data f d).toEidEvent x = (d.toEidEvent x).map (arr f d.eventOtypes) := by
  cases x with
  | vec xs =>
    simp only [EventData.toEidEvent, toEidRow_data]
    have hs : (data f d).sEvent = d.sEvent := rfl
    rw [hs]
    split
    · cases d.toEidRow xs with
      | error e => rfl
      | ok r =>
        simp only [eidDtype_data, Except.map, bind, Except.bind]
        cases d.eidDtype <;> rfl
    · rfl
  | mat a =>
    simp only [EventData.toEidEvent]
    have hs : (data f d).sEvent = d.sEvent := rfl
    rw [hs]
    split
    · have : a.rows.mapM (data f d).toEidRow = (a.rows.mapM d.toEidRow).map (List.map (row f d.eventOtypes)) := by
        rw [← mapM_map_ok]
        exact mapM_congr _ (fun r _ => toEidRow_data f d r)
      rw [this, eidDtype_data]
      cases d.eidDtype with
      | error e => rfl
      | ok _ => cases a.rows.mapM d.toEidRow <;> rfl
    · rfl
  | other => rfl

theorem toIidRow_data {f : Nat → α → β} (hf : ∀ t, StrictMono (f t)) (d : EventData α φ ε) (m : EventData.Missing)
    (r : List α) : (data f d).toIidRow m (row f d.eventOtypes r) = d.toIidRow m r := by
  simp only [EventData.toIidRow]
  have hs : (data f d).sEvent = d.sEvent := rfl
  rw [hs]
  refine mapM_congr _ (fun e _ => ?_)
  simp only [iidOfColumn_data, npGet_row]
  cases d.iidOfColumn e with
  | error x => rfl
  | ok iid =>
    cases npGet r (e : Int) with
    | error x => rfl
    | ok x =>
      simp only [Except.map, bind, Except.bind]
      cases m.item e with
      | error x => rfl
      | ok mv => simp only [get?_dict (hf _)]

/-- `to_iid_event` of renamed events by the renamed container gives the same internal ids. -/
theorem toIidEvent_data {f : Nat → α → β} (hf : ∀ t, StrictMono (f t)) (d : EventData α φ ε) (x : ArrN α)
    (m : EventData.Missing) : (data f d).toIidEvent (arr f d.eventOtypes x) m = d.toIidEvent x m := by
  simp only [EventData.toIidEvent]
  have hr : (data f d).resolveMissing m = d.resolveMissing m := by
    cases m <;> rfl
  have hs : (data f d).sEvent = d.sEvent := rfl
  rw [hr, hs]
  cases d.resolveMissing m with
  | error e => rfl
  | ok m =>
    cases x with
    | vec r => simp only [arr, bind, Except.bind, length_row, toIidRow_data hf]
    | mat a =>
      have : (rows f d.eventOtypes a.rows).mapM ((data f d).toIidRow m) = a.rows.mapM (d.toIidRow m) := by
        simp only [rows]
        rw [mapM_map]
        exact mapM_congr _ (fun r _ => toIidRow_data hf d m r)
      simp only [arr, bind, Except.bind, this]
    | other => rfl

theorem filterOtype_data {f : Nat → α → β} (hf : ∀ t, StrictMono (f t)) (self d : EventData α φ ε) (t : Nat) :
    EventData.filterOtype (data f self) (data f d) t = (EventData.filterOtype self d t).map (data f) := by
  simp only [EventData.filterOtype]
  have h1 : (data f d).event = d.event := rfl
  have h2 : (data f d).eventOtypes = d.eventOtypes := rfl
  have h3 : (data f self).eid[t]? = self.eid[t]?.map (fun o => o.map (List.map (f t))) := by
    simp [data, List.getElem?_mapIdx]
  have h4 : (data f self).feature = self.feature := rfl
  have h5 : (data f d).feature = d.feature := rfl
  rw [h1, h2, h3, h4, h5]
  cases d.event with
  | none => rfl
  | some rs =>
    simp only [bind, Except.bind]
    cases self.eid[t]? with
    | none => rfl
    | some o =>
      cases o with
      | none => rfl
      | some orig =>
        simp only [Option.map_some, List.length_map]
        cases EventData.genIdSubstitutionTable orig.length
            (npUnique (rs.flatMap (selMask (d.eventOtypes.map (fun s => decide (s = t)))))) with
        | error e => rfl
        | ok table =>
          simp only
          cases rs.mapM (fun r => npTake table (selMask (d.eventOtypes.map (fun s => decide (s = t))) r)) with
          | error e => rfl
          | ok newSub =>
            simp only [npTake_map]
            cases npTake orig (npUnique (rs.flatMap (selMask (d.eventOtypes.map (fun s => decide (s = t)))))) with
            | error e => rfl
            | ok eid' =>
              simp only [Except.map, zipIdx_dict, ofPairs_dict (hf t), List.length_map]
              split
              · rename_i e he
                rfl
              · rename_i fe he
                simp only [pure, Except.pure, data, mapIdx_set, Option.map_some, dict]

/-- `filter_event` of the renamed container gives the renamed part. -/
theorem filterEvent_data {f : Nat → α → β} (hf : ∀ t, StrictMono (f t)) (d : EventData α φ ε) (cond : Sel) :
    (data f d).filterEvent cond = (d.filterEvent cond).map (Option.map (data f)) := by
  simp only [EventData.filterEvent]
  have h1 : (data f d).event = d.event := rfl
  rw [h1]
  cases d.event with
  | none => rfl
  | some rs =>
    simp only [bind, Except.bind]
    cases cond.apply rs with
    | error e => rfl
    | ok rs' =>
      have key : ∀ (l : List Nat) (s : EventData α φ ε),
          l.foldlM (EventData.filterOtype (data f d)) (data f s) = (l.foldlM (EventData.filterOtype d) s).map (data f) := by
        intro l
        induction l with
        | nil => intro s; rfl
        | cons i l ih =>
          intro s
          simp only [List.foldlM_cons, filterOtype_data hf]
          cases EventData.filterOtype d s i with
          | error e => rfl
          | ok s' => exact ih s'
      have h2 : (List.range (data f d).nOtypes).foldlM (EventData.filterOtype (data f d))
          { data f d with event := some rs', nEvents := rs'.length } = _ :=
        key (List.range d.nOtypes) { d with event := some rs', nEvents := rs'.length }
      have h5 : (data f d).eventFeature = d.eventFeature := rfl
      simp only at h2 ⊢
      rw [h2, h5]
      cases (List.range d.nOtypes).foldlM (EventData.filterOtype d)
          { d with event := some rs', nEvents := rs'.length } with
      | error e => rfl
      | ok d' =>
        cases d.eventFeature with
        | none => rfl
        | some fe =>
          simp only [Except.map]
          cases cond.apply fe <;> rfl

theorem featureIndex_dict {f : α → β} (hf : StrictMono f) (m : Dict α Nat) (eids : List α) :
    EventData.featureIndex (dict f m) (eids.map f) = EventData.featureIndex m eids := by
  simp only [EventData.featureIndex]
  have hl : (dict f m).length = m.length := by simp [dict]
  rw [hl, List.length_map, zipIdx_dict]
  generalize List.replicate m.length (eids.length : Int) = acc
  generalize eids.zipIdx = l
  induction l generalizing acc with
  | nil => rfl
  | cons p l ih =>
    simp only [dict, List.map_cons, List.foldlM_cons]
    have := get?_dict hf m p.1
    simp only [dict] at this
    rw [this]
    exact bind_congr (fun a => ih a)

/-- `set_feature` with renamed ids of the objects keeps the features with the objects. -/
theorem setFeature_data {f : Nat → α → β} (hf : ∀ t, StrictMono (f t)) (d : EventData α φ ε) (t : Nat) (eids : List α)
    (fe : List φ) : (data f d).setFeature t (eids.map (f t)) fe = (d.setFeature t eids fe).map (data f) := by
  simp only [EventData.setFeature]
  have h3 : (data f d).iid[t]? = d.iid[t]?.map (fun o => o.map (dict (f t))) := by
    simp only [data, List.getElem?_mapIdx]
    rfl
  rw [h3]
  cases d.iid[t]? with
  | none => rfl
  | some o =>
    cases o with
    | none => rfl
    | some m =>
      simp only [Option.map_some, bind, Except.bind, featureIndex_dict (hf t)]
      cases EventData.featureIndex m eids with
      | error e => rfl
      | ok ix =>
        simp only
        cases npTake fe ix <;> rfl

theorem toEid_data (f : Nat → α → β) (d : EventData α φ ε) (t i : Int) (p : Nat) (hp : npIndex d.eid.length t = some p) :
    (data f d).toEid t i = (d.toEid t i).map (f p) := by
  have h : npGet (data f d).eid t = (npGet d.eid t).map (fun o => o.map (List.map (f p))) := by
    simp only [data, npGet, List.length_mapIdx, hp, List.getElem?_mapIdx]
    cases d.eid[p]? <;> rfl
  simp only [EventData.toEid, h]
  cases npGet d.eid t with
  | error e => rfl
  | ok o =>
    cases o with
    | none => rfl
    | some ids =>
      simp only [Except.map, Option.map_some, npGet_map]
      cases npGet ids i <;> rfl

theorem toIid_data {f : Nat → α → β} (hf : ∀ t, StrictMono (f t)) (d : EventData α φ ε) (t : Int) (x : α) (p : Nat)
    (hp : npIndex d.iid.length t = some p) : (data f d).toIid t (f p x) = d.toIid t x := by
  have h : npGet (data f d).iid t = (npGet d.iid t).map (fun o => o.map (dict (f p))) := by
    simp only [data, npGet, List.length_mapIdx, hp, List.getElem?_mapIdx]
    cases d.iid[p]? <;> rfl
  simp only [EventData.toIid, h]
  cases npGet d.iid t with
  | error e => rfl
  | ok o =>
    cases o with
    | none => rfl
    | some m => simp only [Except.map, Option.map_some, getItem_dict (hf p)]

/-! ### Containers with scores -/

section score
variable {K : Type} [Field K] [LinearOrder K] [IsStrictOrderedRing K] [FloorRing K]

theorem init_scoreData (f : Nat → α → β) (n : Int) (arg : OtypesArg) :
    (ScoreData.init n arg : Res (ScoreData K β φ ε)) = (ScoreData.init n arg : Res (ScoreData K α φ ε)).map (scoreData f) := by
  simp only [ScoreData.init, init_data f]
  cases (EventData.init n arg : Res (EventData α φ ε)) <;> rfl

theorem setEvent_scoreData {f : Nat → α → β} (hf : ∀ t, StrictMono (f t)) (d : ScoreData K α φ ε) (ev : Arr2 α)
    (sc : List K) (dom : Option (List K)) (ef : Option (List ε)) :
    (scoreData f d).setEvent ⟨ev.ncols, rows f d.eventOtypes ev.rows⟩ sc dom ef =
      mutMap (scoreData f) (d.setEvent ev sc dom ef) := by
  simp only [ScoreData.setEvent]
  have h : (scoreData f d).toEventData = data f d.toEventData := rfl
  rw [h, setEvent_data hf]
  cases d.toEventData.setEvent ev ef with
  | error p => rfl
  | ok b =>
    simp only [mutMap]
    cases ScoreData.resolveDomain sc dom with
    | error e => rfl
    | ok dm =>
      simp only
      cases ScoreData.levelsOfDomain dm <;> rfl

theorem filterEvent_scoreData {f : Nat → α → β} (hf : ∀ t, StrictMono (f t)) (d : ScoreData K α φ ε) (cond : Sel) :
    (scoreData f d).filterEvent cond = (d.filterEvent cond).map (Option.map (scoreData f)) := by
  simp only [ScoreData.filterEvent]
  have h : (scoreData f d).toEventData = data f d.toEventData := rfl
  have h' : (scoreData f d).score = d.score := rfl
  rw [h, h', filterEvent_data hf]
  cases d.toEventData.filterEvent cond with
  | error e => rfl
  | ok o =>
    cases o with
    | none => rfl
    | some b =>
      simp only [Except.map, Option.map_some, bind, Except.bind]
      cases d.score with
      | none => rfl
      | some xs =>
        simp only
        cases cond.apply xs <;> rfl

theorem binarizeScore_scoreData (f : Nat → α → β) (d : ScoreData K α φ ε) (t : Option K) :
    (scoreData f d).binarizeScore t = (d.binarizeScore t).map (scoreData f) := by
  simp only [ScoreData.binarizeScore]
  have h1 : (scoreData f d).scoreDomain = d.scoreDomain := rfl
  have h2 : (scoreData f d).score = d.score := rfl
  rw [h1, h2]
  refine bind_map_comm _ _ _ _ (fun v => bind_map_comm _ _ _ _ (fun w => ?_))
  rfl

theorem setFeature_scoreData {f : Nat → α → β} (hf : ∀ t, StrictMono (f t)) (d : ScoreData K α φ ε) (t : Nat)
    (eids : List α) (fe : List φ) :
    (scoreData f d).setFeature t (eids.map (f t)) fe = (d.setFeature t eids fe).map (scoreData f) := by
  simp only [ScoreData.setFeature]
  have h : (scoreData f d).toEventData = data f d.toEventData := rfl
  rw [h, setFeature_data hf]
  cases d.toEventData.setFeature t eids fe <;> rfl

theorem acceptsBinary_scoreData (f : Nat → α → β) (d : ScoreData K α φ ε) :
    acceptsBinary (scoreData f d) = acceptsBinary d := rfl

end score

end Kam.Relabel
