/-
Closed form of `set_event` and `filter_event`.
-/
import Verif.Data.Spec
import Verif.Py.Lemmas

namespace Kam
variable {α φ ε : Type} [LinearOrder α]

/-- All occurrences of objects of type `t`. -/
def objs {β : Type} (otypes : List Nat) (rows : List (List β)) (t : Nat) : List β :=
  rows.flatMap (selMask (otypes.map (fun u => decide (u = t))))

/-- Sorted distinct objects of type `t`. -/
def ids (otypes : List Nat) (rows : List (List α)) (t : Nat) : List α := npUnique (objs otypes rows t)

theorem mem_objs {β : Type} (otypes : List Nat) (rows : List (List β)) (t : Nat) (x : β) :
    x ∈ objs otypes rows t ↔ Spec.IsObject otypes rows t x := by
  unfold objs Spec.IsObject
  simp only [List.mem_flatMap, mem_selMask]
  constructor
  · rintro ⟨r, hr, e, h1, h2⟩
    refine ⟨r, hr, e, ?_, h2⟩
    simp only [List.getElem?_map, Option.map_eq_some_iff, decide_eq_true_eq] at h1
    obtain ⟨a, ha, rfl⟩ := h1
    exact ha
  · rintro ⟨r, hr, e, h1, h2⟩
    refine ⟨r, hr, e, ?_, h2⟩
    simp [h1]

theorem mem_ids (otypes : List Nat) (rows : List (List α)) (t : Nat) (x : α) :
    x ∈ ids otypes rows t ↔ Spec.IsObject otypes rows t x := by
  unfold ids; rw [mem_npUnique, mem_objs]

theorem sorted_ids (otypes : List Nat) (rows : List (List α)) (t : Nat) :
    (ids otypes rows t).Pairwise (· < ·) := sorted_npUnique _

theorem nodup_ids (otypes : List Nat) (rows : List (List α)) (t : Nat) :
    (ids otypes rows t).Nodup := nodup_npUnique _

theorem length_ids (otypes : List Nat) (rows : List (List α)) (t : Nat) :
    (ids otypes rows t).length = Spec.count otypes rows t := by
  unfold Spec.count
  have : {x | Spec.IsObject otypes rows t x} = ((ids otypes rows t).toFinset : Set α) := by
    ext x; simp [mem_ids]
  rw [this, Set.ncard_coe_finset, List.toFinset_card_of_nodup (nodup_ids _ _ _)]

theorem idxOf_ids (otypes : List Nat) (rows : List (List α)) (t : Nat) (x : α)
    (h : Spec.IsObject otypes rows t x) :
    (ids otypes rows t).idxOf x = Spec.rank otypes rows t x := by
  rw [idxOf_eq_ncard (sorted_ids _ _ _) ((mem_ids _ _ _ _).2 h)]
  unfold Spec.rank
  simp only [mem_ids]

/-- Internal representation of an external row. -/
def encodeRow (otypes : List Nat) (rows : List (List α)) (r : List α) : List Int :=
  List.zipWith (fun t x => ((ids otypes rows t).idxOf x : Int)) otypes r

/-- Closed form of the container after `set_event`. -/
def EventData.loaded (d : EventData α φ ε) (rows : List (List α)) (ef : Option (List ε)) :
    EventData α φ ε :=
  { d with
    nObjects := (List.range d.nOtypes).map (fun t => (ids d.eventOtypes rows t).length)
    eid := (List.range d.nOtypes).map (fun t => some (ids d.eventOtypes rows t))
    iid := (List.range d.nOtypes).map
      (fun t => some (Dict.ofPairs (ids d.eventOtypes rows t).zipIdx))
    event := some (rows.map (encodeRow d.eventOtypes rows))
    nEvents := rows.length
    eventFeature := ef }

namespace EventData

theorem setEventObjects_loop (event : Arr2 α) (d : EventData α φ ε)
    (hcols : d.eventOtypes.length = event.ncols) (k : Nat) :
    (List.range k).foldlM (setEventObjects event) d = .ok { d with
      nObjects := (List.range k).foldl
        (fun acc t => acc.set t (ids d.eventOtypes event.rows t).length) d.nObjects
      eid := (List.range k).foldl
        (fun acc t => acc.set t (some (ids d.eventOtypes event.rows t))) d.eid
      iid := (List.range k).foldl
        (fun acc t => acc.set t (some (Dict.ofPairs (ids d.eventOtypes event.rows t).zipIdx)))
        d.iid } := by
  induction k with
  | zero => rfl
  | succ k ih =>
    rw [List.range_succ, List.foldlM_append, ih]
    simp only [List.foldlM_cons, List.foldlM_nil, List.foldl_append, List.foldl_cons,
      List.foldl_nil, bind, Except.bind, setEventObjects, otypeCols]
    simp [hcols, genId, ids, objs, pure, Except.pure]

theorem column_ok {β : Type} (rows : List (List β)) (e : Nat) (h : ∀ r ∈ rows, e < r.length) :
    column rows e = .ok (rows.filterMap (fun r => r[e]?)) := by
  unfold column
  induction rows with
  | nil => rfl
  | cons r rows ih =>
    have hr := h r (by simp)
    rw [List.mapM_cons, ih (fun r' hr' => h r' (by simp [hr']))]
    simp [hr, bind, Except.bind, pure, Except.pure]

theorem encodeRow_getElem? (otypes : List Nat) (rows : List (List α)) (r : List α) (e t : Nat)
    (x : α) (ht : otypes[e]? = some t) (hx : r[e]? = some x) :
    (encodeRow otypes rows r)[e]? = some ((ids otypes rows t).idxOf x : Int) := by
  unfold encodeRow
  rw [List.getElem?_zipWith]
  simp [ht, hx]

theorem length_encodeRow (otypes : List Nat) (rows : List (List α)) (r : List α)
    (h : r.length = otypes.length) : (encodeRow otypes rows r).length = otypes.length := by
  unfold encodeRow; simp [h]

/-- One column of the second loop, once the tables are in place. -/
theorem setEventColumn_ok (event : Arr2 α) (d : EventData α φ ε) (e t : Nat)
    (hreg : ∀ r ∈ event.rows, r.length = d.eventOtypes.length)
    (ht : d.eventOtypes[e]? = some t)
    (hiid : d.iid[t]? = some (some (Dict.ofPairs (ids d.eventOtypes event.rows t).zipIdx))) :
    setEventColumn event d e = .ok { d with
      event := d.event.map (fun cur => setColumn cur e
        (event.rows.map (fun r => ((encodeRow d.eventOtypes event.rows r)[e]?).getD 0))) } := by
  have he : e < d.eventOtypes.length := by
    rw [List.getElem?_eq_some_iff] at ht; exact ht.1
  have hcol := column_ok event.rows e (fun r hr => by rw [hreg r hr]; exact he)
  unfold setEventColumn
  simp only [ht, hiid, hcol]
  have hmap : (event.rows.filterMap (fun r => r[e]?)).mapM
      (Dict.getItem (Dict.ofPairs (ids d.eventOtypes event.rows t).zipIdx)) =
      .ok ((event.rows.filterMap (fun r => r[e]?)).map (ids d.eventOtypes event.rows t).idxOf) := by
    apply mapM_ok
    intro x hx
    rw [List.mem_filterMap] at hx
    obtain ⟨r, hr, hrx⟩ := hx
    unfold Dict.getItem
    rw [Dict.get?_ofPairs_zipIdx _ (nodup_ids _ _ _)]
    have : x ∈ ids d.eventOtypes event.rows t := by
      rw [mem_ids]; exact ⟨r, hr, e, ht, hrx⟩
    simp [this]
  simp only [hmap]
  congr 3
  funext cur
  congr 1
  -- the two ways of listing the column agree
  have gen : ∀ rs : List (List α), (∀ r ∈ rs, r.length = d.eventOtypes.length) →
      ((rs.filterMap (fun r => r[e]?)).map (ids d.eventOtypes event.rows t).idxOf).map Int.ofNat =
      rs.map (fun r => ((encodeRow d.eventOtypes event.rows r)[e]?).getD 0) := by
    intro rs
    induction rs with
    | nil => intro _; rfl
    | cons r rs ih =>
      intro h
      have hr : e < r.length := by rw [h r (by simp)]; exact he
      have ih' := ih (fun r' hr' => h r' (by simp [hr']))
      rw [List.filterMap_cons]
      simp only [List.getElem?_eq_getElem hr, List.map_cons]
      rw [encodeRow_getElem? _ _ _ _ t r[e] ht (List.getElem?_eq_getElem hr), ← ih']
      simp
  exact gen event.rows hreg

theorem setEventColumn_loop (event : Arr2 α) (d : EventData α φ ε)
    (hreg : ∀ r ∈ event.rows, r.length = d.eventOtypes.length)
    (hiid : ∀ t ∈ d.eventOtypes,
      d.iid[t]? = some (some (Dict.ofPairs (ids d.eventOtypes event.rows t).zipIdx)))
    (hev : d.event = some (event.rows.map (fun r => r.map (fun _ => (0 : Int)))))
    (k : Nat) (hk : k ≤ d.eventOtypes.length) :
    (List.range k).foldlM (setEventColumn event) d = .ok { d with
      event := some (event.rows.map (fun r => (List.range k).foldl
        (fun acc e => acc.set e (((encodeRow d.eventOtypes event.rows r)[e]?).getD 0))
        (r.map (fun _ => (0 : Int))))) } := by
  induction k with
  | zero => cases d; simp_all [pure, Except.pure]
  | succ k ih =>
    rw [List.range_succ, List.foldlM_append, ih (by omega)]
    simp only [List.foldlM_cons, List.foldlM_nil, bind, Except.bind, List.foldl_append,
      List.foldl_cons, List.foldl_nil]
    have hlt : k < d.eventOtypes.length := by omega
    have ht : d.eventOtypes[k]? = some d.eventOtypes[k] := List.getElem?_eq_getElem hlt
    rw [setEventColumn_ok event _ k d.eventOtypes[k]]
    · simp [setColumn, pure, Except.pure, List.zipWith_map, List.zipWith_self]
    · exact hreg
    · exact ht
    · exact hiid _ (List.getElem_mem _)

/-- Closed form of a successful `set_event`. -/
theorem setEvent_eq (d : EventData α φ ε) (hwf : d.WF) (event : Arr2 α) (hreg : event.Regular)
    (hcols : event.ncols = d.sEvent) (ef : Option (List ε)) :
    d.setEvent event ef = .ok (d.loaded event.rows ef) := by
  have hlen : d.eventOtypes.length = event.ncols := by rw [hwf.len_otypes, hcols]
  unfold setEvent
  simp only [bind, Except.bind]
  rw [setEventObjects_loop event d hlen]
  simp only
  rw [foldl_set_eq _ _ _ hwf.len_nObjects, foldl_set_eq _ _ _ hwf.len_eid,
    foldl_set_eq _ _ _ hwf.len_iid]
  rw [setEventColumn_loop]
  · simp only [loaded]
    congr 3
    apply List.map_congr_left
    intro r hr
    have hr' : r.length = d.eventOtypes.length := by rw [hreg r hr, hlen]
    apply List.ext_getElem?
    intro i
    rw [getElem?_foldl_set]
    have hl := length_encodeRow d.eventOtypes event.rows r hr'
    by_cases hi : i < d.sEvent
    · have h1 : i < r.length := by rw [hr', hwf.len_otypes]; exact hi
      have h2 : i < (encodeRow d.eventOtypes event.rows r).length := by
        rw [hl, hwf.len_otypes]; exact hi
      simp [hi, h1, h2]
    · have h1 : ¬ i < r.length := by rw [hr', hwf.len_otypes]; exact hi
      have h2 : ¬ i < (encodeRow d.eventOtypes event.rows r).length := by
        rw [hl, hwf.len_otypes]; exact hi
      simp [hi, h1, h2]
  · intro r hr; rw [hreg r hr]; exact hlen.symm
  · intro t ht
    have := hwf.otypes_lt t ht
    simp [this]
  · rfl
  · simp [hwf.len_otypes]

theorem setEvent_width (d : EventData α φ ε) (hwf : d.WF) (event : Arr2 α)
    (hcols : event.ncols ≠ d.sEvent) (ef : Option (List ε)) :
    d.setEvent event ef = .error (.indexError, d) := by
  have hlen : d.eventOtypes.length ≠ event.ncols := by
    rw [hwf.len_otypes]; exact fun h => hcols h.symm
  unfold setEvent
  obtain ⟨n, hn⟩ : ∃ n, d.nOtypes = n + 1 := ⟨d.nOtypes - 1, by have := hwf.pos; omega⟩
  rw [hn, List.range_succ_eq_map]
  simp [bind, Except.bind, setEventObjects, otypeCols, hlen]

end EventData
end Kam
