/-
Property theorems for the data containers (C01-C12, C14).
-/
import Verif.Data.ConvLemmas

namespace Kam
open EventData Spec
variable {α φ ε : Type} [LinearOrder α]

/-! ### A concrete container used by the non-vacuity examples

Three object types, events with a user column (type 0), an item column (type 2) and a second
user column (type 0); type 1 is unused. -/

/-- `EventData(n_otypes=3, event_otypes=[0, 2, 0])` -/
def exLayout : EventData Nat Nat Nat :=
  { nOtypes := 3, nObjects := [0, 0, 0], eid := [none, none, none], iid := [none, none, none],
    feature := [none, none, none], sEvent := 3, eventOtypes := [0, 2, 0], nEvents := 0,
    event := none, eventFeature := none }

/-- Events with repeated, unsorted external ids. -/
def exEvent : Arr2 Nat := ⟨3, [[7, 30, 5], [5, 10, 5], [9, 30, 7], [5, 20, 2]]⟩

/-- The loaded container. -/
def exLoaded : EventData Nat Nat Nat := exLayout.loaded exEvent.rows (some [100, 101, 102, 103])

theorem exLayout_reachable : Reachable exLayout :=
  Reachable.init (n := 3) (arg := .arr 1 [0, 2, 0]) rfl

theorem exEvent_regular : exEvent.Regular := by
  intro r hr
  simp only [exEvent, List.mem_cons, List.not_mem_nil, or_false] at hr
  rcases hr with rfl | rfl | rfl | rfl <;> rfl

theorem exLoaded_eq : exLayout.setEvent exEvent (some [100, 101, 102, 103]) = .ok exLoaded :=
  setEvent_eq _ exLayout_reachable.wf _ exEvent_regular rfl _

theorem exLoaded_built : Built exLoaded exEvent.rows :=
  .load exLayout_reachable exEvent_regular (by rintro f ⟨⟩; rfl) exLoaded_eq

/-! ### C01 -/

/-- C01: `to_eid_event` of the stored events returns the loaded external events, for the whole
array and row by row. -/
theorem C01_roundtrip {d0 d : EventData α φ ε} {event : Arr2 α} {ef : Option (List ε)}
    (h0 : Reachable d0) (hreg : event.Regular) (h : d0.setEvent event ef = .ok d) :
    ∃ iev, d.event = some iev ∧
      d.toEidEvent (.mat ⟨event.ncols, iev⟩) = .ok (.mat event) ∧
      iev.length = event.rows.length ∧
      ∀ (k : Nat) (r : List Int), iev[k]? = some r →
        ∃ x, event.rows[k]? = some x ∧ d.toEidEvent (.vec r) = .ok (.vec x) := by
  rw [setEvent_ok_iff _ h0.wf _ hreg] at h
  obtain ⟨hc, rfl⟩ := h
  have hd := holds_loaded d0 h0.wf event.rows
    (fun r hr => by rw [hreg r hr, hc, h0.wf.len_otypes]) ef
  refine ⟨event.rows.map (encodeRow d0.eventOtypes event.rows), rfl, ?_, by simp, ?_⟩
  · have hrows : (event.rows.map (encodeRow d0.eventOtypes event.rows)).mapM
        (d0.loaded event.rows ef).toEidRow = .ok event.rows := by
      rw [mapM_map]
      have := mapM_ok (g := id) event.rows (f := fun x =>
        (d0.loaded event.rows ef).toEidRow (encodeRow d0.eventOtypes event.rows x))
        (fun r hr => hd.toEidRow_encode hr)
      simpa using this
    have hs : event.ncols = (d0.loaded event.rows ef).sEvent := hc
    unfold toEidEvent
    simp only [hs, if_true, hd.eidDtype_eq, hrows, bind, Except.bind, pure, Except.pure]
    rw [← hs]
  · intro k r hk
    rw [List.getElem?_map, Option.map_eq_some_iff] at hk
    obtain ⟨x, hx, rfl⟩ := hk
    refine ⟨x, hx, ?_⟩
    have hmem := List.mem_of_getElem? hx
    have hl : (encodeRow d0.eventOtypes event.rows x).length = (d0.loaded event.rows ef).sEvent := by
      exact (length_encodeRow _ _ _ (hd.reg x hmem)).trans hd.wf.len_otypes
    have := hd.toEidRow_encode hmem
    unfold toEidEvent
    simp only [hl, if_true]
    have e : (d0.loaded event.rows ef).eventOtypes = d0.eventOtypes := rfl
    rw [e] at this
    simp [this, hd.eidDtype_eq, bind, Except.bind, pure, Except.pure]

example : ∃ d : EventData Nat Nat Nat, exLayout.setEvent exEvent none = .ok d ∧
    d.event = some [[2, 2, 1], [1, 0, 1], [3, 2, 2], [1, 1, 0]] :=
  ⟨_, setEvent_eq _ exLayout_reachable.wf _ exEvent_regular rfl _, by decide⟩

/-! ### C02 -/

/-- C02: after loading (and filtering), internal ids are the dense ranks of the external ids
among the distinct objects of the same type. -/
theorem C02_dense_ranks {d : EventData α φ ε} {rows : List (List α)} (h : Built d rows) (t : Nat)
    (ht : t < d.nOtypes) :
    (∀ x, IsObject d.eventOtypes rows t x → d.toIid t x = .ok (rank d.eventOtypes rows t x)) ∧
    d.nObjects[t]? = some (count d.eventOtypes rows t) ∧
    (∀ i, i < count d.eventOtypes rows t ↔
      ∃ x, IsObject d.eventOtypes rows t x ∧ rank d.eventOtypes rows t x = i) ∧
    (∃ tbl, d.eid[t]? = some (some tbl) ∧ tbl.Pairwise (· < ·) ∧
      ∀ x, x ∈ tbl ↔ IsObject d.eventOtypes rows t x) := by
  have hd := h.holds
  refine ⟨?_, ?_, ?_, ?_⟩
  · intro x hx
    rw [hd.toIid_eq ht, ← idxOf_ids _ _ _ _ hx]
    simp [(mem_ids _ _ _ _).2 hx]
  · rw [hd.nObjects_get ht, length_ids]
  · intro i
    rw [← length_ids]
    constructor
    · intro hi
      refine ⟨(ids d.eventOtypes rows t)[i], (mem_ids _ _ _ _).1 (List.getElem_mem _), ?_⟩
      rw [← idxOf_ids _ _ _ _ ((mem_ids _ _ _ _).1 (List.getElem_mem _))]
      exact (nodup_ids _ _ _).idxOf_getElem i hi
    · rintro ⟨x, hx, rfl⟩
      rw [← idxOf_ids _ _ _ _ hx]
      exact List.idxOf_lt_length_iff.2 ((mem_ids _ _ _ _).2 hx)
  · exact ⟨_, hd.eid_get ht, sorted_ids _ _ _, fun x => mem_ids _ _ _ x⟩

example : Built exLoaded exEvent.rows ∧ 2 < exLoaded.nOtypes ∧
    exLoaded.toIid 2 30 = .ok 2 ∧ exLoaded.nObjects = [4, 0, 3] :=
  ⟨exLoaded_built, by decide, by rfl, by decide⟩

/-! ### C03 -/

/-- C03 (partial: negative internal ids are excluded, see `C03_refuted`): the conversions are
mutually inverse, an absent external id and an internal id `>= n_objects[t]` or
`< -n_objects[t]` raise `ValueError`. -/
theorem C03_inverse_partial {d : EventData α φ ε} {rows : List (List α)} (h : Built d rows)
    (t : Nat) (ht : t < d.nOtypes) (n : Nat) (hn : d.nObjects[t]? = some n) :
    (∀ i : Nat, i < n → ∃ x, d.toEid t i = .ok x ∧ d.toIid t x = .ok i) ∧
    (∀ x, IsObject d.eventOtypes rows t x → ∃ i : Nat, d.toIid t x = .ok i ∧ d.toEid t i = .ok x) ∧
    (∀ x, ¬ IsObject d.eventOtypes rows t x → d.toIid t x = .error .valueError) ∧
    (∀ i : Int, n ≤ i → d.toEid t i = .error .valueError) ∧
    (∀ i : Int, i < -(n : Int) → d.toEid t i = .error .valueError) := by
  have hd := h.holds
  have hn' : n = (ids d.eventOtypes rows t).length := by
    rw [hd.nObjects_get ht] at hn; simpa [eq_comm] using hn
  subst hn'
  refine ⟨?_, ?_, ?_, ?_, ?_⟩
  · intro i hi
    refine ⟨(ids d.eventOtypes rows t)[i], ?_, ?_⟩
    · rw [hd.toEid_eq ht, npGet_ofNat _ _ hi]
    · rw [hd.toIid_eq ht]
      simp only [List.getElem_mem, if_true]
      rw [(nodup_ids _ _ _).idxOf_getElem i hi]
  · intro x hx
    have hmem := (mem_ids _ _ _ _).2 hx
    refine ⟨(ids d.eventOtypes rows t).idxOf x, ?_, ?_⟩
    · rw [hd.toIid_eq ht]; simp [hmem]
    · rw [hd.toEid_eq ht, npGet_ofNat _ _ (List.idxOf_lt_length_iff.2 hmem)]
      simp
  · intro x hx
    rw [hd.toIid_eq ht]
    simp [mem_ids, hx]
  · intro i hi
    rw [hd.toEid_eq ht, npGet_of_ge _ _ hi]
  · intro i hi
    rw [hd.toEid_eq ht]
    have : npIndex (ids d.eventOtypes rows t).length i = none := by
      unfold npIndex
      have h1 : ¬ 0 ≤ i := by omega
      have h2 : ¬ -((ids d.eventOtypes rows t).length : Int) ≤ i := by omega
      simp [h1, h2]
    unfold npGet
    rw [this]

/-- What really happens for the excluded ids: `-n <= i < 0` silently addresses the object
`i + n`. -/
theorem C03_negative_wraps {d : EventData α φ ε} {rows : List (List α)} (h : Built d rows)
    (t : Nat) (ht : t < d.nOtypes) (n : Nat) (hn : d.nObjects[t]? = some n) (i : Int)
    (hi : i < 0) (hi' : -(n : Int) ≤ i) :
    d.toEid t i = d.toEid t (i + n) ∧ ∃ x, d.toEid t i = .ok x := by
  have hd := h.holds
  have hn' : n = (ids d.eventOtypes rows t).length := by
    rw [hd.nObjects_get ht] at hn; simpa [eq_comm] using hn
  subst hn'
  obtain ⟨k, hk⟩ : ∃ k : Nat, i + (ids d.eventOtypes rows t).length = k :=
    ⟨(i + (ids d.eventOtypes rows t).length).toNat, by omega⟩
  have hklt : k < (ids d.eventOtypes rows t).length := by omega
  have e1 : npGet (ids d.eventOtypes rows t) i = .ok (ids d.eventOtypes rows t)[k] := by
    unfold npGet npIndex
    have h1 : ¬ 0 ≤ i := by omega
    simp [h1, hi', hk, hklt]
  rw [hd.toEid_eq ht, hd.toEid_eq ht, e1, hk, npGet_ofNat _ _ hklt]
  simp

/-- The full C03 is false of the code: internal ids outside `0..n-1` are not always rejected. -/
theorem C03_refuted : ¬ (∀ (d : EventData Nat Nat Nat) (rows : List (List Nat)), Built d rows →
    ∀ t n, t < d.nOtypes → d.nObjects[t]? = some n → ∀ i : Int, (i < 0 ∨ n ≤ i) →
      d.toEid t i = .error .valueError) := by
  intro hall
  have := hall exLoaded _ exLoaded_built 0 4 (by decide) (by decide) (-1) (by omega)
  have h2 : exLoaded.toEid (0 : Nat) (-1) = .ok 9 := by rfl
  rw [h2] at this
  cases this

example : Built exLoaded exEvent.rows ∧ 0 < exLoaded.nOtypes ∧ exLoaded.nObjects[0]? = some 4 :=
  ⟨exLoaded_built, by decide, by decide⟩

/-! ### C04 -/

open Classical in
/-- C04: an id that occurred in its type is mapped to its internal id, every other id of column
`e` to `n_objects[event_otypes[e]]`; every array of matching width is accepted. -/
theorem C04_unknown_ids {d : EventData α φ ε} {rows : List (List α)} (h : Built d rows)
    (ev : Arr2 α) (hreg : ev.Regular) (hc : ev.ncols = d.sEvent) :
    ∃ out, d.toIidEvent (.mat ev) .none = .ok (.mat ⟨ev.ncols, out⟩) ∧
      out.length = ev.rows.length ∧
      ∀ (k : Nat) (r : List α), ev.rows[k]? = some r →
        ∃ o, out[k]? = some o ∧ o.length = d.sEvent ∧
          d.toIidEvent (.vec r) .none = .ok (.vec o) ∧
          ∀ (e t : Nat) (x : α), d.eventOtypes[e]? = some t → r[e]? = some x →
            o[e]? = some (if IsObject d.eventOtypes rows t x then
              (rank d.eventOtypes rows t x : Int) else (count d.eventOtypes rows t : Int)) := by
  have hd := h.holds
  have hvs : (d.eventOtypes.map (fun t => ((ids d.eventOtypes rows t).length : Int))).length =
      d.sEvent := by simp [hd.wf.len_otypes]
  have hrow : ∀ r ∈ ev.rows, ∃ o, d.toIidRow (.vector (d.eventOtypes.map
      (fun t => ((ids d.eventOtypes rows t).length : Int)))) r = .ok o ∧ o.length = d.sEvent ∧
      ∀ (e t : Nat) (x : α), d.eventOtypes[e]? = some t → r[e]? = some x →
        o[e]? = some (if IsObject d.eventOtypes rows t x then
          (rank d.eventOtypes rows t x : Int) else (count d.eventOtypes rows t : Int)) := by
    intro r hr
    obtain ⟨o, o1, o2, o3⟩ := hd.toIidRow_ok _ hvs r (by rw [hreg r hr, hc])
    refine ⟨o, o1, o2, ?_⟩
    intro e t x ht hx
    rw [o3 e t x _ ht hx (by simp [ht]; rfl)]
    by_cases hob : IsObject d.eventOtypes rows t x
    · simp [hob, mem_ids, idxOf_ids _ _ _ _ hob]
    · simp [hob, mem_ids, length_ids]
  choose! f hf using hrow
  refine ⟨ev.rows.map f, ?_, by simp, ?_⟩
  · unfold toIidEvent
    rw [hd.resolveMissing_none]
    have := mapM_ok ev.rows (fun r hr => (hf r hr).1)
    simp [hc, this, bind, Except.bind, pure, Except.pure]
  · intro k r hk
    have hr := List.mem_of_getElem? hk
    obtain ⟨f1, f2, f3⟩ := hf r hr
    refine ⟨f r, by simp [hk], f2, ?_, f3⟩
    unfold toIidEvent
    rw [hd.resolveMissing_none]
    have hl : r.length = d.sEvent := by rw [hreg r hr, hc]
    simp [hl, f1, bind, Except.bind, pure, Except.pure]

open Classical in
/-- C04, caller-supplied vector: unknown ids of column `e` become `missing_values[e]`. -/
theorem C04_unknown_ids_vector {d : EventData α φ ε} {rows : List (List α)} (h : Built d rows)
    (vs : List Int) (hvs : vs.length = d.sEvent)
    (ev : Arr2 α) (hreg : ev.Regular) (hc : ev.ncols = d.sEvent) :
    ∃ out, d.toIidEvent (.mat ev) (.vector vs) = .ok (.mat ⟨ev.ncols, out⟩) ∧
      out.length = ev.rows.length ∧
      ∀ (k : Nat) (r : List α), ev.rows[k]? = some r →
        ∃ o, out[k]? = some o ∧ o.length = d.sEvent ∧
          ∀ (e t : Nat) (x : α) (v : Int), d.eventOtypes[e]? = some t → r[e]? = some x →
            vs[e]? = some v →
            o[e]? = some (if IsObject d.eventOtypes rows t x then
              (rank d.eventOtypes rows t x : Int) else v) := by
  have hd := h.holds
  have hrow : ∀ r ∈ ev.rows, ∃ o, d.toIidRow (.vector vs) r = .ok o ∧ o.length = d.sEvent ∧
      ∀ (e t : Nat) (x : α) (v : Int), d.eventOtypes[e]? = some t → r[e]? = some x →
        vs[e]? = some v → o[e]? = some (if IsObject d.eventOtypes rows t x then
          (rank d.eventOtypes rows t x : Int) else v) := by
    intro r hr
    obtain ⟨o, o1, o2, o3⟩ := hd.toIidRow_ok _ hvs r (by rw [hreg r hr, hc])
    refine ⟨o, o1, o2, ?_⟩
    intro e t x v ht hx hv
    rw [o3 e t x v ht hx hv]
    by_cases hob : IsObject d.eventOtypes rows t x
    · simp [hob, mem_ids, idxOf_ids _ _ _ _ hob]
    · simp [hob, mem_ids]
  choose! f hf using hrow
  refine ⟨ev.rows.map f, ?_, by simp, ?_⟩
  · unfold toIidEvent resolveMissing
    have := mapM_ok ev.rows (fun r hr => (hf r hr).1)
    simp [hc, this, bind, Except.bind, pure, Except.pure]
  · intro k r hk
    have hr := List.mem_of_getElem? hk
    obtain ⟨_, f2, f3⟩ := hf r hr
    exact ⟨f r, by simp [hk], f2, f3⟩

/-- C04, rejected shapes: any other width or number of dimensions raises `TypeError`. -/
theorem C04_shape_error {d : EventData α φ ε} {rows : List (List α)} (h : Built d rows)
    (ev : ArrN α) (m : Missing)
    (hshape : match ev with
      | .vec xs => xs.length ≠ d.sEvent
      | .mat a => a.ncols ≠ d.sEvent
      | .other => True) :
    d.toIidEvent ev m = .error .typeError := by
  have hd := h.holds
  have hm : ∃ m', d.resolveMissing m = .ok m' := by
    cases m with
    | none => exact ⟨_, hd.resolveMissing_none⟩
    | vector vs => exact ⟨_, rfl⟩
    | scalar v => exact ⟨_, rfl⟩
  obtain ⟨m', hm'⟩ := hm
  unfold toIidEvent
  rw [hm']
  cases ev with
  | vec xs => simp only at hshape; simp [hshape, bind, Except.bind]
  | mat a => simp only at hshape; simp [hshape, bind, Except.bind]
  | other => simp [bind, Except.bind]

example : exLoaded.toIidEvent (.mat ⟨3, [[9, 20, 8], [1, 30, 5]]⟩) .none =
    .ok (.mat ⟨3, [[3, 1, 4], [4, 2, 1]]⟩) := by rfl

/-! ### C05 -/

/-- C05 is false of the code for *every* non-empty request: a scalar `missing_values` raises
`TypeError` (an `int` is not subscriptable), even if no id is unknown. -/
theorem C05_scalar_raises {d : EventData α φ ε} {rows : List (List α)} (h : Built d rows)
    (hs : 0 < d.sEvent) (m : Int) (ev : Arr2 α) (hreg : ev.Regular) (hc : ev.ncols = d.sEvent)
    (hne : ev.rows ≠ []) :
    d.toIidEvent (.mat ev) (.scalar m) = .error .typeError := by
  have hd := h.holds
  unfold toIidEvent resolveMissing
  obtain ⟨r, rs, hrs⟩ := List.exists_cons_of_ne_nil hne
  have hr : r.length = d.sEvent := by rw [hreg r (by simp [hrs]), hc]
  simp [hc, hrs, List.mapM_cons, toIidRow_scalar hd m r hr hs, bind, Except.bind]

/-- The full C05 (a scalar is accepted and used for every unknown id) does not hold. -/
theorem C05_refuted : ¬ (∀ (d : EventData Nat Nat Nat) (rows : List (List Nat)), Built d rows →
    ∀ (ev : Arr2 Nat) (m : Int), ev.Regular → ev.ncols = d.sEvent →
      ∃ out, d.toIidEvent (.mat ev) (.scalar m) = .ok (.mat out)) := by
  intro hall
  obtain ⟨out, ho⟩ := hall exLoaded _ exLoaded_built exEvent 0 exEvent_regular rfl
  rw [C05_scalar_raises exLoaded_built (by decide) 0 exEvent exEvent_regular rfl
    (by simp [exEvent])] at ho
  cases ho

open Classical in
/-- What remains of C05: repeating the integer once per column does what the scalar should do. -/
theorem C05_repeated_scalar_partial {d : EventData α φ ε} {rows : List (List α)}
    (h : Built d rows) (m : Int) (ev : Arr2 α) (hreg : ev.Regular) (hc : ev.ncols = d.sEvent) :
    ∃ out, d.toIidEvent (.mat ev) (.vector (List.replicate d.sEvent m)) =
        .ok (.mat ⟨ev.ncols, out⟩) ∧
      ∀ (k : Nat) (r : List α) (o : List Int), ev.rows[k]? = some r → out[k]? = some o →
        ∀ (e t : Nat) (x : α), d.eventOtypes[e]? = some t → r[e]? = some x →
          o[e]? = some (if IsObject d.eventOtypes rows t x then
              (rank d.eventOtypes rows t x : Int) else m) := by
  obtain ⟨out, h1, _, h3⟩ := C04_unknown_ids_vector h (List.replicate d.sEvent m) (by simp) ev hreg hc
  refine ⟨out, h1, ?_⟩
  intro k r o hr ho e t x ht hx
  obtain ⟨o', ho', _, h4⟩ := h3 k r hr
  rw [ho] at ho'
  simp only [Option.some.injEq] at ho'
  subst ho'
  apply h4 e t x m ht hx
  have he : e < d.sEvent := by
    rw [List.getElem?_eq_some_iff] at ht
    obtain ⟨hlt, _⟩ := ht
    rw [← h.holds.wf.len_otypes]; exact hlt
  simp [he]

example : Built exLoaded exEvent.rows ∧ 0 < exLoaded.sEvent ∧ exEvent.Regular ∧
    exEvent.ncols = exLoaded.sEvent ∧ exEvent.rows ≠ [] :=
  ⟨exLoaded_built, by decide, exEvent_regular, rfl, by simp [exEvent]⟩

/-! ### C06 -/

/-- C06: filtering a container gives the events, tables and counts of a fresh container with the
same layout loaded with just the selected external events. -/
theorem C06_filter_commutes_with_load {d d' d0 : EventData α φ ε} {rows rows' : List (List α)}
    (h : Built d rows) (cond : Sel) (hsel : cond.apply rows = .ok rows')
    (hf : d.filterEvent cond = .ok (some d'))
    (h0 : Reachable d0) (hn : d0.nOtypes = d.nOtypes) (ho : d0.eventOtypes = d.eventOtypes)
    (ef : Option (List ε)) :
    ∃ d'', d0.setEvent ⟨d.sEvent, rows'⟩ ef = .ok d'' ∧
      d'.event = d''.event ∧ d'.eid = d''.eid ∧ d'.iid = d''.iid ∧
      d'.nObjects = d''.nObjects ∧ d'.nEvents = d''.nEvents ∧ d'.nOtypes = d''.nOtypes ∧
      d'.eventOtypes = d''.eventOtypes ∧ d'.sEvent = d''.sEvent := by
  have hd := h.holds
  have hd' := holds_filterEvent d d' rows hd cond hf rows' hsel
  obtain ⟨js, h1, h2, _⟩ := filterEvent_gen d d' rows hd cond hf
  have hot : d'.eventOtypes = d.eventOtypes := by rw [h2]; rfl
  have hnt : d'.nOtypes = d.nOtypes := by rw [h2]; rfl
  have hse : d0.sEvent = d.sEvent := by
    rw [← h0.wf.len_otypes, ← hd.wf.len_otypes, ho]
  have hreg : (⟨d.sEvent, rows'⟩ : Arr2 α).Regular := by
    intro r hr
    rw [hd'.reg r hr, hot]; exact hd.wf.len_otypes
  refine ⟨_, setEvent_eq d0 h0.wf ⟨d.sEvent, rows'⟩ hreg hse.symm ef, ?_, ?_, ?_, ?_, ?_, ?_, ?_, ?_⟩
  · rw [hd'.event]; simp [loaded, hot, ho]
  · rw [hd'.eid]; simp [loaded, hot, ho, hnt, hn]
  · rw [hd'.iid]; simp [loaded, hot, ho, hnt, hn]
  · rw [hd'.nObjects]; simp [loaded, hot, ho, hnt, hn]
  · rw [hd'.nEvents]; simp [loaded]
  · simp [loaded, hnt, hn]
  · simp [loaded, hot, ho]
  · rw [← hd'.wf.len_otypes, hot]; simp [loaded, hse, hd.wf.len_otypes]

/-- C06, no spurious failure: with object features of the documented size, `filter_event`
succeeds for every mask of the right length and every in-range index array. -/
theorem C06_filter_total {d : EventData α φ ε} {rows rows' : List (List α)} (h : Built d rows)
    (hfeat : ∀ (t : Nat) (f : List φ), d.feature[t]? = some (some f) →
      d.nObjects[t]? = some f.length)
    (cond : Sel) (hsel : cond.apply rows = .ok rows') :
    ∃ d', d.filterEvent cond = .ok (some d') := by
  have hd := h.holds
  have hok : d.FeatureOK rows := by
    intro t f hf
    have hlt : t < d.nOtypes := by
      rw [← hd.wf.len_feature]
      rw [List.getElem?_eq_some_iff] at hf; exact hf.1
    have := hfeat t f hf
    rw [hd.nObjects_get hlt] at this
    simpa [eq_comm] using this
  cases hjs : cond.positions rows.length with
  | error e => unfold Sel.apply at hsel; rw [hjs] at hsel; cases hsel
  | ok js => exact ⟨_, filterEvent_eq d rows hd hok h.eventFeature_length cond js hjs⟩

example : ∃ d', exLoaded.filterEvent (.mask [false, true, false, true]) = .ok (some d') ∧
    d'.event = some [[1, 0, 1], [1, 1, 0]] ∧ d'.nObjects = [2, 0, 2] := ⟨_, rfl, rfl, rfl⟩

/-! ### C07 -/

/-- C07: in every container (in particular every filtered one) each internal id in the events is
a legal id of its type and each object of the tables occurs in some event. -/
theorem C07_no_dangling_no_orphans {d : EventData α φ ε} {rows : List (List α)} (h : Built d rows) :
    ∃ iev, d.event = some iev ∧
      (∀ r ∈ iev, ∀ (e t : Nat) (i : Int) (n : Nat), d.eventOtypes[e]? = some t →
        d.nObjects[t]? = some n → r[e]? = some i → 0 ≤ i ∧ i < n) ∧
      (∀ (t n j : Nat), d.nObjects[t]? = some n → j < n →
        ∃ r ∈ iev, ∃ e : Nat, d.eventOtypes[e]? = some t ∧ r[e]? = some (j : Int)) := by
  have hd := h.holds
  refine ⟨_, hd.event, ?_, ?_⟩
  · intro r hr e t i n ht hn hi
    rw [List.mem_map] at hr
    obtain ⟨x, hx, rfl⟩ := hr
    have hlt := hd.wf.otypes_lt t (List.mem_of_getElem? ht)
    rw [hd.nObjects_get hlt] at hn
    simp only [Option.some.injEq] at hn
    subst hn
    have hxe : ∃ y, x[e]? = some y := by
      have : e < x.length := by
        rw [hd.reg x hx]
        rw [List.getElem?_eq_some_iff] at ht; exact ht.1
      exact ⟨_, List.getElem?_eq_getElem this⟩
    obtain ⟨y, hy⟩ := hxe
    rw [encodeRow_getElem? _ _ _ _ _ _ ht hy] at hi
    simp only [Option.some.injEq] at hi
    have : y ∈ ids d.eventOtypes rows t := by rw [mem_ids]; exact ⟨x, hx, e, ht, hy⟩
    have := List.idxOf_lt_length_iff.2 this
    omega
  · intro t n j hn hj
    have hlt : t < d.nOtypes := by
      rw [← hd.wf.len_nObjects]; rw [List.getElem?_eq_some_iff] at hn; exact hn.1
    rw [hd.nObjects_get hlt] at hn
    simp only [Option.some.injEq] at hn
    subst hn
    obtain ⟨x, hx, e, ht, hxe⟩ := (mem_ids d.eventOtypes rows t _).1 (List.getElem_mem hj)
    refine ⟨_, List.mem_map_of_mem hx, e, ht, ?_⟩
    rw [encodeRow_getElem? _ _ _ _ _ _ ht hxe, (nodup_ids _ _ _).idxOf_getElem j hj]

example : ∃ d', Built d' [[5, 10, 5], [5, 20, 2]] ∧
    exLoaded.filterEvent (.mask [false, true, false, true]) = .ok (some d') :=
  ⟨_, .filterEvent exLoaded_built (cond := .mask [false, true, false, true]) rfl rfl, rfl⟩

/-! ### C08 -/

/-- The object feature a container reports for the external id `x` of type `t`. -/
def featureOf (d : EventData α φ ε) (t : Nat) (x : α) : Option φ :=
  match d.feature[t]?, d.toIid t x with
  | some (some f), .ok i => f[i]?
  | _, _ => none

/-- C08: the `k`-th kept event has the external ids and the event feature it had at its old
position, and every kept object has the object feature it had before. -/
theorem C08_filter_keeps_attachments {d d' : EventData α φ ε} {rows : List (List α)}
    (h : Built d rows) (cond : Sel) (js : List Nat) (hjs : cond.positions rows.length = .ok js)
    (hf : d.filterEvent cond = .ok (some d')) :
    (∃ iev iev', d.event = some iev ∧ d'.event = some iev' ∧ iev'.length = js.length ∧
      ∀ (k j : Nat), js[k]? = some j → ∃ r r', iev[j]? = some r ∧ iev'[k]? = some r' ∧
        ∃ x, d.toEidEvent (.vec r) = .ok (.vec x) ∧ d'.toEidEvent (.vec r') = .ok (.vec x)) ∧
    (d.eventFeature = none ∧ d'.eventFeature = none ∨
      ∃ g g', d.eventFeature = some g ∧ d'.eventFeature = some g' ∧ g'.length = js.length ∧
        ∀ (k j : Nat), js[k]? = some j → g'[k]? = g[j]?) ∧
    (∀ (t : Nat) (x : α) (i : Nat), d'.toIid t x = .ok i → featureOf d' t x = featureOf d t x) := by
  have hd := h.holds
  have hlt := Sel.positions_lt hjs
  have hsel : cond.apply rows = .ok (gather rows js) := by unfold Sel.apply; rw [hjs]
  have hd' := holds_filterEvent d d' rows hd cond hf _ hsel
  obtain ⟨js', h1, h2, h3, h4, h5⟩ := filterEvent_gen d d' rows hd cond hf
  rw [hjs] at h1
  simp only [Except.ok.injEq] at h1
  subst h1
  have hot : d'.eventOtypes = d.eventOtypes := by rw [h2]; rfl
  have hnt : d'.nOtypes = d.nOtypes := by rw [h2]; rfl
  have vecEq : ∀ (c : EventData α φ ε) (rs : List (List α)) (x : List α), c.Holds rs → x ∈ rs →
      c.toEidEvent (.vec (encodeRow c.eventOtypes rs x)) = .ok (.vec x) := by
    intro c rs x hc hx
    unfold toEidEvent
    have hl : (encodeRow c.eventOtypes rs x).length = c.sEvent := by
      rw [length_encodeRow _ _ _ (hc.reg x hx)]; exact hc.wf.len_otypes
    simp [hl, hc.toEidRow_encode hx, hc.eidDtype_eq, bind, Except.bind, pure, Except.pure]
  refine ⟨⟨_, _, hd.event, hd'.event, ?_, ?_⟩, ?_, ?_⟩
  · rw [List.length_map, length_gather _ _ hlt]
  · intro k j hk
    have hj : j < rows.length := hlt j (List.mem_of_getElem? hk)
    have hg : (gather rows js)[k]? = some rows[j] := by
      rw [getElem?_gather _ _ hlt, hk]; simp [hj]
    refine ⟨encodeRow d.eventOtypes rows rows[j],
      encodeRow d'.eventOtypes (gather rows js) rows[j], by simp [hj], by simp [hg], rows[j],
      vecEq d rows _ hd (List.getElem_mem hj), vecEq d' _ _ hd' (List.mem_of_getElem? hg)⟩
  · cases hE : d.eventFeature with
    | none => rw [hE] at h5; left; exact ⟨rfl, h5⟩
    | some g =>
      rw [hE] at h5
      obtain ⟨g', h6, h7⟩ := h5
      have hlen := h.eventFeature_length g hE
      unfold Sel.apply at h6
      rw [hlen, hjs] at h6
      simp only [Except.ok.injEq] at h6
      subst h6
      have hlt' : ∀ j ∈ js, j < g.length := by rw [hlen]; exact hlt
      right
      refine ⟨g, _, rfl, h7, length_gather _ _ hlt', ?_⟩
      intro k j hk
      rw [getElem?_gather _ _ hlt', hk]; rfl
  · intro t x i hi
    -- the type is legal, otherwise `to_iid` would raise
    have ht : t < d.nOtypes := by
      by_contra hge
      unfold toIid at hi
      have : npGet d'.iid (t : Int) = .error .indexError := by
        apply npGet_of_ge
        rw [hd'.wf.len_iid, hnt]; omega
      rw [this] at hi
      cases hi
    have ht' : t < d'.nOtypes := by rw [hnt]; exact ht
    have hi' := hi
    rw [hd'.toIid_eq ht'] at hi'
    by_cases hx : x ∈ ids d'.eventOtypes (gather rows js) t
    · simp only [hx, if_true, Except.ok.injEq] at hi'
      rw [hot] at hx hi'
      have hsub : ∀ r ∈ gather rows js, r ∈ rows := fun r hr => mem_of_mem_gather hr
      have hx2 := mem_ids_mono d.eventOtypes rows _ hsub hx
      have hi2 : d.toIid t x = .ok ((ids d.eventOtypes rows t).idxOf x) := by
        rw [hd.toIid_eq ht]; simp [hx2]
      unfold featureOf
      rw [hi, hi2]
      have h4t := h4 t ht
      unfold FeatStep at h4t
      cases hfe : d.feature[t]? with
      | none => rw [hfe] at h4t; simp only at h4t; rw [h4t]
      | some o =>
        cases o with
        | none => rw [hfe] at h4t; simp only at h4t; rw [h4t]
        | some f =>
          rw [hfe] at h4t
          obtain ⟨f', h6, h7⟩ := h4t
          rw [h7]
          simp only
          -- position `i` of the new array was taken from the old position of `x`
          unfold npTake at h6
          rw [mapM_map, mapM_ok_iff] at h6
          have hkl : i < (keptIndex d.eventOtypes rows (gather rows js) t).length := by
            unfold keptIndex
            rw [List.length_map, ← hi']; exact List.idxOf_lt_length_iff.2 hx
          have hk : (keptIndex d.eventOtypes rows (gather rows js) t)[i] =
              (ids d.eventOtypes rows t).idxOf x := by
            subst hi'
            simp [keptIndex]
          rw [List.forall₂_iff_get] at h6
          obtain ⟨h8, h9⟩ := h6
          have h10 := h9 i hkl (by omega)
          simp only [List.get_eq_getElem, hk] at h10
          have hfl : (ids d.eventOtypes rows t).idxOf x < f.length := by
            by_contra hge
            rw [npGet_of_ge _ _ (by simp only [Int.ofNat_eq_natCast]; omega)] at h10
            cases h10
          have h11 := npGet_ofNat f _ hfl
          simp only [Int.ofNat_eq_natCast] at h10
          rw [h11] at h10
          simp only [Except.ok.injEq] at h10
          rw [List.getElem?_eq_getElem hfl, List.getElem?_eq_getElem (by omega : i < f'.length), h10]
    · simp [hx] at hi'

example : ∃ c d', exLoaded.setFeature 0 [2, 9, 5, 7, 1] [20, 90, 50, 70, 10] = .ok c ∧
    Built c exEvent.rows ∧
    (Sel.index [3, -3]).positions 4 = .ok [3, 1] ∧
    c.filterEvent (.index [3, -3]) = .ok (some d') ∧
    featureOf d' 0 5 = some 50 ∧ d'.eventFeature = some [103, 101] :=
  ⟨_, _, rfl, .setFeature exLoaded_built (t := 0) (eids := [2, 9, 5, 7, 1])
    (f := [20, 90, 50, 70, 10]) rfl, rfl, rfl, rfl, rfl⟩

end Kam
