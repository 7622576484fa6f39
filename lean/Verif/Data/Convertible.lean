/-
C153: which arrays of events can be converted, to what, and what the others raise.
-/
import Verif.Data.Props

set_option linter.unusedSectionVars false

namespace Kam
open EventData Spec
variable {α φ ε : Type} [LinearOrder α]

namespace Spec

/-- The internal id `i` in column `e` stands for the external id `x`: `i` is the rank of `x` among the objects of the type of the
column, or, counted from the end as numpy does, that rank less the number of objects. -/
def StandsFor (otypes : List Nat) (rows : List (List α)) (e : Nat) (i : Int) (x : α) : Prop :=
  ∃ t, otypes[e]? = some t ∧ IsObject otypes rows t x ∧
    (i = rank otypes rows t x ∨ i = (rank otypes rows t x : Int) - count otypes rows t)

/-- The internal id `i` in column `e` is out of range. -/
def OutOfRange (otypes : List Nat) (rows : List (List α)) (e : Nat) (i : Int) : Prop :=
  ∃ t, otypes[e]? = some t ∧ ((count otypes rows t : Int) ≤ i ∨ i < -(count otypes rows t : Int))

/-- `o` lists what the entries of the row `r` stand for. -/
def RowStandsFor (otypes : List Nat) (rows : List (List α)) (r : List Int) (o : List α) : Prop :=
  o.length = r.length ∧ ∀ (e : Nat) (i : Int) (x : α), r[e]? = some i → o[e]? = some x → StandsFor otypes rows e i x

/-- Some entry of the row is out of range. -/
def RowOutOfRange (otypes : List Nat) (rows : List (List α)) (r : List Int) : Prop :=
  ∃ (e : Nat) (i : Int), r[e]? = some i ∧ OutOfRange otypes rows e i

end Spec

/-! ### Lemmas -/

theorem npGet_ok_iff {β : Type} (a : List β) (i : Int) (x : β) :
    npGet a i = .ok x ↔ ∃ j : Nat, a[j]? = some x ∧ (i = j ∨ i = (j : Int) - a.length) := by
  unfold npGet npIndex
  constructor
  · intro h
    split at h
    · cases h
    · rename_i j hj
      refine ⟨j, ?_, ?_⟩
      · cases hx : a[j]? with
        | none => rw [hx] at h; cases h
        | some y => rw [hx] at h; cases h; rfl
      · split at hj
        · split at hj
          · cases hj; omega
          · cases hj
        · split at hj
          · cases hj; omega
          · cases hj
  · rintro ⟨j, hj, h⟩
    have hlt : j < a.length := by
      by_contra hn
      rw [List.getElem?_eq_none (by omega)] at hj
      cases hj
    rcases h with rfl | rfl
    · rw [if_pos (by omega), if_pos (by omega)]
      simp [hj]
    · rw [if_neg (by omega), if_pos (by omega)]
      simp [hj]

theorem npGet_error_iff {β : Type} (a : List β) (i : Int) :
    npGet a i = .error .indexError ↔ (a.length : Int) ≤ i ∨ i < -(a.length : Int) := by
  unfold npGet npIndex
  constructor
  · intro h
    by_contra hn
    rw [not_or] at hn
    by_cases h0 : 0 ≤ i
    · rw [if_pos h0, if_pos (by omega)] at h
      simp only [] at h
      rw [List.getElem?_eq_getElem (by omega)] at h
      cases h
    · rw [if_neg h0, if_pos (by omega)] at h
      simp only [] at h
      rw [List.getElem?_eq_getElem (by omega)] at h
      cases h
  · intro h
    by_cases h0 : 0 ≤ i
    · rw [if_pos h0, if_neg (by omega)]
    · rw [if_neg h0, if_neg (by omega)]

theorem npGet_or {β : Type} (a : List β) (i : Int) : (∃ x, npGet a i = .ok x) ∨ npGet a i = .error .indexError := by
  unfold npGet
  split
  · exact .inr rfl
  · split
    · exact .inl ⟨_, rfl⟩
    · exact .inr rfl

theorem mapM_error_of {β γ : Type} {f : β → Res γ} {x : Exc} (l : List β) (h : ∀ b ∈ l, (∃ y, f b = .ok y) ∨ f b = .error x)
    (hex : ∃ b ∈ l, f b = .error x) : l.mapM f = .error x := by
  induction l with
  | nil => simp at hex
  | cons b l ih =>
    rw [List.mapM_cons]
    rcases h b (by simp) with ⟨y, hy⟩ | hy
    · rw [hy]
      have := ih (fun c hc => h c (by simp [hc])) (by
        obtain ⟨c, hc, e⟩ := hex
        rcases List.mem_cons.1 hc with rfl | hc
        · rw [hy] at e; cases e
        · exact ⟨c, hc, e⟩)
      simp only [bind, Except.bind]
      rw [this]
    · rw [hy]
      rfl

theorem ids_getElem?_iff (otypes : List Nat) (rows : List (List α)) (t j : Nat) (x : α) :
    (ids otypes rows t)[j]? = some x ↔ IsObject otypes rows t x ∧ rank otypes rows t x = j := by
  constructor
  · intro h
    obtain ⟨hj, rfl⟩ := List.getElem?_eq_some_iff.1 h
    have hob : IsObject otypes rows t (ids otypes rows t)[j] := (mem_ids _ _ _ _).1 (List.getElem_mem hj)
    refine ⟨hob, ?_⟩
    rw [← idxOf_ids _ _ _ _ hob]
    exact (nodup_ids _ _ _).idxOf_getElem j hj
  · rintro ⟨hob, rfl⟩
    have hm := (mem_ids otypes rows t x).2 hob
    rw [← idxOf_ids _ _ _ _ hob, List.getElem?_eq_getElem (List.idxOf_lt_length_iff.2 hm)]
    simp

namespace EventData
variable {d : EventData α φ ε} {rows : List (List α)}

theorem Holds.entry (hd : d.Holds rows) (r : List Int) (hr : r.length = d.sEvent) {e : Nat} (he : e < d.sEvent) :
    ∃ t i, d.eventOtypes[e]? = some t ∧ r[e]? = some i ∧
      (do let ids ← d.eidOfColumn e
          let i ← npGet r e
          npGet ids i) = npGet (ids d.eventOtypes rows t) i := by
  have h1 : e < d.eventOtypes.length := by rw [hd.wf.len_otypes]; exact he
  have h2 : e < r.length := by omega
  have ht : d.eventOtypes[e]? = some d.eventOtypes[e] := List.getElem?_eq_getElem h1
  refine ⟨_, _, ht, List.getElem?_eq_getElem h2, ?_⟩
  rw [hd.eidOfColumn_eq ht, npGet_ofNat r e h2]
  rfl

theorem Holds.toEidRow_ok_iff (hd : d.Holds rows) (r : List Int) (hr : r.length = d.sEvent) (o : List α) :
    d.toEidRow r = .ok o ↔ RowStandsFor d.eventOtypes rows r o := by
  unfold toEidRow
  rw [mapM_ok_iff, List.forall₂_iff_get]
  simp only [List.length_range, List.get_eq_getElem, List.getElem_range]
  constructor
  · rintro ⟨hl, h⟩
    refine ⟨by omega, fun e i x hi hx => ?_⟩
    have he : e < d.sEvent := by
      obtain ⟨h1, _⟩ := List.getElem?_eq_some_iff.1 hi
      omega
    obtain ⟨t, i', ht, hi', heq⟩ := hd.entry r hr he
    obtain ⟨h2, rfl⟩ := List.getElem?_eq_some_iff.1 hx
    have := h e he h2
    rw [heq] at this
    rw [hi] at hi'
    cases hi'
    obtain ⟨j, hj, hji⟩ := (npGet_ok_iff _ _ _).1 this
    obtain ⟨hob, hrk⟩ := (ids_getElem?_iff _ _ _ _ _).1 hj
    rw [length_ids] at hji
    exact ⟨t, ht, hob, by rw [hrk]; exact hji⟩
  · rintro ⟨hl, h⟩
    refine ⟨by omega, fun e he h2 => ?_⟩
    obtain ⟨t, i, ht, hi, heq⟩ := hd.entry r hr he
    rw [heq]
    obtain ⟨t', ht', hob, hi2⟩ := h e i o[e] hi (List.getElem?_eq_getElem h2)
    rw [ht] at ht'
    cases ht'
    refine (npGet_ok_iff _ _ _).2 ⟨rank d.eventOtypes rows t o[e], (ids_getElem?_iff _ _ _ _ _).2 ⟨hob, rfl⟩, ?_⟩
    rw [length_ids]
    exact hi2

theorem Holds.toEidRow_or (hd : d.Holds rows) (r : List Int) (hr : r.length = d.sEvent) :
    ((∃ o, d.toEidRow r = .ok o) ∧ ¬ RowOutOfRange d.eventOtypes rows r) ∨
      (d.toEidRow r = .error .indexError ∧ RowOutOfRange d.eventOtypes rows r) := by
  have hent : ∀ e ∈ List.range d.sEvent, ∃ t i, d.eventOtypes[e]? = some t ∧ r[e]? = some i ∧
      (do let ids ← d.eidOfColumn e
          let i ← npGet r e
          npGet ids i) = npGet (ids d.eventOtypes rows t) i := fun e he => hd.entry r hr (by simpa using he)
  by_cases hex : RowOutOfRange d.eventOtypes rows r
  · refine .inr ⟨?_, hex⟩
    unfold toEidRow
    refine mapM_error_of _ (fun e he => ?_) ?_
    · obtain ⟨t, i, _, _, heq⟩ := hent e he
      rw [heq]
      exact npGet_or _ _
    · obtain ⟨e, i, hi, t, ht, hout⟩ := hex
      have he : e < d.sEvent := by
        obtain ⟨h1, _⟩ := List.getElem?_eq_some_iff.1 hi
        omega
      refine ⟨e, by simpa using he, ?_⟩
      obtain ⟨t', i', ht', hi', heq⟩ := hent e (by simpa using he)
      rw [ht] at ht'
      rw [hi] at hi'
      cases ht'
      cases hi'
      rw [heq, npGet_error_iff, length_ids]
      exact hout
  · refine .inl ⟨?_, hex⟩
    have : ∀ e ∈ List.range d.sEvent, ∃ x, (do
        let ids ← d.eidOfColumn e
        let i ← npGet r e
        npGet ids i) = (.ok x : Res α) := by
      intro e he
      obtain ⟨t, i, ht, hi, heq⟩ := hent e he
      rw [heq]
      rcases npGet_or (ids d.eventOtypes rows t) i with h | h
      · exact h
      · rw [npGet_error_iff, length_ids] at h
        exact absurd ⟨e, i, hi, t, ht, h⟩ hex
    rcases hs : d.sEvent with _ | n
    · refine ⟨[], ?_⟩
      unfold toEidRow
      rw [hs]
      rfl
    · obtain ⟨x0, _⟩ := this 0 (by simp [hs])
      have : ∀ e, ∃ x, e ∈ List.range d.sEvent → (do
          let ids ← d.eidOfColumn e
          let i ← npGet r e
          npGet ids i) = (.ok x : Res α) := by
        intro e
        by_cases he : e ∈ List.range d.sEvent
        · obtain ⟨x, hx⟩ := this e he
          exact ⟨x, fun _ => hx⟩
        · exact ⟨x0, fun h => absurd h he⟩
      choose g hg using this
      exact ⟨_, mapM_ok _ hg⟩

theorem forall₂_congr_left {β γ : Type} {R S : β → γ → Prop} {l : List β} {o : List γ} (h : ∀ b ∈ l, ∀ c, R b c ↔ S b c) :
    List.Forall₂ R l o ↔ List.Forall₂ S l o := by
  induction l generalizing o with
  | nil => cases o <;> simp
  | cons b l ih =>
    cases o with
    | nil => simp
    | cons c o =>
      rw [List.forall₂_cons, List.forall₂_cons, h b (by simp), ih (fun b hb => h b (by simp [hb]))]

end EventData

/-! ### C153 -/

/-- C153: `to_eid_event` of an array of the right shape returns exactly the array of the external ids its entries stand for, for one event
and for an array of events. -/
theorem C153_to_eid {d : EventData α φ ε} {rows : List (List α)} (h : Built d rows) :
    (∀ (r : List Int), r.length = d.sEvent → ∀ o : ArrN α,
      d.toEidEvent (.vec r) = .ok o ↔ ∃ x, o = .vec x ∧ RowStandsFor d.eventOtypes rows r x) ∧
    ∀ (a : Arr2 Int), a.Regular → a.ncols = d.sEvent → ∀ o : ArrN α,
      d.toEidEvent (.mat a) = .ok o ↔ ∃ xs, o = .mat ⟨a.ncols, xs⟩ ∧ List.Forall₂ (RowStandsFor d.eventOtypes rows) a.rows xs := by
  have hd := h.holds
  constructor
  · intro r hr o
    unfold toEidEvent
    simp only [hr, if_true]
    constructor
    · intro ho
      cases hx : d.toEidRow r with
      | error e => rw [hx] at ho; cases ho
      | ok x =>
        rw [hx] at ho
        simp only [hd.eidDtype_eq, bind, Except.bind, pure, Except.pure] at ho
        cases ho
        exact ⟨x, rfl, (hd.toEidRow_ok_iff r hr x).1 hx⟩
    · rintro ⟨x, rfl, hx⟩
      rw [(hd.toEidRow_ok_iff r hr x).2 hx]
      simp [hd.eidDtype_eq, bind, Except.bind, pure, Except.pure]
  · intro a hreg hc o
    have hiff : ∀ xs, a.rows.mapM d.toEidRow = .ok xs ↔ List.Forall₂ (RowStandsFor d.eventOtypes rows) a.rows xs := by
      intro xs
      rw [mapM_ok_iff]
      exact forall₂_congr_left (fun r hr o => hd.toEidRow_ok_iff r (by rw [hreg r hr, hc]) o)
    unfold toEidEvent
    simp only [hc, if_true, hd.eidDtype_eq]
    constructor
    · intro ho
      cases hx : a.rows.mapM d.toEidRow with
      | error e => simp only [hx, bind, Except.bind] at ho; cases ho
      | ok xs =>
        simp only [hx, bind, Except.bind, pure, Except.pure] at ho
        cases ho
        exact ⟨xs, rfl, (hiff xs).1 hx⟩
    · rintro ⟨xs, rfl, hx⟩
      simp only [(hiff xs).2 hx, bind, Except.bind, pure, Except.pure]

/-- C153: `to_eid_event` raises `TypeError` for every other shape; with the right shape it raises `IndexError` if some entry
is out of range, and succeeds otherwise. -/
theorem C153_to_eid_refused {d : EventData α φ ε} {rows : List (List α)} (h : Built d rows) :
    (∀ r : List Int, r.length ≠ d.sEvent → d.toEidEvent (.vec r) = .error .typeError) ∧
    (∀ a : Arr2 Int, a.ncols ≠ d.sEvent → d.toEidEvent (.mat a) = .error .typeError) ∧
    d.toEidEvent .other = .error .typeError ∧
    (∀ r : List Int, r.length = d.sEvent →
      (RowOutOfRange d.eventOtypes rows r → d.toEidEvent (.vec r) = .error .indexError) ∧
      (¬ RowOutOfRange d.eventOtypes rows r → ∃ x, d.toEidEvent (.vec r) = .ok (.vec x))) ∧
    ∀ a : Arr2 Int, a.Regular → a.ncols = d.sEvent →
      ((∃ r ∈ a.rows, RowOutOfRange d.eventOtypes rows r) → d.toEidEvent (.mat a) = .error .indexError) ∧
      ((∀ r ∈ a.rows, ¬ RowOutOfRange d.eventOtypes rows r) → ∃ xs, d.toEidEvent (.mat a) = .ok (.mat ⟨a.ncols, xs⟩)) := by
  have hd := h.holds
  refine ⟨fun r hr => if_neg hr, fun a ha => if_neg ha, rfl, fun r hr => ?_, fun a hreg hc => ?_⟩
  · unfold toEidEvent
    simp only [hr, if_true]
    rcases hd.toEidRow_or r hr with ⟨⟨o, ho⟩, hn⟩ | ⟨he, hy⟩
    · refine ⟨fun h => absurd h hn, fun _ => ⟨o, ?_⟩⟩
      simp [ho, hd.eidDtype_eq, bind, Except.bind, pure, Except.pure]
    · refine ⟨fun _ => ?_, fun h => absurd hy h⟩
      simp [he, bind, Except.bind]
  · have hor := fun r (hr : r ∈ a.rows) => hd.toEidRow_or r (by rw [hreg r hr, hc])
    unfold toEidEvent
    simp only [hc, if_true, hd.eidDtype_eq]
    constructor
    · rintro ⟨r, hr, hout⟩
      have : a.rows.mapM d.toEidRow = .error .indexError := by
        refine mapM_error_of _ (fun b hb => ?_) ⟨r, hr, ?_⟩
        · rcases hor b hb with ⟨h, _⟩ | ⟨h, _⟩
          · exact .inl h
          · exact .inr h
        · rcases hor r hr with ⟨_, h⟩ | ⟨h, _⟩
          · exact absurd hout h
          · exact h
      simp [this, bind, Except.bind]
    · intro hall
      have : ∀ r, ∃ o, r ∈ a.rows → d.toEidRow r = .ok o := by
        intro r
        by_cases hr : r ∈ a.rows
        · rcases hor r hr with ⟨⟨o, ho⟩, _⟩ | ⟨_, h⟩
          · exact ⟨o, fun _ => ho⟩
          · exact absurd h (hall r hr)
        · exact ⟨[], fun h => absurd h hr⟩
      choose g hg using this
      refine ⟨a.rows.map g, ?_⟩
      simp [mapM_ok _ hg, bind, Except.bind, pure, Except.pure]

/-- C153: converting internal ids that are in range, not counted from the end, to external ids and back changes nothing. -/
theorem C153_back {d : EventData α φ ε} {rows : List (List α)} (h : Built d rows) (a : Arr2 Int) (hreg : a.Regular)
    (hc : a.ncols = d.sEvent) (hpos : ∀ r ∈ a.rows, ∀ i ∈ r, 0 ≤ i) (o : ArrN α) (ho : d.toEidEvent (.mat a) = .ok o)
    (m : Missing) (hm : m = .none ∨ ∃ vs, m = .vector vs ∧ vs.length = d.sEvent) :
    d.toIidEvent o m = .ok (.mat a) := by
  classical
  have hd := h.holds
  obtain ⟨xs, rfl, hxs⟩ := ((C153_to_eid h).2 a hreg hc o).1 ho
  obtain ⟨hl, hget⟩ := List.forall₂_iff_get.1 hxs
  have hregx : (⟨a.ncols, xs⟩ : Arr2 α).Regular := by
    intro x hx
    obtain ⟨k, hk, rfl⟩ := List.mem_iff_getElem.1 hx
    have := (hget k (hl.symm ▸ hk) hk).1
    simp only [List.get_eq_getElem] at this
    rw [this]
    exact hreg _ (List.getElem_mem _)
  obtain ⟨vs, hvs, hres⟩ : ∃ vs : List Int, vs.length = d.sEvent ∧ d.resolveMissing m = .ok (.vector vs) := by
    rcases hm with rfl | ⟨vs, rfl, hvs⟩
    · exact ⟨_, by simp [hd.wf.len_otypes], hd.resolveMissing_none⟩
    · exact ⟨vs, hvs, rfl⟩
  have hrow : xs.mapM (d.toIidRow (.vector vs)) = .ok a.rows := by
    rw [mapM_ok_iff]
    refine forall₂_of_getElem hl.symm (fun k h1 h2 => ?_)
    obtain ⟨o, o1, o2, o3⟩ := hd.toIidRow_ok vs hvs xs[k] (by rw [hregx _ (List.getElem_mem h1)]; exact hc)
    rw [o1]
    congr 1
    have hlen : a.rows[k].length = d.sEvent := by rw [hreg _ (List.getElem_mem h2), hc]
    refine List.ext_getElem (by omega) (fun e he1 he2 => ?_)
    obtain ⟨hxl, hst⟩ := hget k h2 h1
    simp only [List.get_eq_getElem] at hxl hst
    have he3 : e < xs[k].length := by omega
    obtain ⟨t, ht, hob, hi⟩ := hst e _ _ (List.getElem?_eq_getElem he2) (List.getElem?_eq_getElem he3)
    have := o3 e t _ vs[e] ht (List.getElem?_eq_getElem he3) (List.getElem?_eq_getElem (by omega))
    rw [if_pos ((mem_ids _ _ _ _).2 hob), idxOf_ids _ _ _ _ hob, List.getElem?_eq_getElem he1] at this
    rw [Option.some.inj this]
    have hp := hpos _ (List.getElem_mem h2) _ (List.getElem_mem he2)
    have hlt : rank d.eventOtypes rows t xs[k][e] < count d.eventOtypes rows t := by
      rw [← idxOf_ids _ _ _ _ hob, ← length_ids]
      exact List.idxOf_lt_length_iff.2 ((mem_ids _ _ _ _).2 hob)
    omega
  unfold toIidEvent
  simp only [hres, hc, if_true, hrow, bind, Except.bind, pure, Except.pure]
  rw [← hc]

/-- C153: a vector of missing values that is too long is used up to the number of columns; one that is too short makes `to_iid_event` raise
`IndexError`, unless there is no event to convert, even if no external id is unknown. -/
theorem C153_missing_values {d : EventData α φ ε} {rows : List (List α)} (h : Built d rows) (vs : List Int) :
    (d.sEvent ≤ vs.length → ∀ ev : ArrN α, d.toIidEvent ev (.vector vs) = d.toIidEvent ev (.vector (vs.take d.sEvent))) ∧
    (vs.length < d.sEvent →
      (∀ r : List α, r.length = d.sEvent → d.toIidEvent (.vec r) (.vector vs) = .error .indexError) ∧
      ∀ a : Arr2 α, a.Regular → a.ncols = d.sEvent → d.toIidEvent (.mat a) (.vector vs) =
        if a.rows = [] then .ok (.mat ⟨a.ncols, []⟩) else .error .indexError) := by
  have hd := h.holds
  constructor
  · intro hl ev
    have hrow : ∀ r, d.toIidRow (.vector vs) r = d.toIidRow (.vector (vs.take d.sEvent)) r := by
      intro r
      unfold toIidRow
      refine mapM_congr _ (fun e he => ?_)
      have he : e < d.sEvent := by simpa using he
      have : Missing.item (.vector vs) e = Missing.item (.vector (vs.take d.sEvent)) e := by
        simp only [Missing.item]
        rw [npGet_ofNat vs e (by omega), npGet_ofNat (vs.take d.sEvent) e (by rw [List.length_take]; omega)]
        simp
      rw [this]
    have hfun : d.toIidRow (.vector vs) = d.toIidRow (.vector (vs.take d.sEvent)) := funext hrow
    unfold toIidEvent resolveMissing
    simp only [bind, Except.bind, hfun]
  · intro hl
    have hrow : ∀ r : List α, r.length = d.sEvent → d.toIidRow (.vector vs) r = .error .indexError := by
      intro r hr
      have hent : ∀ e ∈ List.range d.sEvent, ∃ (m : Dict α Nat) (x : α), (do
          let iid ← d.iidOfColumn e
          let x ← npGet r e
          let mv ← (Missing.vector vs).item e
          return ((iid.get? x).map Int.ofNat).getD mv) = (npGet vs e).map (fun mv => ((Dict.get? m x).map Int.ofNat).getD mv) := by
        intro e he
        have he : e < d.sEvent := by simpa using he
        have h1 : e < d.eventOtypes.length := by rw [hd.wf.len_otypes]; exact he
        refine ⟨Dict.ofPairs (ids d.eventOtypes rows d.eventOtypes[e]).zipIdx, r[e], ?_⟩
        rw [hd.iidOfColumn_eq (List.getElem?_eq_getElem h1), npGet_ofNat r e (by omega)]
        simp only [Missing.item, bind, Except.bind]
        cases npGet vs (e : Int) <;> rfl
      unfold toIidRow
      refine mapM_error_of _ (fun e he => ?_) ⟨vs.length, by simpa using hl, ?_⟩
      · obtain ⟨m, x, heq⟩ := hent e he
        rw [heq]
        rcases npGet_or vs e with ⟨y, hy⟩ | hy
        · rw [hy]; exact .inl ⟨_, rfl⟩
        · rw [hy]; exact .inr rfl
      · obtain ⟨m, x, heq⟩ := hent vs.length (by simpa using hl)
        rw [heq, npGet_of_ge _ _ (le_refl _)]
        rfl
    refine ⟨fun r hr => ?_, fun a hreg hc => ?_⟩
    · unfold toIidEvent resolveMissing
      simp [hr, hrow r hr, bind, Except.bind]
    · unfold toIidEvent resolveMissing
      by_cases hnil : a.rows = []
      · rw [if_pos hnil]
        simp only [hc, if_true, hnil, bind, Except.bind]
        rfl
      · rw [if_neg hnil]
        have hne := hnil
        obtain ⟨r, l, hrl⟩ := List.exists_cons_of_ne_nil hne
        have : a.rows.mapM (d.toIidRow (.vector vs)) = .error .indexError := by
          rw [hrl, List.mapM_cons, hrow r (by rw [hreg r (by simp [hrl]), hc])]
          rfl
        simp [hc, this, bind, Except.bind]

/-- C153: a container that was never loaded converts no event: `to_eid_event` raises `TypeError` for one event and `AttributeError` for an
array of events; `to_iid_event` raises `AttributeError` for one event and for an array with an event; `to_eid` and
`to_iid` raise `TypeError` for every type of the layout. -/
theorem C153_never_loaded {n : Int} {arg : OtypesArg} {d : EventData α φ ε} (h : EventData.init n arg = .ok d) :
    (∀ r : List Int, r.length = d.sEvent → d.toEidEvent (.vec r) = .error .typeError) ∧
    (∀ a : Arr2 Int, a.ncols = d.sEvent → d.toEidEvent (.mat a) = .error .attributeError) ∧
    (∀ (r : List α) (m : Missing), r.length = d.sEvent → d.toIidEvent (.vec r) m = .error .attributeError) ∧
    (∀ (a : Arr2 α) (m : Missing), a.ncols = d.sEvent → a.rows ≠ [] → d.toIidEvent (.mat a) m = .error .attributeError) ∧
    (∀ (t : Nat) (i : Int), t < d.nOtypes → d.toEid t i = .error .typeError) ∧
    ∀ (t : Nat) (x : α), t < d.nOtypes → d.toIid t x = .error .typeError := by
  have hwf := (Reachable.init h).wf
  obtain ⟨k, heid, hiid, hpos⟩ : ∃ k, d.eid = List.replicate k none ∧ d.iid = List.replicate k none ∧ 0 < d.sEvent := by
    unfold EventData.init at h
    split at h
    · cases h
    · cases arg with
      | none =>
        cases h
        exact ⟨_, rfl, rfl, by simp only; omega⟩
      | arr nd es =>
        simp only [] at h
        split at h
        · cases h
        · split at h
          · cases h
          · split at h
            · cases h
            · split at h
              · cases h
              · cases h
                exact ⟨_, rfl, rfl, List.length_pos_of_ne_nil (by assumption)⟩
  have hk : k = d.nOtypes := by rw [← hwf.len_eid, heid, List.length_replicate]
  subst hk
  have ht0 : d.eventOtypes[0]? = some (d.eventOtypes[0]'(by rw [hwf.len_otypes]; exact hpos)) :=
    List.getElem?_eq_getElem (by rw [hwf.len_otypes]; exact hpos)
  have hlt := hwf.otypes_lt _ (List.mem_of_getElem? ht0)
  have hres : ∀ m, ∃ m', d.resolveMissing m = .ok m' := by
    intro m
    cases m with
    | none =>
      unfold resolveMissing npTake
      have : (d.eventOtypes.map Int.ofNat).mapM (npGet d.nObjects) = .ok (d.eventOtypes.map (fun t => d.nObjects.getD t 0)) := by
        rw [mapM_map]
        refine mapM_ok _ (fun t ht => ?_)
        have hl : t < d.nObjects.length := by rw [hwf.len_nObjects]; exact hwf.otypes_lt t ht
        have := npGet_ofNat d.nObjects t hl
        simp only [Int.ofNat_eq_natCast, this, List.getD_eq_getElem?_getD, List.getElem?_eq_getElem hl, Option.getD_some]
      rw [this]
      exact ⟨_, rfl⟩
    | vector vs => exact ⟨_, rfl⟩
    | scalar v => exact ⟨_, rfl⟩
  obtain ⟨s, hs⟩ : ∃ s, d.sEvent = s + 1 := ⟨d.sEvent - 1, by omega⟩
  have hE : d.toEidRow = fun _ => .error .typeError := by
    funext r
    unfold toEidRow eidOfColumn
    rw [hs, List.range_succ_eq_map, List.mapM_cons, ht0]
    simp only [heid, List.getElem?_replicate, if_pos hlt]
    rfl
  have hI : ∀ m, d.toIidRow m = fun _ => .error .attributeError := by
    intro m
    funext r
    unfold toIidRow iidOfColumn
    rw [hs, List.range_succ_eq_map, List.mapM_cons, ht0]
    simp only [hiid, List.getElem?_replicate, if_pos hlt]
    rfl
  refine ⟨fun r hr => ?_, fun a ha => ?_, fun r m hr => ?_, fun a m ha hne => ?_, fun t i ht => ?_, fun t x ht => ?_⟩
  · unfold toEidEvent
    simp only [hr, if_true, hE]
    rfl
  · have : d.eidDtype = .error .attributeError := by
      unfold eidDtype
      rw [heid, List.getElem?_replicate, if_pos (show 0 < d.nOtypes from hwf.pos)]
    unfold toEidEvent
    simp only [ha, if_true, this]
    rfl
  · obtain ⟨m', hm'⟩ := hres m
    unfold toIidEvent
    rw [hm']
    simp only [hr, if_true, hI, bind, Except.bind]
  · obtain ⟨m', hm'⟩ := hres m
    unfold toIidEvent
    rw [hm']
    obtain ⟨r, l, hrl⟩ := List.exists_cons_of_ne_nil hne
    simp only [ha, if_true, hI, bind, Except.bind, hrl, List.mapM_cons]
  · unfold toEid
    rw [npGet_ofNat _ _ (by rw [hwf.len_eid]; exact ht)]
    simp [heid]
  · unfold toIid
    rw [npGet_ofNat _ _ (by rw [hwf.len_iid]; exact ht)]
    simp [hiid]

/-! ### Examples -/

/-- An event with one entry counted from the end, and one with an entry out of range. -/
example : exLoaded.toEidEvent (.mat ⟨3, [[1, -1, 3]]⟩) = .ok (.mat ⟨3, [[5, 30, 9]]⟩) ∧
    exLoaded.toEidEvent (.mat ⟨3, [[1, 2, 3], [0, 3, 0]]⟩) = .error .indexError ∧
    exLoaded.toEidEvent (.vec [1, 2]) = .error .typeError := ⟨rfl, rfl, rfl⟩

example : RowStandsFor exLoaded.eventOtypes exEvent.rows [1, -1, 3] [5, 30, 9] := by
  obtain ⟨xs, h1, h2⟩ := ((C153_to_eid exLoaded_built).2 ⟨3, [[1, -1, 3]]⟩ (by intro r hr; simp at hr; simp [hr]) rfl _).1
    (show exLoaded.toEidEvent (.mat ⟨3, [[1, -1, 3]]⟩) = .ok (.mat ⟨3, [[5, 30, 9]]⟩) from rfl)
  cases h1
  simpa using h2

/-- A vector of missing values that is too short, with known ids only. -/
example : exLoaded.toIidEvent (.mat ⟨3, [[7, 30, 5]]⟩) (.vector [0, 0]) = .error .indexError :=
  ((C153_missing_values exLoaded_built [0, 0]).2 (by decide)).2 ⟨3, [[7, 30, 5]]⟩ (by intro r hr; simp at hr; simp [hr]) rfl

/-- A new container. -/
example : EventData.init 3 (.arr 1 [0, 2, 0]) = .ok exLayout ∧ exLayout.toEidEvent (.vec [0, 0, 0]) = .error .typeError := by
  have h : EventData.init 3 (.arr 1 [0, 2, 0]) = .ok exLayout := rfl
  exact ⟨h, (C153_never_loaded h).1 [0, 0, 0] rfl⟩

end Kam
