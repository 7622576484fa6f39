/-
Id conversion in containers that hold given rows.
-/
import Verif.Data.Reach

namespace Kam
variable {α φ ε : Type} [LinearOrder α]

theorem forall₂_of_getElem {β γ : Type} {R : β → γ → Prop} {l : List β} {r : List γ}
    (hlen : l.length = r.length)
    (h : ∀ i (h1 : i < l.length) (h2 : i < r.length), R l[i] r[i]) : List.Forall₂ R l r := by
  rw [List.forall₂_iff_get]
  exact ⟨hlen, fun i h1 h2 => by simpa using h i h1 h2⟩

namespace EventData
variable {d : EventData α φ ε} {rows : List (List α)}

theorem Holds.eid_get (hd : d.Holds rows) {t : Nat} (ht : t < d.nOtypes) :
    d.eid[t]? = some (some (ids d.eventOtypes rows t)) := by
  rw [hd.eid]; simp [ht]

theorem Holds.iid_get (hd : d.Holds rows) {t : Nat} (ht : t < d.nOtypes) :
    d.iid[t]? = some (some (Dict.ofPairs (ids d.eventOtypes rows t).zipIdx)) := by
  rw [hd.iid]; simp [ht]

theorem Holds.nObjects_get (hd : d.Holds rows) {t : Nat} (ht : t < d.nOtypes) :
    d.nObjects[t]? = some (ids d.eventOtypes rows t).length := by
  rw [hd.nObjects]; simp [ht]

theorem Holds.toIid_eq (hd : d.Holds rows) {t : Nat} (ht : t < d.nOtypes) (x : α) :
    d.toIid t x = if x ∈ ids d.eventOtypes rows t then .ok ((ids d.eventOtypes rows t).idxOf x)
      else .error .valueError := by
  unfold toIid
  have hl : t < d.iid.length := by rw [hd.wf.len_iid]; exact ht
  rw [npGet_ofNat _ _ hl]
  have := hd.iid_get ht
  rw [List.getElem?_eq_getElem hl] at this
  simp only [Option.some.injEq] at this
  rw [this]
  simp only [Dict.getItem, Dict.get?_ofPairs_zipIdx _ (nodup_ids _ _ _)]
  by_cases hx : x ∈ ids d.eventOtypes rows t <;> simp [hx]

theorem Holds.toEid_eq (hd : d.Holds rows) {t : Nat} (ht : t < d.nOtypes) (i : Int) :
    d.toEid t i = match npGet (ids d.eventOtypes rows t) i with
      | .ok x => .ok x
      | .error _ => .error .valueError := by
  unfold toEid
  have hl : t < d.eid.length := by rw [hd.wf.len_eid]; exact ht
  rw [npGet_ofNat _ _ hl]
  have := hd.eid_get ht
  rw [List.getElem?_eq_getElem hl] at this
  simp only [Option.some.injEq] at this
  rw [this]
  rfl

theorem Holds.eidOfColumn_eq (hd : d.Holds rows) {e t : Nat} (ht : d.eventOtypes[e]? = some t) :
    d.eidOfColumn e = .ok (ids d.eventOtypes rows t) := by
  unfold eidOfColumn
  have hlt := hd.wf.otypes_lt t (List.mem_of_getElem? ht)
  simp [ht, hd.eid_get hlt]

theorem Holds.eidDtype_eq (hd : d.Holds rows) : d.eidDtype = .ok () := by
  unfold eidDtype
  rw [hd.eid_get hd.wf.pos]

theorem Holds.iidOfColumn_eq (hd : d.Holds rows) {e t : Nat} (ht : d.eventOtypes[e]? = some t) :
    d.iidOfColumn e = .ok (Dict.ofPairs (ids d.eventOtypes rows t).zipIdx) := by
  unfold iidOfColumn
  have hlt := hd.wf.otypes_lt t (List.mem_of_getElem? ht)
  simp [ht, hd.iid_get hlt]

theorem Holds.toEidRow_encode (hd : d.Holds rows) {r : List α} (hr : r ∈ rows) :
    d.toEidRow (encodeRow d.eventOtypes rows r) = .ok r := by
  unfold toEidRow
  rw [mapM_ok_iff]
  have hlen := hd.reg r hr
  apply forall₂_of_getElem
  · simp [hlen, hd.wf.len_otypes]
  · intro e h1 h2
    simp only [List.length_range] at h1
    have he : e < d.eventOtypes.length := by rw [hd.wf.len_otypes]; exact h1
    have ht : d.eventOtypes[e]? = some d.eventOtypes[e] := List.getElem?_eq_getElem he
    have hx : r[e]? = some r[e] := List.getElem?_eq_getElem h2
    have henc := encodeRow_getElem? d.eventOtypes rows r e _ _ ht hx
    have hel : e < (encodeRow d.eventOtypes rows r).length := by
      rw [length_encodeRow _ _ _ hlen]; exact he
    rw [List.getElem?_eq_getElem hel] at henc
    simp only [Option.some.injEq] at henc
    have hmem : r[e] ∈ ids d.eventOtypes rows d.eventOtypes[e] := by
      rw [mem_ids]; exact ⟨r, hr, e, ht, hx⟩
    simp only [List.getElem_range, hd.eidOfColumn_eq ht, bind, Except.bind]
    rw [npGet_ofNat _ _ hel, henc]
    simp only
    rw [npGet_ofNat _ _ (List.idxOf_lt_length_iff.2 hmem)]
    simp

/-- `missing_values` after the default has been filled in. -/
theorem Holds.resolveMissing_none (hd : d.Holds rows) :
    d.resolveMissing .none = .ok (.vector
      (d.eventOtypes.map (fun t => ((ids d.eventOtypes rows t).length : Int)))) := by
  unfold resolveMissing
  have : npTake d.nObjects (d.eventOtypes.map Int.ofNat) =
      .ok (d.eventOtypes.map (fun t => (ids d.eventOtypes rows t).length)) := by
    unfold npTake
    rw [mapM_map]
    apply mapM_ok
    intro t ht
    have hlt := hd.wf.otypes_lt t ht
    have hl : t < d.nObjects.length := by rw [hd.wf.len_nObjects]; exact hlt
    have h1 := npGet_ofNat d.nObjects t hl
    have h2 := hd.nObjects_get hlt
    rw [List.getElem?_eq_getElem hl] at h2
    simp only [Option.some.injEq] at h2
    rw [← h2]
    exact h1
  simp [this, bind, Except.bind, pure, Except.pure]

/-- Conversion of one row with a vector of missing values. -/
theorem Holds.toIidRow_ok (hd : d.Holds rows) (vs : List Int) (hvs : vs.length = d.sEvent)
    (r : List α) (hr : r.length = d.sEvent) :
    ∃ o, d.toIidRow (.vector vs) r = .ok o ∧ o.length = d.sEvent ∧
      ∀ (e t : Nat) (x : α) (v : Int), d.eventOtypes[e]? = some t → r[e]? = some x →
        vs[e]? = some v →
        o[e]? = some (if x ∈ ids d.eventOtypes rows t then
          ((ids d.eventOtypes rows t).idxOf x : Int) else v) := by
  let g : Nat → Int := fun e =>
    match d.eventOtypes[e]?, r[e]?, vs[e]? with
    | some t, some x, some v => if x ∈ ids d.eventOtypes rows t then
          ((ids d.eventOtypes rows t).idxOf x : Int) else v
    | _, _, _ => 0
  refine ⟨(List.range d.sEvent).map g, ?_, by simp, ?_⟩
  · unfold toIidRow
    apply mapM_ok
    intro e he
    have he : e < d.sEvent := by simpa using he
    have h1 : e < d.eventOtypes.length := by rw [hd.wf.len_otypes]; exact he
    have ht : d.eventOtypes[e]? = some d.eventOtypes[e] := List.getElem?_eq_getElem h1
    have h2 : e < r.length := by omega
    have h3 : e < vs.length := by omega
    simp only [hd.iidOfColumn_eq ht, bind, Except.bind, npGet_ofNat r e h2, Missing.item,
      npGet_ofNat vs e h3, pure, Except.pure, Except.ok.injEq, g, List.getElem?_eq_getElem h1,
      List.getElem?_eq_getElem h2, List.getElem?_eq_getElem h3,
      Dict.get?_ofPairs_zipIdx _ (nodup_ids _ _ _)]
    split <;> simp_all
  · intro e t x v ht hx hv
    have h2 : e < d.sEvent := by
      rw [List.getElem?_eq_some_iff] at hx; obtain ⟨h, _⟩ := hx; omega
    simp [h2, g, ht, hx, hv]

theorem toIidRow_scalar (hd : d.Holds rows) (m : Int) (r : List α) (hr : r.length = d.sEvent)
    (hs : 0 < d.sEvent) : d.toIidRow (.scalar m) r = .error .typeError := by
  unfold toIidRow
  obtain ⟨n, hn⟩ : ∃ n, d.sEvent = n + 1 := ⟨d.sEvent - 1, by omega⟩
  have h1 : 0 < d.eventOtypes.length := by rw [hd.wf.len_otypes]; exact hs
  have ht : d.eventOtypes[0]? = some d.eventOtypes[0] := List.getElem?_eq_getElem h1
  have hg := npGet_ofNat r 0 (by omega)
  rw [hn, List.range_succ_eq_map, List.mapM_cons]
  simp only [Nat.cast_zero] at hg
  simp [hd.iidOfColumn_eq ht, hg, Missing.item, bind, Except.bind]

end EventData
end Kam
