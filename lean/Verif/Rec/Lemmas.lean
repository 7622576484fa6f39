/-
Closed forms of the recommender base functions.
-/
import Verif.Rec.Spec
import Verif.Score.Props

set_option linter.unusedSectionVars false

namespace Kam
open Spec
variable {K : Type} {α φ ε γ θ V : Type} [LinearOrder α]

theorem npTake_positions {β : Type} (a : List β) (ix : List Int) (js : List Nat)
    (h : (Sel.index ix).positions a.length = .ok js) : npTake a ix = .ok (gather a js) := by
  unfold npTake
  simp only [Sel.positions] at h
  induction ix generalizing js with
  | nil => cases h; rfl
  | cons i ix ih =>
    rw [List.mapM_cons] at h ⊢
    simp only [bind, Except.bind, pure, Except.pure] at h ⊢
    unfold npGet
    cases hi : npIndex a.length i with
    | none => rw [hi] at h; cases h
    | some j =>
      rw [hi] at h
      simp only at h
      have hj : j < a.length := npIndex_lt hi
      simp only [List.getElem?_eq_getElem hj]
      split at h
      · cases h
      · rename_i js' hjs'
        cases h
        have := ih js' hjs'
        unfold npGet at this
        rw [this]
        simp [gather, List.getElem?_eq_getElem hj]

theorem npTake_positions_error {β : Type} (a : List β) (ix : List Int) (e : Exc)
    (h : (Sel.index ix).positions a.length = .error e) : npTake a ix = .error .indexError := by
  unfold npTake
  simp only [Sel.positions] at h
  induction ix with
  | nil => cases h
  | cons i ix ih =>
    rw [List.mapM_cons] at h ⊢
    simp only [bind, Except.bind, pure, Except.pure] at h ⊢
    unfold npGet
    cases hi : npIndex a.length i with
    | none => rfl
    | some j =>
      rw [hi] at h
      simp only at h
      have hj : j < a.length := npIndex_lt hi
      simp only [List.getElem?_eq_getElem hj]
      split at h
      · rename_i e' he'
        have := ih (by rw [he']; exact h)
        unfold npGet at this
        rw [this]
      · cases h

theorem positions_nat (js : List Nat) (n : Nat) (h : ∀ j ∈ js, j < n) :
    (Sel.index (js.map Int.ofNat)).positions n = .ok js := by
  simp only [Sel.positions]
  rw [mapM_map]
  refine (mapM_ok (g := id) js ?_).trans (by simp)
  intro j hj
  have := npIndex_ofNat (h j hj)
  simp only [Int.ofNat_eq_natCast, this, id]

theorem Sel.positions_index_length {ix : List Int} {n : Nat} {js : List Nat}
    (h : (Sel.index ix).positions n = .ok js) : js.length = ix.length := by
  simp only [Sel.positions] at h
  exact mapM_ok_length h

/-- The event index stored by `fit`. -/
def storedIndex (d : EventData α φ ε) (idx : Option (List Int)) : List Int :=
  match idx with
  | none => (List.range d.sEvent).map Int.ofNat
  | some ix => ix

theorem columnsOf_positions (d : EventData α φ ε) (idx : Option (List Int)) (js : List Nat)
    (h : columnsOf d idx = .ok js) : (Sel.index (storedIndex d idx)).positions d.sEvent = .ok js := by
  cases idx with
  | none =>
    cases h
    exact positions_nat _ _ (by simp)
  | some ix => exact h

/-- The state after a successful `BaseEventRecommender.fit`. -/
def fittedInfo (mk : Int → γ) (env : γ) (r : Rec K α φ ε γ θ V) (d : EventData α φ ε)
    (rows : List (List α)) (idx : Option (List Int)) (js : List Nat) : Rec K α φ ε γ θ V :=
  { r with
    rng := some (match r.seed with | some s => mk s | none => env)
    eventIndex := some (storedIndex d idx)
    info := { d with
      feature := r.info.feature
      event := some (rows.map (fun row => gather (encodeRow d.eventOtypes rows row) js))
      nObjects := gather (d.eventOtypes.map (fun t => (ids d.eventOtypes rows t).length)) js } }

theorem take_nObjects {d : EventData α φ ε} {rows : List (List α)} (hd : d.Holds rows) :
    npTake d.nObjects (d.eventOtypes.map Int.ofNat) =
      .ok (d.eventOtypes.map (fun t => (ids d.eventOtypes rows t).length)) := by
  unfold npTake
  rw [mapM_map]
  apply mapM_ok
  intro t ht
  have hlt := hd.wf.otypes_lt t ht
  have hl : t < d.nObjects.length := by rw [hd.wf.len_nObjects]; exact hlt
  have h1 := npGet_ofNat d.nObjects t hl
  have h2 := hd.nObjects_get hlt
  rw [List.getElem?_eq_getElem hl] at h2
  simp only [Option.some.injEq] at h2
  rw [← h2]
  exact h1

theorem eventFit_eq (mk : Int → γ) (env : γ) (r : Rec K α φ ε γ θ V) {d : EventData α φ ε}
    {rows : List (List α)} (hd : d.Holds rows) (idx : Option (List Int)) (js : List Nat)
    (hjs : columnsOf d idx = .ok js) :
    Rec.eventFit mk env r d idx = .ok (fittedInfo mk env r d rows idx js) := by
  have hpos := columnsOf_positions d idx js hjs
  have hlen : d.eventOtypes.length = d.sEvent := hd.wf.len_otypes
  have hrows : (rows.map (encodeRow d.eventOtypes rows)).mapM
      (fun row => npTake row (storedIndex d idx)) =
      .ok (rows.map (fun row => gather (encodeRow d.eventOtypes rows row) js)) := by
    rw [mapM_map]
    apply mapM_ok
    intro row hrow
    apply npTake_positions
    rw [EventData.length_encodeRow _ _ _ (hd.reg row hrow), hlen]
    exact hpos
  have hn2 : npTake (d.eventOtypes.map (fun t => (ids d.eventOtypes rows t).length))
      (storedIndex d idx) = .ok (gather (d.eventOtypes.map
        (fun t => (ids d.eventOtypes rows t).length)) js) := by
    apply npTake_positions
    rw [List.length_map, hlen]
    exact hpos
  unfold Rec.eventFit Rec.baseFit
  cases idx with
  | none =>
    simp only [storedIndex] at hrows hn2
    simp only [hd.event, hrows, take_nObjects hd, hn2]
    rfl
  | some ix =>
    simp only [storedIndex] at hrows hn2
    simp only [hd.event, hrows, take_nObjects hd, hn2]
    rfl

theorem eventFit_error (mk : Int → γ) (env : γ) (r : Rec K α φ ε γ θ V) {d : EventData α φ ε}
    {rows : List (List α)} (hd : d.Holds rows) (idx : Option (List Int)) (e : Exc)
    (hjs : columnsOf d idx = .error e) :
    ∃ r', Rec.eventFit mk env r d idx = .error (.indexError, r') := by
  have hlen : d.eventOtypes.length = d.sEvent := hd.wf.len_otypes
  cases idx with
  | none => cases hjs
  | some ix =>
    have hn2 : npTake (d.eventOtypes.map (fun t => (ids d.eventOtypes rows t).length)) ix =
        .error .indexError := by
      apply npTake_positions_error _ _ e
      rw [List.length_map, hlen]; exact hjs
    unfold Rec.eventFit Rec.baseFit
    simp only [hd.event]
    cases rows with
    | nil =>
      simp only [List.map_nil, List.mapM_nil, pure, Except.pure, take_nObjects hd]
      rw [hn2]
      exact ⟨_, rfl⟩
    | cons row rows =>
      have : npTake (encodeRow d.eventOtypes (row :: rows) row) ix = .error .indexError := by
        apply npTake_positions_error _ _ e
        rw [EventData.length_encodeRow _ _ _ (hd.reg row (by simp)), hlen]; exact hjs
      rw [List.map_cons, List.mapM_cons]
      simp only [this, bind, Except.bind]
      exact ⟨_, rfl⟩

/-- The attributes of a fitted recommender that `predict` reads. -/
structure FittedOn (r : Rec K α φ ε γ θ V) (d : EventData α φ ε) (rows : List (List α))
    (idx : Option (List Int)) (js : List Nat) : Prop where
  iid : r.info.iid = d.iid
  eventOtypes : r.info.eventOtypes = d.eventOtypes
  sEvent : r.info.sEvent = d.sEvent
  eventIndex : r.eventIndex = some (storedIndex d idx)
  nObjects : r.info.nObjects =
    gather (d.eventOtypes.map (fun t => (ids d.eventOtypes rows t).length)) js

theorem toIidRow_congr (d d' : EventData α φ ε) (h1 : d.iid = d'.iid)
    (h2 : d.eventOtypes = d'.eventOtypes) (h3 : d.sEvent = d'.sEvent) (m : EventData.Missing)
    (row : List α) : d.toIidRow m row = d'.toIidRow m row := by
  unfold EventData.toIidRow EventData.iidOfColumn
  rw [h1, h2, h3]

end Kam
