/-
What the loaders return, and what filtering a loaded container gives.
-/
import Verif.Scripts.Spec
import Verif.Scripts.Lemmas2
import Verif.Score.Props
import Verif.Rec.Lemmas
import Verif.Split.Props2

set_option linter.unusedSectionVars false

namespace Kam.Scripts
open Spec

variable {K α φ ε F V T γ M : Type} [Field K] [LinearOrder K] [IsStrictOrderedRing K] [FloorRing K] [LinearOrder α]

lemma externalEvents_built {d : ScoreData K α φ ε} {rows : List (List α)} (h : Built d.toEventData rows) :
    externalEvents d = .ok rows := by
  have hd := h.holds
  unfold externalEvents
  rw [hd.event]
  simp only []
  have hrows : (rows.map (encodeRow d.eventOtypes rows)).mapM d.toEventData.toEidRow = .ok rows := by
    rw [mapM_map]
    have := mapM_ok (g := id) rows (f := fun x => d.toEventData.toEidRow (encodeRow d.eventOtypes rows x))
      (fun r hr => hd.toEidRow_encode hr)
    simpa using this
  unfold EventData.toEidEvent
  simp only [if_true, hd.eidDtype_eq, hrows, ok_bind, pure, Except.pure]

lemma loadEvent_built {t : Table K α ε} (ht : TableOk t) {dom : Option (List K)} {d : ScoreData K α φ ε}
    (h : loadEventWithScore t dom = .ok d) :
    ScoreBuilt d t.event.rows t.score ∧ ∃ dm n, ScoreData.resolveDomain t.score dom = .ok dm ∧
      ScoreData.levelsOfDomain dm = .ok n ∧ d.scoreDomain = some dm := by
  unfold loadEventWithScore at h
  obtain ⟨d0, h0, h⟩ := bind_ok h
  have hr : Reachable d0.toEventData := by
    unfold ScoreData.init at h0
    obtain ⟨b, hb, h0⟩ := bind_ok h0
    simp only [pure, Except.pure, Except.ok.injEq] at h0
    subst h0
    exact .init hb
  have hs : d0.setEvent t.event t.score dom t.feature = .ok d := by
    unfold dropState at h
    split at h
    · cases h; assumption
    · cases h
  obtain ⟨_, _, dm, n, a1, a2, a3, _⟩ := ScoreData.setEvent_ok hs
  exact ⟨.load hr ht.regular ht.feature ht.score hs, dm, n, a1, a2, a3⟩

lemma levels_ok_length {dm : List K} {n : Int} (h : ScoreData.levelsOfDomain dm = .ok n) :
    ∃ lo hi st rest, dm = lo :: hi :: st :: rest ∧ st ≠ 0 := by
  unfold ScoreData.levelsOfDomain at h
  match dm, h with
  | [], h => simp [npGet, npIndex, bind, Except.bind] at h
  | [a], h => simp [npGet, npIndex, bind, Except.bind] at h
  | [a, b], h => simp [npGet, npIndex, bind, Except.bind] at h
  | a :: b :: c :: rest, h =>
    refine ⟨a, b, c, rest, rfl, ?_⟩
    rintro rfl
    obtain ⟨hi, _, h⟩ := bind_ok h
    obtain ⟨lo, _, h⟩ := bind_ok h
    obtain ⟨st, h3, h⟩ := bind_ok h
    have : st = 0 := by
      have e : npGet (a :: b :: (0 : K) :: rest) 2 = .ok 0 := npGet_ofNat (a :: b :: (0 : K) :: rest) 2 (by simp)
      rw [e] at h3
      simpa using h3.symm
    rw [if_pos this] at h
    cases h

/-- The loader of the score-predictor script. -/
theorem loadDataSP_loads {read : F → Res (Table K α ε)} (hread : ∀ f t, read f = .ok t → TableOk t) :
    Loads (loadDataSP read : Loader K α φ ε F) := by
  intro f dom d dm h
  unfold loadDataSP at h
  obtain ⟨t, h1, h⟩ := bind_ok h
  obtain ⟨d', h2, h⟩ := bind_ok h
  obtain ⟨hb, _⟩ := loadEvent_built (hread f t h1) h2
  split at h
  · simp only [pure, Except.pure, Except.ok.injEq, Prod.mk.injEq] at h
    rw [← h.1]
    exact ⟨_, _, hb⟩
  · cases h

/-- The loader of the item-finder script. -/
theorem loadDataIF_loads {read : F → Res (Table K α ε)} (hread : ∀ f t, read f = .ok t → TableOk t) :
    Loads (loadDataIF read : Loader K α φ ε F) := by
  intro f dom d dm h
  unfold loadDataIF at h
  obtain ⟨t, h1, h⟩ := bind_ok h
  obtain ⟨d', h2, h⟩ := bind_ok h
  obtain ⟨hb, dm', n, _, h4, h5⟩ := loadEvent_built (hread f t h1) h2
  obtain ⟨lo, hi, st, rest, rfl, _⟩ := levels_ok_length h4
  rw [h5] at h
  simp only [] at h
  obtain ⟨d2, h6, h⟩ := bind_ok h
  simp only [pure, Except.pure, Except.ok.injEq, Prod.mk.injEq] at h
  rw [← h.1]
  exact ⟨_, _, .binarizeDefault hb h5 h6⟩

lemma Loads.score {load : Loader K α φ ε F} (h : Loads load) {f : F} {dom : List K} :
    ∀ d dm, load f dom = .ok (d, dm) → ∃ sc, d.score = some sc := by
  intro d dm e
  obtain ⟨rows, sc, hb⟩ := h _ _ _ _ e
  exact ⟨sc, hb.inv.2.1⟩

/-- The container of a fold's training events. -/
lemma filter_built {d d' : ScoreData K α φ ε} {rows : List (List α)} {sc : List K} (h : ScoreBuilt d rows sc)
    {ix : List Nat} (hix : ∀ i ∈ ix, i < rows.length)
    (hf : d.filterEvent (.index (ix.map Int.ofNat)) = .ok (some d')) :
    ScoreBuilt d' (gather rows ix) (gather sc ix) := by
  have hl := h.inv.2.2.1
  refine .filterEvent h ?_ ?_ hf
  · unfold Sel.apply; rw [positions_nat ix _ hix]
  · unfold Sel.apply; rw [hl, positions_nat ix _ hix]

/-- The event features of a fold's training events. -/
lemma filter_feature {d d' : ScoreData K α φ ε} {rows : List (List α)} {sc : List K} (h : ScoreBuilt d rows sc)
    {ix : List Nat} (hix : ∀ i ∈ ix, i < rows.length)
    (hf : d.filterEvent (.index (ix.map Int.ofNat)) = .ok (some d')) :
    d'.eventFeature = d.eventFeature.map (fun f => gather f ix) := by
  have hd := (ScoreData.filter_ok hf).1
  obtain ⟨js, h1, _, _, _, h5⟩ := EventData.filterEvent_gen _ _ rows h.inv.1.holds _ hd
  rw [positions_nat ix _ hix] at h1
  simp only [Except.ok.injEq] at h1
  subst h1
  cases hE : d.eventFeature with
  | none => rw [hE] at h5; rw [h5]; rfl
  | some g =>
    rw [hE] at h5
    obtain ⟨g', h6, h7⟩ := h5
    have hlen := h.inv.1.eventFeature_length g hE
    unfold Sel.apply at h6
    rw [hlen, positions_nat ix _ hix] at h6
    simp only [Except.ok.injEq] at h6
    rw [h7, ← h6]
    rfl

end Kam.Scripts
