/-
C122 for containers with scores.
-/
import Verif.Data.Commute
import Verif.Score.Props

set_option linter.unusedSectionVars false

namespace Kam
open Spec
variable {K : Type} [Field K] [LinearOrder K] [IsStrictOrderedRing K] [FloorRing K]
variable {α φ ε : Type} [LinearOrder α]

namespace ScoreData

/-- Loading a data set with scores: the events, then any number of tables of object features. -/
def loadAll (d : ScoreData K α φ ε) (event : Arr2 α) (score : List K) (dom : Option (List K))
    (ef : Option (List ε)) (feats : List (Nat × List α × List φ)) : Res (ScoreData K α φ ε) :=
  match d.setEvent event score dom ef with
  | .error e => .error e.1
  | .ok d => feats.foldlM (fun d p => d.setFeature p.1 p.2.1 p.2.2) d

theorem foldlM_setFeature (feats : List (Nat × List α × List φ)) (d : ScoreData K α φ ε) :
    feats.foldlM (fun d p => d.setFeature p.1 p.2.1 p.2.2) d =
      (feats.foldlM (fun d p => EventData.setFeature d p.1 p.2.1 p.2.2) d.toEventData).map
        (fun b => { d with toEventData := b }) := by
  induction feats generalizing d with
  | nil => rfl
  | cons p ps ih =>
    rw [List.foldlM_cons, List.foldlM_cons]
    unfold setFeature
    cases d.toEventData.setFeature p.1 p.2.1 p.2.2 with
    | error e => rfl
    | ok b => exact ih { d with toEventData := b }

/-- C122 with scores and a declared score domain. -/
theorem C122_filter_is_part_scores {d0 d : ScoreData K α φ ε} (h0 : Reachable d0.toEventData)
    (hnone : ∀ o ∈ d0.feature, o = none) {event : Arr2 α} (hreg : event.Regular)
    {score : List K} (hsc : score.length = event.rows.length) {dm : List K}
    {ef : Option (List ε)} (hef : ∀ f, ef = some f → f.length = event.rows.length)
    {feats : List (Nat × List α × List φ)} (hlen : ∀ p ∈ feats, p.2.2.length = p.2.1.length)
    (hload : loadAll d0 event score (some dm) ef feats = .ok d) (cond : Sel) {js : List Nat}
    (hjs : cond.positions event.rows.length = .ok js) :
    ∃ d', d.filterEvent cond = .ok (some d') ∧
      loadAll d0 ⟨event.ncols, gather event.rows js⟩ (gather score js) (some dm)
        (ef.map (fun f => gather f js)) feats = .ok d' := by
  unfold loadAll at hload ⊢
  cases hs : d0.setEvent event score (some dm) ef with
  | error e => rw [hs] at hload; cases hload
  | ok d1 =>
    rw [hs] at hload
    have hload : feats.foldlM (fun d p => d.setFeature p.1 p.2.1 p.2.2) d1 = .ok d := hload
    rw [foldlM_setFeature] at hload
    unfold setEvent at hs
    cases hb : d0.toEventData.setEvent event ef with
    | error e => rw [hb] at hs; cases hs
    | ok b =>
      rw [hb] at hs
      simp only [resolveDomain] at hs
      cases hl : levelsOfDomain dm with
      | error e => rw [hl] at hs; cases hs
      | ok n =>
        rw [hl] at hs
        simp only [Except.ok.injEq] at hs
        subst hs
        simp only at hload
        cases hn : feats.foldlM (fun d p => EventData.setFeature d p.1 p.2.1 p.2.2) b with
        | error e => rw [hn] at hload; cases hload
        | ok bn =>
          rw [hn] at hload
          simp only [Except.map, Except.ok.injEq] at hload
          subst hload
          have hall : EventData.loadAll d0.toEventData event ef feats = .ok bn := by
            unfold EventData.loadAll; rw [hb]; exact hn
          obtain ⟨b', f1, f2⟩ := EventData.C122_filter_is_part h0 hnone hreg hef hlen hall cond hjs
          unfold EventData.loadAll at f2
          cases hb2 : d0.toEventData.setEvent ⟨event.ncols, gather event.rows js⟩
              (ef.map (fun f => gather f js)) with
          | error e => rw [hb2] at f2; cases f2
          | ok b2 =>
            rw [hb2] at f2
            simp only at f2
            unfold setEvent
            simp only [hb2, resolveDomain, hl]
            rw [foldlM_setFeature]
            simp only [f2]
            refine ⟨_, ?_, rfl⟩
            unfold filterEvent
            have hap : cond.apply score = .ok (gather score js) := by
              unfold Sel.apply; rw [hsc, hjs]
            simp only [f1, hap, bind, Except.bind, pure, Except.pure]

/-- Three scored events, the last two of which are selected. -/
example : ∃ (d0 d : ScoreData ℚ Nat String Nat), Reachable d0.toEventData ∧
    (∀ o ∈ d0.feature, o = none) ∧
    loadAll d0 ⟨2, [[1, 10], [2, 20], [1, 20]]⟩ [1, 5, 3] (some [1, 5, 1]) none
      [(0, [2, 1], ["b", "a"])] = .ok d ∧
    (Sel.mask [false, true, true]).positions 3 = .ok [1, 2] := by
  refine ⟨⟨⟨2, [0, 0], [none, none], [none, none], [none, none], 2, [0, 1], 0, none, none⟩,
      none, none, none⟩, _, .init (n := 2) (arg := .none) rfl, by simp, rfl, rfl⟩

end ScoreData
end Kam
