/-
C145: changing the unit of scores.  All scores and the declared score domain are mapped by `x ↦ p * x + q`.
-/
import Verif.Score.Props
import Verif.Relabel.Data

set_option linter.unusedSectionVars false

namespace Kam

namespace Spec
variable {K : Type} [Field K]

/-- A score in the new unit. -/
def rescale (p q x : K) : K := p * x + q

/-- A score domain in the new unit: the ends are scores, the stride is a difference of scores. -/
def rescaleDomain (p q : K) : List K → List K
  | lo :: hi :: st :: rest => rescale p q lo :: rescale p q hi :: (p * st) :: rest
  | l => l.map (rescale p q)

end Spec

namespace Rescale
open Spec
variable {K : Type} [Field K] [LinearOrder K] [IsStrictOrderedRing K] [FloorRing K]
variable {α φ ε : Type} [LinearOrder α]

/-- A container with scores in the new unit. -/
def scoreData (p q : K) (d : ScoreData K α φ ε) : ScoreData K α φ ε :=
  { d with
    score := d.score.map (List.map (rescale p q))
    scoreDomain := d.scoreDomain.map (rescaleDomain p q) }

variable {p : K} (hp : 0 < p) (q : K)
include hp

theorem rescale_le (x y : K) : rescale p q x ≤ rescale p q y ↔ x ≤ y := by
  unfold rescale
  constructor
  · intro h; nlinarith [hp, h]
  · intro h; nlinarith [hp, h]

theorem rescale_lt (x y : K) : rescale p q x < rescale p q y ↔ x < y := by
  rw [← not_le, ← not_le, rescale_le hp]

theorem rescale_inj {x y : K} : rescale p q x = rescale p q y ↔ x = y := by
  rw [le_antisymm_iff, le_antisymm_iff, rescale_le hp, rescale_le hp]

theorem rescale_mono : StrictMono (rescale p q) := fun x y h => (rescale_lt hp q x y).2 h

theorem npMin_map (xs : List K) : npMin (xs.map (rescale p q)) = (npMin xs).map (rescale p q) := by
  cases xs with
  | nil => rfl
  | cons x xs =>
    simp only [npMin, List.map_cons, Except.map]
    congr 1
    induction xs generalizing x with
    | nil => rfl
    | cons y ys ih =>
      rw [List.map_cons, List.foldl_cons, List.foldl_cons, ← (rescale_mono hp q).monotone.map_min]
      exact ih _

theorem npMax_map (xs : List K) : npMax (xs.map (rescale p q)) = (npMax xs).map (rescale p q) := by
  cases xs with
  | nil => rfl
  | cons x xs =>
    simp only [npMax, List.map_cons, Except.map]
    congr 1
    induction xs generalizing x with
    | nil => rfl
    | cons y ys ih =>
      rw [List.map_cons, List.foldl_cons, List.foldl_cons, ← (rescale_mono hp q).monotone.map_max]
      exact ih _

theorem npDiff_map (xs : List K) : npDiff (xs.map (rescale p q)) = (npDiff xs).map (rescale p 0) := by
  induction xs with
  | nil => rfl
  | cons x xs ih =>
    cases xs with
    | nil => rfl
    | cons y ys =>
      simp only [List.map_cons, npDiff] at ih ⊢
      rw [ih]
      congr 1
      unfold rescale; ring

theorem resolveDomain_map (xs : List K) (dom : Option (List K)) :
    ScoreData.resolveDomain (xs.map (rescale p q)) (dom.map (rescaleDomain p q)) =
      (ScoreData.resolveDomain xs dom).map (rescaleDomain p q) := by
  cases dom with
  | some d => rfl
  | none =>
    simp only [ScoreData.resolveDomain, Option.map_none]
    rw [npMin_map hp, npMax_map hp, Relabel.npUnique_strictMono (rescale_mono hp q), npDiff_map hp, npMin_map hp]
    cases npMin xs with
    | error e => rfl
    | ok lo =>
      cases npMax xs with
      | error e => rfl
      | ok hi =>
        cases npMin (npDiff (npUnique xs)) with
        | error e => rfl
        | ok st =>
          simp only [bind, Except.bind, Except.map, pure, Except.pure, rescaleDomain]
          simp [rescale]

theorem levelsOfDomain_map (dom : List K) :
    ScoreData.levelsOfDomain (rescaleDomain p q dom) = ScoreData.levelsOfDomain dom := by
  match dom with
  | [] => rfl
  | [_] => rfl
  | [_, _] => rfl
  | lo :: hi :: st :: rest =>
    have h1 : rescale p q hi - rescale p q lo = p * (hi - lo) := by unfold rescale; ring
    simp only [rescaleDomain, ScoreData.levelsOfDomain, npGet_dom, bind, Except.bind, h1, mul_eq_zero, hp.ne',
      false_or, mul_div_mul_left _ _ hp.ne']

theorem npArange_map (lo hi st : K) :
    npArange (rescale p q lo) (rescale p q hi) (p * st) = (npArange lo hi st).map (List.map (rescale p q)) := by
  have h1 : rescale p q hi - rescale p q lo = p * (hi - lo) := by unfold rescale; ring
  simp only [npArange, h1, mul_eq_zero, hp.ne', false_or, mul_div_mul_left _ _ hp.ne']
  split
  · rfl
  · simp only [Except.map, List.map_map]
    congr 1
    apply List.map_congr_left
    intro i _
    simp only [Function.comp, rescale]; ring

/-- An edge of the bins in the new unit. -/
def edge (p q : K) (e : Ext K) : Ext K := WithBot.map (WithTop.map (rescale p q)) e

theorem edge_le (a b : Ext K) : edge p q a ≤ edge p q b ↔ a ≤ b := by
  unfold edge
  exact WithBot.map_le_iff _ (WithTop.map_le_iff _ (rescale_le hp q _ _))

theorem generateScoreBins_map (dom : List K) :
    generateScoreBins (rescaleDomain p q dom) = (generateScoreBins dom).map (List.map (edge p q)) := by
  match dom with
  | [] => rfl
  | [_] => rfl
  | [_, _] => rfl
  | lo :: hi :: st :: rest =>
    simp only [rescaleDomain, generateScoreBins, npGet_dom, bind, Except.bind, npArange_map hp]
    cases npArange lo hi st with
    | error e => rfl
    | ok bins =>
      simp only [Except.map, pure, Except.pure, List.map_append, List.map_map, List.map_cons, List.map_nil]
      congr 2
      congr 1
      apply List.map_congr_left
      intro b _
      simp only [Function.comp, edge, WithBot.map_coe, WithTop.map_coe]
      congr 2
      unfold rescale; ring

theorem npDigitize_map (bins : List (Ext K)) (xs : List K) :
    npDigitize (bins.map (edge p q)) (xs.map (rescale p q)) = npDigitize bins xs := by
  have hle : ∀ (b : Ext K) (x : K), edge p q b ≤ ((rescale p q x : K) : WithTop K) ↔ b ≤ ((x : WithTop K) : Ext K) :=
    fun b x => edge_le hp q b ((x : WithTop K) : Ext K)
  have hlt : ∀ (b : Ext K) (x : K), (((rescale p q x : K) : WithTop K) : Ext K) < edge p q b ↔ ((x : WithTop K) : Ext K) < b := by
    intro b x
    rw [← not_le, ← not_le, hle]
  simp only [npDigitize, List.pairwise_map, ge_iff_le, edge_le hp, List.map_map, List.countP_map, Function.comp_def, hle, hlt]

theorem npLinspace_map (lo hi : K) (n : Int) :
    npLinspace (rescale p q lo) (rescale p q hi) n = (npLinspace lo hi n).map (List.map (rescale p q)) := by
  simp only [npLinspace]
  split
  · rfl
  · simp only [Except.map, List.map_map]
    congr 1
    apply List.map_congr_left
    intro i _
    simp only [Function.comp]
    split
    · rfl
    · unfold rescale; ring

/-- C145, `set_event`: loading the events with the scores and the declared domain in the new unit gives the container in
the new unit, and the same exception with the same partial state if it fails; without a declared domain, the estimated
domain is the one in the new unit.  The number of score levels is the same. -/
theorem C145_set_event (d : ScoreData K α φ ε) (event : Arr2 α) (score : List K) (dom : Option (List K))
    (ef : Option (List ε)) :
    (scoreData p q d).setEvent event (score.map (rescale p q)) (dom.map (rescaleDomain p q)) ef =
      Relabel.mutMap (scoreData p q) (d.setEvent event score dom ef) := by
  simp only [ScoreData.setEvent]
  have h : (scoreData p q d).toEventData = d.toEventData := rfl
  rw [h]
  cases d.toEventData.setEvent event ef with
  | error e => rfl
  | ok b =>
    simp only [resolveDomain_map hp]
    cases ScoreData.resolveDomain score dom with
    | error e => rfl
    | ok dm =>
      simp only [Except.map, levelsOfDomain_map hp]
      cases ScoreData.levelsOfDomain dm with
      | error e => rfl
      | ok n => rfl

/-- C145, `get_score_levels`: the levels are the old ones in the new unit. -/
theorem C145_levels (d : ScoreData K α φ ε) :
    (scoreData p q d).getScoreLevels = d.getScoreLevels.map (List.map (rescale p q)) := by
  rcases d with ⟨b, dom, sc, n⟩
  cases dom with
  | none => rfl
  | some dom =>
    cases n with
    | none => rfl
    | some n =>
      match dom with
      | [] => rfl
      | [_] => rfl
      | [lo, hi] => exact npLinspace_map hp q lo hi n
      | lo :: hi :: st :: rest =>
        simp only [scoreData, ScoreData.getScoreLevels, Option.map_some, rescaleDomain, npGet_dom, bind, Except.bind]
        exact npLinspace_map hp q lo hi n

/-- C145, `digitize_score`: digitized scores, of the events of the container or given ones, are the same in every unit. -/
theorem C145_digitize (d : ScoreData K α φ ε) (score : Option (List K)) :
    (scoreData p q d).digitizeScore (score.map (List.map (rescale p q))) = d.digitizeScore score := by
  rcases d with ⟨b, dom, sc, n⟩
  cases dom with
  | none => rfl
  | some dom =>
    simp only [scoreData, ScoreData.digitizeScore, Option.map_some, generateScoreBins_map hp]
    cases generateScoreBins dom with
    | error e => rfl
    | ok bins =>
      simp only [Except.map, bind, Except.bind]
      cases score with
      | some xs => simp only [Option.map_some, npDigitize_map hp]
      | none =>
        cases sc with
        | none => rfl
        | some xs => simp only [Option.map_some, Option.map_none, npDigitize_map hp]

/-- C145, `binarize_score`: the result does not depend on the unit at all, if a threshold is given in the same unit or
left to the default. -/
theorem C145_binarize (d : ScoreData K α φ ε) (t : Option K) :
    (scoreData p q d).binarizeScore (t.map (rescale p q)) = d.binarizeScore t := by
  have h : ∀ (x t : K), (if rescale p q x ≤ rescale p q t then (0 : K) else 1) = if x ≤ t then 0 else 1 := by
    intro x t
    simp only [rescale_le hp]
  rcases d with ⟨b, dom, sc, n⟩
  have hmid : ∀ lo hi : K, (rescale p q hi - rescale p q lo) / 2 + rescale p q lo = rescale p q ((hi - lo) / 2 + lo) := by
    intro lo hi; unfold rescale; ring
  have hrest : ∀ t : K, ScoreData.binarizeScore (scoreData p q ⟨b, dom, sc, n⟩) (some (rescale p q t)) =
      ScoreData.binarizeScore ⟨b, dom, sc, n⟩ (some t) := by
    intro t
    cases sc with
    | none => rfl
    | some xs => simp only [ScoreData.binarizeScore, scoreData, Option.map_some, bind, Except.bind, List.map_map, Function.comp_def, h]
  cases t with
  | some t => exact hrest t
  | none =>
    cases dom with
    | none => rfl
    | some dom =>
      match dom with
      | [] => rfl
      | [_] => rfl
      | [lo, hi] => 
        have := hrest ((hi - lo) / 2 + lo)
        rw [← hmid] at this
        exact this
      | lo :: hi :: st :: rest =>
        have hnone : ∀ (sc : Option (List K)) (lo hi st : K), ScoreData.binarizeScore
            ⟨b, some (lo :: hi :: st :: rest), sc, n⟩ none =
            ScoreData.binarizeScore ⟨b, some (lo :: hi :: st :: rest), sc, n⟩ (some ((hi - lo) / 2 + lo)) := by
          intro sc lo hi st
          simp only [ScoreData.binarizeScore, npGet_dom, bind, Except.bind, pure, Except.pure]
        have := hrest ((hi - lo) / 2 + lo)
        rw [← hmid, ← hnone] at this
        rw [← this]
        exact hnone _ _ _ _

omit hp in
theorem sel_apply_map {β γ : Type} (f : β → γ) (cond : Sel) (xs : List β) :
    cond.apply (xs.map f) = (cond.apply xs).map (List.map f) := by
  simp only [Sel.apply, List.length_map]
  cases cond.positions xs.length with
  | error e => rfl
  | ok js => simp only [Except.map, gather_map]

/-- C145, `filter_event`: selecting events and changing the unit commute. -/
theorem C145_filter (d : ScoreData K α φ ε) (cond : Sel) :
    (scoreData p q d).filterEvent cond = (d.filterEvent cond).map (Option.map (scoreData p q)) := by
  rcases d with ⟨b, dom, sc, n⟩
  simp only [ScoreData.filterEvent, scoreData]
  cases b.filterEvent cond with
  | error e => rfl
  | ok o =>
    cases o with
    | none => rfl
    | some b' =>
      cases sc with
      | none => rfl
      | some xs =>
        simp only [Option.map_some, bind, Except.bind, sel_apply_map]
        cases cond.apply xs with
        | error e => rfl
        | ok ys => rfl

/-- A non-trivial case: one to five stars become percentages. -/
example : (0 : ℚ) < 25 ∧ ScoreBuilt exRegular exEvent3.rows [1, 3, 5] ∧
    (scoreData 25 (-25) exRegular).score = some [0, 50, 100] ∧
    (scoreData 25 (-25) exRegular).scoreDomain = some [0, 100, 25] := by
  refine ⟨by norm_num, exRegular_built, ?_, ?_⟩
  · simp [exRegular, scoreData, rescale]; norm_num
  · simp [exRegular, scoreData, rescaleDomain, rescale]; norm_num

end Rescale
end Kam
