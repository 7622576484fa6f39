/-
C69: what `predict` does after a `fit` that was refused before training started.
-/
import Verif.Rec.Layout
import Verif.Rec.Props4

set_option linter.unusedSectionVars false

namespace Kam
open Spec
variable {K α φ ε γ θ V : Type} [Field K] [LinearOrder K] [IsStrictOrderedRing K] [FloorRing K] [LinearOrder α]

/-- The two ways to fail before training: an illegal index, or scores that the explicit item finder refuses. -/
lemma refused_cases {kind : Kind} {mk : Int → γ} {env : γ} {r r' : Rec K α φ ε γ θ V} {d : ScoreData K α φ ε}
    {rows : List (List α)} (hd : d.toEventData.Holds rows) {idx : Option (List Int)} {e : Exc}
    (hfit : ∀ L : Learner K γ θ V, fitAs kind L mk env r d idx = .error (e, r')) :
    ((∃ e', columnsOf d.toEventData idx = .error e') ∧ Rec.eventFit mk env r d.toEventData idx = .error (e, r')) ∨
    ∃ js, columnsOf d.toEventData idx = .ok js ∧ kind = .explicit ∧ e = .valueError ∧
      r' = fittedInfo mk env r d.toEventData rows idx js := by
  cases hc : columnsOf d.toEventData idx with
  | error e' =>
    left
    refine ⟨⟨e', rfl⟩, ?_⟩
    obtain ⟨r2, h2⟩ := eventFit_error mk env r hd idx e' hc
    have h := hfit ⟨fun _ => .error .valueError, fun _ _ => .error .valueError⟩
    cases kind with
    | predictor =>
      simp only [fitAs, Rec.fitPredictor, Rec.predictorSuperFit, h2] at h
      rw [h2, h]
    | explicit =>
      simp only [fitAs, Rec.fitExplicit, Rec.explicitSuperFit, h2] at h
      rw [h2, h]
    | implicit =>
      simp only [fitAs, Rec.fitImplicit, h2] at h
      rw [h2, h]
  | ok js =>
    right
    have h2 := eventFit_eq mk env r hd idx js hc
    -- a training that raises `KeyError` and one that raises `TypeError` cannot both give `e`
    have hK := hfit ⟨fun _ => .error .keyError, fun _ _ => .error .keyError⟩
    have hT := hfit ⟨fun _ => .error .typeError, fun _ _ => .error .typeError⟩
    refine ⟨js, rfl, ?_⟩
    cases kind with
    | predictor =>
      simp only [fitAs, Rec.fitPredictor, Rec.predictorSuperFit, h2, Rec.finish, Except.error.injEq, Prod.mk.injEq] at hK hT
      rw [← hK.1] at hT
      cases hT.1
    | implicit =>
      simp only [fitAs, Rec.fitImplicit, h2, Rec.finish, Except.error.injEq, Prod.mk.injEq] at hK hT
      rw [← hK.1] at hT
      cases hT.1
    | explicit =>
      simp only [fitAs, Rec.fitExplicit, Rec.explicitSuperFit, h2] at hK hT
      cases ha : acceptsBinary d with
      | false =>
        simp only [ha, Bool.false_eq_true, if_false, Except.error.injEq, Prod.mk.injEq] at hK
        exact ⟨rfl, hK.1.symm, hK.2.symm⟩
      | true =>
        simp only [ha, if_true, Rec.finish, Except.error.injEq, Prod.mk.injEq] at hK hT
        rw [← hK.1] at hT
        cases hT.1

/-- C69, what happens instead: only explicit item finders refuse loaded data with a legal index, with `ValueError`,
and from then on `predict` looks the requested ids up among the refused data and scores what it finds there with the
parameters of the last successful fit.  For which layouts the lookup itself is right is the matter of C22. -/
theorem C69_exact {kind : Kind} {mk : Int → γ} {env : γ} {r r' : Rec K α φ ε γ θ V} {d : ScoreData K α φ ε}
    {rows : List (List α)} {sc : List K} (h : ScoreBuilt d rows sc) {idx : Option (List Int)} {js : List Nat}
    (hidx : columnsOf d.toEventData idx = .ok js) {e : Exc}
    (hfit : ∀ L : Learner K γ θ V, fitAs kind L mk env r d idx = .error (e, r')) {p : θ} (hp : r.params = some p)
    (L : Learner K γ θ V) :
    kind = .explicit ∧ e = .valueError ∧
    (js.length = d.sEvent → (∀ t ∈ d.eventOtypes, t < d.sEvent) →
      ∀ a : Arr2 α, a.Regular → a.ncols = d.sEvent → a.ncols ≠ 0 → a.rows ≠ [] →
        ∃ os, List.Forall₂ (Mixes d.eventOtypes rows js) a.rows os ∧
          Rec.predict L r' (.mat a) = (L.rawPredict p os).map squeeze) ∧
    ((js.length ≠ d.sEvent ∨ ∃ t ∈ d.eventOtypes, js.length ≤ t) →
      ∀ a : ArrN α, ∃ e, Rec.predict L r' a = .error e) ∧
    ((∀ (c t : Nat), d.eventOtypes[c]? = some t → d.eventOtypes[t]? = some t) → js = List.range d.sEvent →
      PredictsRight L r' p d.toEventData rows js) := by
  have hd := h.inv.1.holds
  rcases refused_cases hd hfit with ⟨⟨e', he⟩, _⟩ | ⟨js', hjs, hk, hev, rfl⟩
  · rw [hidx] at he
    cases he
  · rw [hidx] at hjs
    cases hjs
    have hf : FittedOn (fittedInfo mk env r d.toEventData rows idx js) d.toEventData rows idx js := ⟨rfl, rfl, rfl, rfl, rfl⟩
    refine ⟨hk, hev, fun hw ht => predict_mixes hd hf hidx hp hw ht, fun hb => predict_raises hd hf hidx hb, ?_⟩
    rintro hidem rfl
    exact predict_identity hd hf hidx hp hidem

/-- C69: after a `fit` refused for an illegal `event_index`, every request for events of the width of the refused data
raises, whatever was learned before. -/
theorem C69_bad_index {kind : Kind} {mk : Int → γ} {env : γ} {r r' : Rec K α φ ε γ θ V} {d : ScoreData K α φ ε}
    {rows : List (List α)} {sc : List K} (h : ScoreBuilt d rows sc) {idx : Option (List Int)} {e e' : Exc}
    (hidx : columnsOf d.toEventData idx = .error e')
    (hfit : ∀ L : Learner K γ θ V, fitAs kind L mk env r d idx = .error (e, r')) (L : Learner K γ θ V)
    (a : Arr2 α) (hreg : a.Regular) (hw : a.ncols = d.sEvent) : ∃ e, Rec.predict L r' (.mat a) = .error e := by
  have hd := h.inv.1.holds
  rcases refused_cases hd hfit with ⟨_, hev⟩ | ⟨js', hjs, _⟩
  · cases idx with
    | none => cases hidx
    | some ix =>
      have hix : r'.eventIndex = some ix := by
        unfold Rec.eventFit Rec.baseFit at hev
        simp only at hev
        repeat' split at hev
        all_goals first | (cases hev; rfl) | cases hev
      unfold Rec.predict
      cases hc : Rec.checkArray (ArrN.mat a) with
      | error e => exact ⟨e, rfl⟩
      | ok b =>
        have hb : b = a ∧ a.rows ≠ [] := by
          unfold Rec.checkArray at hc
          simp only [bind, Except.bind] at hc
          split at hc
          · cases hc
          · rename_i hne
            cases hc
            refine ⟨rfl, ?_⟩
            rintro hnil
            rw [hnil] at hne
            simp at hne
        obtain ⟨rfl, hne⟩ := hb
        simp only [hix, bind, Except.bind]
        cases hr : b.rows with
        | nil => exact absurd hr hne
        | cons row rest =>
          have : npTake row ix = .error .indexError := by
            apply npTake_positions_error _ _ e'
            rw [hreg row (by rw [hr]; simp), hw]
            exact hidx
          rw [List.mapM_cons]
          simp only [this, bind, Except.bind]
          exact ⟨_, rfl⟩
  · rw [hidx] at hjs
    cases hjs

/-- The case of `C69_refuted`: five-level data of users 0 and 1 are refused, and afterwards the ids of users 0 and 1 are
used with the old parameters. -/
example : ScoreBuilt exFive [[0, 10], [1, 10]] [3, 4] ∧ columnsOf exFive.toEventData none = .ok (List.range 2) ∧
    (∀ L, fitAs .explicit L (fun _ => ()) () exFirst exFive none = .error (.valueError, exSecond)) ∧
    exFirst.params = some () ∧
    ∀ (c t : Nat), exFive.eventOtypes[c]? = some t → exFive.eventOtypes[t]? = some t := by
  refine ⟨exFive_built, rfl, ?_, rfl, ?_⟩
  · intro L
    simp only [fitAs, Rec.fitExplicit, Rec.explicitSuperFit, exFive_rejected]
    rfl
  · intro c t ht
    match c with
    | 0 => cases ht; rfl
    | 1 => cases ht; rfl
    | c + 2 => simp [exFive] at ht; cases ht

end Kam
