/-
C113, continued: what `fit_results_` says as long as no training has started.
-/
import Verif.Fit.Start
import Verif.Rec.Props4

set_option linter.unusedSectionVars false

namespace Kam
variable {K α φ ε γ θ V : Type} [Field K] [LinearOrder K] [IsStrictOrderedRing K] [FloorRing K] [LinearOrder α]

/-- A recommender after any number of calls of `fit`, all of which raised an exception before training
started: they raise it whatever the training would do. -/
inductive Spec.Untrained (kind : Spec.Kind) (mk : Int → γ) (r₀ : Rec K α φ ε γ θ V) : Rec K α φ ε γ θ V → Prop
  | new : Untrained kind mk r₀ r₀
  | refused {r r' : Rec K α φ ε γ θ V} {env : γ} {d : ScoreData K α φ ε} {idx : Option (List Int)} {e : Exc} :
      Untrained kind mk r₀ r → (∀ L : Learner K γ θ V, fitAs kind L mk env r d idx = .error (e, r')) →
      Untrained kind mk r₀ r'

lemma untrained_keeps {kind : Spec.Kind} {mk : Int → γ} {r₀ r : Rec K α φ ε γ θ V}
    (h : Spec.Untrained kind mk r₀ r) : r.params = r₀.params ∧ r.fitResults = r₀.fitResults := by
  induction h with
  | new => exact ⟨rfl, rfl⟩
  | refused _ hf ih =>
    have h := C69_failing_fit_partial hf
    exact ⟨h.1.trans ih.1, h.2.trans ih.2⟩

/-- C113: as long as no `fit` of a matrix factorization got to its training, nothing is learned and both
losses in `fit_results_` are infinite. -/
theorem MF.C113_never_fitted {kind : Spec.Kind} {mk : Int → γ} {seed : Option Int}
    {r : Rec ℝ α φ ε γ MF.Params MF.Val}
    (h : Spec.Untrained kind mk (Rec.init seed MF.initialResults) r) :
    r.params = none ∧ r.fitResults.get? "initial_loss" = some .inf ∧
      r.fitResults.get? "final_loss" = some .inf := by
  obtain ⟨h1, h2⟩ := untrained_keeps h
  rw [h1, h2]
  exact ⟨rfl, rfl, rfl⟩

/-- C113: the same for the topic model, which also reports no iterations. -/
theorem PLSA.C113_never_fitted {kind : Spec.Kind} {mk : Int → γ} {seed : Option Int}
    {r : Rec ℝ α φ ε γ PLSA.Params PLSA.Val}
    (h : Spec.Untrained kind mk (Rec.init seed PLSA.initialResults) r) :
    r.params = none ∧ r.fitResults.get? "initial_loss" = some .inf ∧
      r.fitResults.get? "final_loss" = some .inf ∧ r.fitResults.get? "n_iterations" = some (.nat 0) := by
  obtain ⟨h1, h2⟩ := untrained_keeps h
  rw [h1, h2]
  exact ⟨rfl, rfl, rfl, rfl⟩

/-- C154: a recommender none of whose calls of `fit` got to its training predicts nothing: `predict` raises for every array, whatever the
calls of `fit` left behind. -/
theorem C154_untrained_predict {kind : Spec.Kind} {mk : Int → γ} {seed : Option Int} {res : Dict String V} {r : Rec K α φ ε γ θ V}
    (h : Spec.Untrained kind mk (Rec.init seed res) r) (L : Learner K γ θ V) (eev : ArrN α) :
    ∃ e, Rec.predict L r eev = .error e := by
  have hp : r.params = none := (untrained_keeps h).1
  unfold Rec.predict
  cases Rec.checkArray eev with
  | error e => exact ⟨e, rfl⟩
  | ok a =>
    simp only [bind, Except.bind]
    cases r.eventIndex with
    | none => exact ⟨_, rfl⟩
    | some ix =>
      simp only
      generalize a.rows.mapM (fun row => npTake row ix) = x
      cases x with
      | error e => exact ⟨e, rfl⟩
      | ok rows =>
        simp only
        generalize r.info.toIidEvent (.mat ⟨ix.length, rows⟩) .none = y
        cases y with
        | error e => exact ⟨e, rfl⟩
        | ok b =>
          simp only [hp]
          cases b <;> exact ⟨_, rfl⟩

/-- C154: once a call of `fit` has succeeded, the recommender keeps learned parameters, whatever later calls of `fit` do, even if
they raise an exception before their training. -/
theorem C154_trained_stays {kind : Spec.Kind} {mk : Int → γ} {L : Learner K γ θ V} {env : γ} {r₀ r₁ r : Rec K α φ ε γ θ V}
    {d : ScoreData K α φ ε} {idx : Option (List Int)} (hfit : Spec.fitAs kind L mk env r₀ d idx = .ok r₁)
    (h : Spec.Untrained kind mk r₁ r) : ∃ p, r₁.params = some p ∧ r.params = some p ∧ r.fitResults = r₁.fitResults := by
  obtain ⟨h1, h2⟩ := untrained_keeps h
  have : ∃ p, r₁.params = some p := by
    have hfin : ∀ r' : Rec K α φ ε γ θ V, Rec.finish L r' = .ok r₁ → ∃ p, r₁.params = some p := by
      intro r' hf
      unfold Rec.finish at hf
      split at hf
      · cases hf
      · cases hf
        exact ⟨_, rfl⟩
    cases kind with
    | predictor =>
      have hfit : Rec.fitPredictor L mk env r₀ d idx = .ok r₁ := hfit
      unfold Rec.fitPredictor at hfit
      split at hfit
      · cases hfit
      · exact hfin _ hfit
    | explicit =>
      have hfit : Rec.fitExplicit L mk env r₀ d idx = .ok r₁ := hfit
      unfold Rec.fitExplicit at hfit
      split at hfit
      · cases hfit
      · exact hfin _ hfit
    | implicit =>
      have hfit : Rec.fitImplicit L mk env r₀ d.toEventData idx = .ok r₁ := hfit
      unfold Rec.fitImplicit at hfit
      split at hfit
      · cases hfit
      · exact hfin _ hfit
  obtain ⟨p, hp⟩ := this
  exact ⟨p, hp, h1.trans hp, h2⟩

/-- A container without events is refused. -/
example : ∃ r : Rec ℝ Nat Nat Nat Unit PLSA.Params PLSA.Val, r.eventIndex = some [0, 1] ∧
    Spec.Untrained .predictor (fun _ => ()) (Rec.init (some 3) PLSA.initialResults) r :=
  ⟨_, rfl, .refused (d := ScoreData.mk { exPair with event := none } none none none) (idx := none) (env := ())
    .new (fun _ => rfl)⟩

end Kam
