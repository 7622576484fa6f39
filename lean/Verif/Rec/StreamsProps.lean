/-
C157: which random numbers a recommender uses and what it leaves to others.
-/
import Verif.Rec.Streams

set_option linter.unusedSectionVars false

namespace Kam
namespace Streams
open Spec

variable {K α φ ε γ θ V : Type} [LinearOrder α] [Field K] [LinearOrder K]

/-- The recommender that a call leaves, whether it raised or not. -/
def leaves {R : Type} : Mut R R → R
  | .error e => e.2
  | .ok r => r

lemma eventFit_seed (mk : Int → γ) (env : γ) (r : Rec K α φ ε γ θ V) (d : EventData α φ ε) (idx : Option (List Int)) :
    (leaves (Rec.eventFit mk env r d idx)).seed = r.seed := by
  unfold Rec.eventFit
  simp only
  split
  · rfl
  · split
    · rfl
    · split
      · rfl
      · split <;> rfl

lemma super_seed (kind : Kind) (mk : Int → γ) (env : γ) (r : Rec K α φ ε γ θ V) (d : ScoreData K α φ ε) (idx : Option (List Int)) :
    (leaves (superAs kind mk env r d idx)).seed = r.seed := by
  have h := eventFit_seed mk env r d.toEventData idx
  cases kind with
  | predictor =>
    unfold superAs Rec.predictorSuperFit
    simp only
    generalize Rec.eventFit mk env r d.toEventData idx = x at h
    cases x with
    | error e => exact h
    | ok r1 => exact h
  | explicit =>
    unfold superAs Rec.explicitSuperFit
    simp only
    generalize Rec.eventFit mk env r d.toEventData idx = x at h
    cases x with
    | error e => exact h
    | ok r1 =>
      simp only
      split
      · exact h
      · exact h
  | implicit => exact h

lemma fitAs_eq (kind : Kind) (L : Learner K γ θ V) (mk : Int → γ) (env : γ) (r : Rec K α φ ε γ θ V) (d : ScoreData K α φ ε)
    (idx : Option (List Int)) : fitAs kind L mk env r d idx = (superAs kind mk env r d idx).bind (Rec.finish L) := by
  cases kind with
  | predictor =>
    unfold fitAs Rec.fitPredictor superAs
    simp only
    cases Rec.predictorSuperFit mk env r d idx <;> rfl
  | explicit =>
    unfold fitAs Rec.fitExplicit superAs
    simp only
    cases Rec.explicitSuperFit mk env r d idx <;> rfl
  | implicit =>
    unfold fitAs Rec.fitImplicit superAs
    simp only
    cases Rec.eventFit mk env r d.toEventData idx <;> rfl

lemma finish_seed (L : Learner K γ θ V) (r : Rec K α φ ε γ θ V) : (leaves (Rec.finish L r)).seed = r.seed := by
  unfold Rec.finish
  split <;> rfl

lemma refit_seed (S : Setup K γ θ V) (i : Nat) (g : γ) (r : Rec K α φ ε γ θ V) (d : ScoreData K α φ ε) (idx : Option (List Int)) :
    (refit S i g r d idx).seed = r.seed := by
  have h : refit S i g r d idx = leaves (fitAs (S.kind i) (S.learner i) S.seeded g r d idx) := by
    unfold refit leaves
    cases fitAs (S.kind i) (S.learner i) S.seeded g r d idx <;> rfl
  rw [h, fitAs_eq]
  have h1 := super_seed (S.kind i) S.seeded g r d idx
  generalize superAs (S.kind i) S.seeded g r d idx = x at h1
  cases x with
  | error e => exact h1
  | ok r1 => exact (finish_seed _ r1).trans h1

lemma exec_seed (S : Setup K γ θ V) (ops : List (Op K α φ ε γ)) (w : World K α φ ε γ θ V) (i : Nat) :
    ((exec S w ops).recs i).seed = (w.recs i).seed := by
  induction ops generalizing w with
  | nil => rfl
  | cons op ops ih =>
    show ((exec S (step S w op) ops).recs i).seed = _
    rw [ih]
    cases op with
    | draw h f => rfl
    | fit j d idx =>
      simp only [step, Function.update_apply]
      split
      · rename_i h; subst h; exact refit_seed _ _ _ _ _ _
      · rfl

/-- With an integer seed the surroundings do not matter. -/
lemma refit_seeded (S : Setup K γ θ V) (i : Nat) (g g' : γ) {r : Rec K α φ ε γ θ V} {s : Int} (hs : r.seed = some s)
    (d : ScoreData K α φ ε) (idx : Option (List Int)) : refit S i g r d idx = refit S i g' r d idx := by
  have hb : ∀ d : EventData α φ ε, Rec.baseFit S.seeded g r d = Rec.baseFit S.seeded g' r d := by
    intro d
    unfold Rec.baseFit
    rw [hs]
  have he : ∀ d : EventData α φ ε, Rec.eventFit S.seeded g r d idx = Rec.eventFit S.seeded g' r d idx := by
    intro d
    unfold Rec.eventFit
    rw [hb]
  have hsup : superAs (S.kind i) S.seeded g r d idx = superAs (S.kind i) S.seeded g' r d idx := by
    cases S.kind i <;> simp only [superAs, Rec.predictorSuperFit, Rec.explicitSuperFit, he]
  unfold refit
  rw [fitAs_eq, fitAs_eq, hsup]

/-! ### Specification -/

/-- The operation is a call of `fit` of the recommender `i`. -/
def IsFitOf (i : Nat) : Op K α φ ε γ → Bool
  | .draw _ _ => false
  | .fit j _ _ => decide (j = i)

/-- The operation uses the generator `h`: a draw, or a call of `fit` of a recommender that has it and no integer seed. -/
def Uses (handle : Nat → Nat) (seed : Nat → Option Int) (h : Nat) : Op K α φ ε γ → Bool
  | .draw h' _ => decide (h' = h)
  | .fit i _ _ => decide (handle i = h) && (seed i).isNone

/-! ### C157 -/

/-- C157: what a recommender with an integer seed is after any program depends on the calls of its own `fit` only, not on other
recommenders, on draws, or on the states of the generators. -/
theorem C157_seeded (S : Setup K γ θ V) {i : Nat} {s : Int} (ops : List (Op K α φ ε γ)) (w w' : World K α φ ε γ θ V)
    (hs : (w.recs i).seed = some s) (hw : w'.recs i = w.recs i) :
    (exec S w ops).recs i = (exec S w' (ops.filter (IsFitOf i))).recs i := by
  induction ops generalizing w w' with
  | nil => exact hw.symm
  | cons op ops ih =>
    cases op with
    | draw h f => exact ih (step S w (.draw h f)) w' hs hw
    | fit j d idx =>
      by_cases hj : j = i
      · subst hj
        have e : ((Op.fit j d idx :: ops).filter (IsFitOf j)) = .fit j d idx :: ops.filter (IsFitOf j) := by
          rw [List.filter_cons_of_pos]; simp [IsFitOf]
        rw [e]
        refine ih (step S w (.fit j d idx)) (step S w' (.fit j d idx)) ?_ ?_
        · simp only [step, Function.update_self]
          rw [refit_seed, hs]
        · simp only [step, Function.update_self]
          rw [hw]
          exact refit_seeded S j _ _ hs d idx
      · have e : ((Op.fit j d idx :: ops).filter (IsFitOf i)) = ops.filter (IsFitOf i) := by
          rw [List.filter_cons_of_neg]; simp [IsFitOf, hj]
        rw [e]
        have hn : (step S w (.fit j d idx)).recs i = w.recs i := by
          simp only [step]
          exact Function.update_of_ne (Ne.symm hj) _ _
        exact ih (step S w (.fit j d idx)) w' (by rw [hn]; exact hs) (hw.trans hn.symm)

/-- C157: a call of `fit` of a recommender with an integer seed draws from no generator of the program. -/
theorem C157_seeded_draws_nothing (S : Setup K γ θ V) (w : World K α φ ε γ θ V) {i : Nat} {s : Int} (hs : (w.recs i).seed = some s)
    (d : ScoreData K α φ ε) (idx : Option (List Int)) : (step S w (.fit i d idx)).streams = w.streams := by
  simp only [step, hs, Option.isSome_some, if_true]

/-- C157: a call of `fit` touches at most the generator of the recommender, and none if the super class's `fit` refuses the data. -/
theorem C157_only_its_own (S : Setup K γ θ V) (w : World K α φ ε γ θ V) (i : Nat) (d : ScoreData K α φ ε) (idx : Option (List Int)) :
    (∀ h, h ≠ S.handle i → (step S w (.fit i d idx)).streams h = w.streams h) ∧
    (∀ e, superAs (S.kind i) S.seeded (w.streams (S.handle i)) (w.recs i) d idx = .error e →
      (step S w (.fit i d idx)).streams = w.streams) := by
  constructor
  · intro h hh
    simp only [step]
    split
    · rfl
    · exact Function.update_of_ne hh _ _
  · intro e he
    simp only [step, afterFit, he, Function.update_eq_self, ite_self]

/-- C157: the state of a generator after any program, and the recommenders that use it, depend only on the operations that use it. -/
theorem C157_stream (S : Setup K γ θ V) (h : Nat) (seed : Nat → Option Int) (ops : List (Op K α φ ε γ)) (w w' : World K α φ ε γ θ V)
    (hs : ∀ i, (w.recs i).seed = seed i) (hs' : ∀ i, (w'.recs i).seed = seed i) (hh : w'.streams h = w.streams h)
    (hr : ∀ i, S.handle i = h → seed i = none → w'.recs i = w.recs i) :
    (exec S w ops).streams h = (exec S w' (ops.filter (Uses S.handle seed h))).streams h ∧
    ∀ i, S.handle i = h → seed i = none →
      (exec S w ops).recs i = (exec S w' (ops.filter (Uses S.handle seed h))).recs i := by
  induction ops generalizing w w' with
  | nil => exact ⟨hh.symm, fun i h1 h2 => (hr i h1 h2).symm⟩
  | cons op ops ih =>
    have stepSeed : ∀ (w : World K α φ ε γ θ V) op i, ((step S w op).recs i).seed = (w.recs i).seed := fun w op i =>
      exec_seed S [op] w i
    by_cases hu : Uses S.handle seed h op = true
    · rw [List.filter_cons_of_pos hu]
      refine ih (step S w op) (step S w' op) (fun i => (stepSeed _ _ _).trans (hs i)) (fun i => (stepSeed _ _ _).trans (hs' i)) ?_ ?_
      · cases op with
        | draw h' f =>
          simp only [Uses, decide_eq_true_eq] at hu
          subst hu
          simp only [step, Function.update_self, hh]
        | fit i d idx =>
          simp only [Uses, Bool.and_eq_true, decide_eq_true_eq, Option.isNone_iff_eq_none] at hu
          obtain ⟨rfl, h2⟩ := hu
          simp only [step, hs, h2, Option.isSome_none, Bool.false_eq_true, if_false, Function.update_self, hh, hr i rfl h2]
      · intro i h1 h2
        cases op with
        | draw h' f => exact hr i h1 h2
        | fit j d idx =>
          simp only [Uses, Bool.and_eq_true, decide_eq_true_eq, Option.isNone_iff_eq_none] at hu
          simp only [step, Function.update_apply]
          split
          · rename_i hij
            subst hij
            rw [hu.1, hh, hr i h1 h2]
          · exact hr i h1 h2
    · rw [List.filter_cons_of_neg hu]
      refine ih (step S w op) w' (fun i => (stepSeed _ _ _).trans (hs i)) hs' ?_ ?_
      · cases op with
        | draw h' f =>
          simp only [Uses, decide_eq_true_eq] at hu
          simp only [step]
          rw [hh, Function.update_of_ne (Ne.symm hu)]
        | fit i d idx =>
          simp only [step]
          split
          · exact hh
          · rename_i hsd
            rw [hh, Function.update_of_ne]
            rintro rfl
            apply hu
            rw [hs] at hsd
            simp only [Uses, decide_true, Bool.true_and]
            cases hsi : seed i with
            | none => rfl
            | some s => rw [hsi] at hsd; exact absurd rfl hsd
      · intro i h1 h2
        cases op with
        | draw h' f => exact hr i h1 h2
        | fit j d idx =>
          simp only [step, Function.update_apply]
          split
          · rename_i hij
            subst hij
            exact absurd (by simp [Uses, h1, h2]) hu
          · exact hr i h1 h2

end Streams
end Kam
