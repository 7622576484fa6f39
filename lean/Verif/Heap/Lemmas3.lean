/-
Helper lemmas for Verif/Heap, continued: `fit` on objects.
-/
import Verif.Heap.Lemmas2

set_option linter.unusedSectionVars false

namespace Kam.Heap

variable {K α φ ε γ θ V : Type} {h₀ h : Arrays K α φ ε} {o : Obj}

/-- The values of the current recommender of a state. -/
abbrev RSt.val (s : RSt K α φ ε γ θ V) : Rec K α φ ε γ θ V := s.2.val s.1

/-- `fit` keeps every array; the addresses held by the recommender exist. -/
structure FitI (h₀ : Arrays K α φ ε) (s : RSt K α φ ε γ θ V) : Prop where
  keep : KeepAll h₀ s.1
  valid : s.2.Valid s.1

/-- After a successful `fit` of the base class. -/
structure FitOk (h₀ : Arrays K α φ ε) (o : Obj) (s : RSt K α φ ε γ θ V) : Prop extends FitI h₀ s where
  nObjects : ∃ a, s.2.nObjects = some a ∧ h₀.ints.length ≤ a
  eid : s.2.eid = some o.eid
  iid : s.2.iid = some o.iid

/-- Results of `fit` correspond; after success `FitOk` holds as well. -/
def SimF (h₀ : Arrays K α φ ε) (o : Obj) :
    Mut (RSt K α φ ε γ θ V) (RSt K α φ ε γ θ V) → Mut (Rec K α φ ε γ θ V) (Rec K α φ ε γ θ V) → Prop
  | .ok s, .ok d => s.val = d ∧ FitOk h₀ o s
  | .error (e, s), .error (e', d) => e = e' ∧ s.val = d ∧ FitI h₀ s
  | _, _ => False

lemma eventFit_sim (hv : o.Valid h₀) (r : RObj γ θ V) (hr : r.Valid h₀) (mk : Int → γ) (env : γ)
    (idx : Option (List Int)) :
    SimF h₀ o (eventFit mk env (h₀, r) o idx)
      (Rec.eventFit mk env (r.val h₀) (o.val h₀).toEventData idx) := by
  unfold eventFit Rec.eventFit
  have e1 : (o.val h₀).toEventData.sEvent = o.sEvent := rfl
  have ixs : ∃ ix, (idx = none ∧ ix = (List.range o.sEvent).map Int.ofNat) ∨ idx = some ix := by
    cases idx with
    | none => exact ⟨_, .inl ⟨rfl, rfl⟩⟩
    | some ix => exact ⟨ix, .inr rfl⟩
  obtain ⟨ix, hix⟩ := ixs
  rcases hix with ⟨rfl, hix⟩ | rfl <;> rcases hsd : r.seed with _ | sd <;> simp only [e1] <;>
    (try rw [← hix])
  all_goals
    rcases he : o.event with _ | a
    · have e2 : (o.val h₀).event = none := by simp [Obj.val, he]
      simp only [e2]
      refine ⟨rfl, ?_, Keep.refl _, ?_⟩
      · simp [RSt.val, RObj.val, Rec.baseFit, hsd, Obj.val, he]
      · refine ⟨?_, ?_, ?_, ?_, ?_, hr.score, hr.scoreDomain⟩
        · rintro _ ⟨rfl⟩; exact hv.nObjects
        · rintro _ ⟨rfl⟩; exact hv.eid
        · rintro _ ⟨rfl⟩; exact hv.iid
        · intro b hb; cases hb
        · exact hv.eventFeature
    · have e2 : (o.val h₀).event = some (cell h₀.evs a) := by simp [Obj.val, he]
      simp only [e2]
      rcases (cell h₀.evs a).mapM (fun row => npTake row ix) with e | ev
      · simp only
        refine ⟨rfl, ?_, Keep.refl _, ?_⟩
        · simp [RSt.val, RObj.val, Rec.baseFit, hsd, Obj.val]
        · refine ⟨?_, ?_, ?_, ?_, ?_, hr.score, hr.scoreDomain⟩
          · rintro _ ⟨rfl⟩; exact hv.nObjects
          · rintro _ ⟨rfl⟩; exact hv.eid
          · rintro _ ⟨rfl⟩; exact hv.iid
          · rintro _ ⟨rfl⟩; exact hv.event a he
          · exact hv.eventFeature
      · simp only
        have e3 : (Rec.baseFit mk env (r.val h₀) (o.val h₀).toEventData).info.nObjects = cell h₀.ints o.nObjects := rfl
        have e4 : (o.val h₀).eventOtypes = o.eventOtypes := rfl
        simp only [e3, e4]
        rcases npTake (cell h₀.ints o.nObjects) (o.eventOtypes.map Int.ofNat) with e | ns
        · simp only
          refine ⟨rfl, ?_, (Keep.refl _).appendEvs ev, ?_⟩
          · simp [RSt.val, RObj.val, Rec.baseFit, hsd, Obj.val]
          · refine ⟨?_, ?_, ?_, ?_, ?_, hr.score, hr.scoreDomain⟩
            · rintro _ ⟨rfl⟩; exact hv.nObjects
            · rintro _ ⟨rfl⟩; exact hv.eid
            · rintro _ ⟨rfl⟩; exact hv.iid
            · rintro _ ⟨rfl⟩; simp
            · exact hv.eventFeature
        · simp only
          rcases npTake ns ix with e | ns'
          · simp only
            refine ⟨rfl, ?_, ((Keep.refl _).appendEvs ev).appendInts ns, ?_⟩
            · simp [RSt.val, RObj.val, Rec.baseFit, hsd, Obj.val]
            · refine ⟨?_, ?_, ?_, ?_, ?_, hr.score, hr.scoreDomain⟩
              · rintro _ ⟨rfl⟩; simp
              · rintro _ ⟨rfl⟩; exact hv.eid
              · rintro _ ⟨rfl⟩; exact hv.iid
              · rintro _ ⟨rfl⟩; simp
              · exact hv.eventFeature
          · simp only
            refine ⟨?_, ⟨(((Keep.refl _).appendEvs ev).appendInts ns).appendInts ns', ?_⟩, ?_, rfl, rfl⟩
            · have := cell_append_len (h₀.ints ++ [ns]) ns'
              simp only [List.length_append, List.length_cons, List.length_nil, zero_add] at this
              simp [RSt.val, RObj.val, Rec.baseFit, hsd, Obj.val]
              simpa using this
            · refine ⟨?_, ?_, ?_, ?_, ?_, hr.score, hr.scoreDomain⟩
              · rintro _ ⟨rfl⟩; simp
              · rintro _ ⟨rfl⟩; exact hv.eid
              · rintro _ ⟨rfl⟩; exact hv.iid
              · rintro _ ⟨rfl⟩; simp
              · exact hv.eventFeature
            · exact ⟨_, rfl, by simp⟩

lemma setScoreInfo_ok (hv : o.Valid h₀) {s : RSt K α φ ε γ θ V} (hs : FitOk h₀ o s) :
    (setScoreInfo s o).val = Rec.setScoreInfo s.val (o.val h₀) ∧ FitOk h₀ o (setScoreInfo s o) := by
  refine ⟨?_, ⟨hs.keep, ?_⟩, hs.nObjects, hs.eid, hs.iid⟩
  · simp only [RSt.val, setScoreInfo, RObj.val, Rec.setScoreInfo, Obj.val]
    rw [map_cell_congr hv.scoreDomain (fun a _ h => hs.keep.nums a h),
      map_cell_congr hv.score (fun a _ h => hs.keep.nums a h)]
  · exact ⟨hs.valid.nObjects, hs.valid.eid, hs.valid.iid, hs.valid.event, hs.valid.eventFeature,
      fun a e => (hv.score a e).trans_le hs.keep.ln, fun a e => (hv.scoreDomain a e).trans_le hs.keep.ln⟩

/-- A `fit` of a concrete class, on values. -/
def fitValue [Field K] [LinearOrder K] (fam : Family) (L : Learner K γ θ V) (mk : Int → γ)
    (env : γ) (r : Rec K α φ ε γ θ V) (d : ScoreData K α φ ε) (idx : Option (List Int)) :
    Mut (Rec K α φ ε γ θ V) (Rec K α φ ε γ θ V) :=
  match fam with
  | .predictor => Rec.fitPredictor L mk env r d idx
  | .explicit => Rec.fitExplicit L mk env r d idx
  | .implicit => Rec.fitImplicit L mk env r d.toEventData idx

lemma finish_sim (L : Learner K γ θ V) {s : RSt K α φ ε γ θ V} (hs : FitOk h₀ o s) :
    SimF h₀ o (finish L s) (Rec.finish L s.val) := by
  unfold finish Rec.finish
  rcases L.train (s.2.val s.1).view with e | ⟨θ, results⟩
  · exact ⟨rfl, rfl, hs.toFitI⟩
  · refine ⟨?_, ⟨hs.keep, ?_⟩, hs.nObjects, hs.eid, hs.iid⟩
    · simp [RSt.val, RObj.val, Rec.removeData, removeData]
    · refine ⟨hs.valid.nObjects, hs.valid.eid, hs.valid.iid, ?_, ?_, ?_, hs.valid.scoreDomain⟩ <;>
        · intro a h; cases h

lemma fit_sim [LinearOrder α] [Field K] [LinearOrder K] (hv : o.Valid h₀) (r : RObj γ θ V) (hr : r.Valid h₀)
    (fam : Family) (L : Learner K γ θ V) (mk : Int → γ) (env : γ) (idx : Option (List Int)) :
    SimF h₀ o (fit fam L mk env (h₀, r) o idx) (fitValue fam L mk env (r.val h₀) (o.val h₀) idx) := by
  have h1 := eventFit_sim hv r hr mk env idx
  unfold fit superFit fitValue
  cases fam
  · unfold Rec.fitPredictor Rec.predictorSuperFit
    rcases hx : eventFit mk env (h₀, r) o idx with ⟨e, s⟩ | s <;>
      rcases hy : Rec.eventFit mk env (r.val h₀) (o.val h₀).toEventData idx with ⟨e', d⟩ | d <;>
      rw [hx, hy] at h1 <;> simp only [SimF] at h1
    · exact h1
    · obtain ⟨rfl, hs⟩ := h1
      have h2 := setScoreInfo_ok hv hs
      simp only
      rw [← h2.1]
      exact finish_sim L h2.2
  · unfold Rec.fitExplicit Rec.explicitSuperFit
    rcases hx : eventFit mk env (h₀, r) o idx with ⟨e, s⟩ | s <;>
      rcases hy : Rec.eventFit mk env (r.val h₀) (o.val h₀).toEventData idx with ⟨e', d⟩ | d <;>
      rw [hx, hy] at h1 <;> simp only [SimF] at h1
    · exact h1
    · obtain ⟨rfl, hs⟩ := h1
      have h2 := setScoreInfo_ok hv hs
      simp only
      rw [hs.keep.val hv, ← h2.1]
      by_cases ha : acceptsBinary (o.val h₀) = true <;> simp only [ha, if_true, if_false, Bool.false_eq_true]
      · exact finish_sim L h2.2
      · exact ⟨rfl, rfl, hs.toFitI⟩
  · unfold Rec.fitImplicit
    rcases hx : eventFit mk env (h₀, r) o idx with ⟨e, s⟩ | s <;>
      rcases hy : Rec.eventFit mk env (r.val h₀) (o.val h₀).toEventData idx with ⟨e', d⟩ | d <;>
      rw [hx, hy] at h1 <;> simp only [SimF] at h1
    · exact h1
    · obtain ⟨rfl, hs⟩ := h1
      exact finish_sim L hs

end Kam.Heap
