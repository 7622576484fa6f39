/-
Property theorems for the recommender base classes, continued (C26, C38, C69).
-/
import Verif.Rec.Props2

set_option linter.unusedSectionVars false

namespace Kam
open Spec
variable {K : Type} [Field K] [LinearOrder K] [IsStrictOrderedRing K] [FloorRing K]
variable {α φ ε γ θ V : Type} [LinearOrder α]

/-! ### C26 -/

/-- `q` with the attributes that `BaseEventRecommender.fit` does not assign taken from `r`. -/
def keepOld (q r : Rec K α φ ε γ θ V) : Rec K α φ ε γ θ V :=
  { q with
    info := { q.info with feature := r.info.feature }
    score := r.score, scoreDomain := r.scoreDomain, nScoreLevels := r.nScoreLevels
    params := r.params, fitResults := r.fitResults }

theorem eventFit_forget {s : Int} {mk : Int → γ} {env env' : γ} {r q : Rec K α φ ε γ θ V}
    {d : EventData α φ ε} {idx : Option (List Int)} (h1 : r.seed = some s) (h2 : q.seed = some s) :
    (∀ r1, Rec.eventFit mk env r d idx = .ok r1 →
      ∃ q1, Rec.eventFit mk env' q d idx = .ok q1 ∧ r1 = keepOld q1 r) ∧
    (∀ e r1, Rec.eventFit mk env r d idx = .error (e, r1) →
      r1.seed = r.seed ∧ r1.score = r.score ∧ r1.scoreDomain = r.scoreDomain ∧
      r1.nScoreLevels = r.nScoreLevels ∧ r1.params = r.params ∧ r1.fitResults = r.fitResults) := by
  have key : ∀ ix : List Int, ix = storedIndex d idx → ∀ x : Rec K α φ ε γ θ V, ∀ g : γ,
      Rec.eventFit mk g x d idx = Rec.eventFit mk g x d (some ix) := by
    rintro ix rfl x g
    cases idx <;> rfl
  rw [key _ rfl r env, key _ rfl q env']
  generalize storedIndex d idx = ix
  unfold Rec.eventFit Rec.baseFit
  cases hev : d.event with
  | none =>
    refine ⟨fun r1 h => (by simp only at h; cases h), fun e r1 h => ?_⟩
    simp only at h
    cases h; exact ⟨rfl, rfl, rfl, rfl, rfl, rfl⟩
  | some rows =>
    simp only
    cases hr : rows.mapM (fun row => npTake row ix) with
    | error e =>
      refine ⟨fun r1 h => (by cases h), fun e r1 h => ?_⟩
      cases h; exact ⟨rfl, rfl, rfl, rfl, rfl, rfl⟩
    | ok ev =>
      simp only
      cases hn : npTake d.nObjects (d.eventOtypes.map Int.ofNat) with
      | error e =>
        refine ⟨fun r1 h => (by cases h), fun e r1 h => ?_⟩
        cases h; exact ⟨rfl, rfl, rfl, rfl, rfl, rfl⟩
      | ok ns =>
        simp only
        cases hn2 : npTake ns ix with
        | error e =>
          refine ⟨fun r1 h => (by cases h), fun e r1 h => ?_⟩
          cases h; exact ⟨rfl, rfl, rfl, rfl, rfl, rfl⟩
        | ok ns2 =>
          refine ⟨fun r1 h => ?_, fun e r1 h => by cases h⟩
          cases h
          refine ⟨_, rfl, ?_⟩
          simp only [keepOld, h1, h2]

/-- What a recommender remembers from its constructor through all fits. -/
theorem History.inv {kind : Kind} {L : Learner K γ θ V} {mk : Int → γ} {s : Int}
    {res0 : Dict String V} {ks : List String} (hks : ∀ k ∈ res0.keys, k ∈ ks)
    (hL : ∀ v p res, L.train v = .ok (p, res) → ∀ k, k ∈ res.map (·.1) ↔ k ∈ ks)
    {r : Rec K α φ ε γ θ V} (h : History kind L mk (some s) res0 ks r) :
    r.seed = some s ∧ (∀ k ∈ r.fitResults.keys, k ∈ ks) ∧
      (kind = .implicit → r.score = none ∧ r.scoreDomain = none ∧ r.nScoreLevels = none) := by
  have hfold : ∀ (res : List (String × V)) (d : Dict String V), (∀ k ∈ d.keys, k ∈ ks) →
      (∀ k ∈ res.map (·.1), k ∈ ks) →
      ∀ k ∈ (res.foldl (fun d kv => Dict.set d kv.1 kv.2) d).keys, k ∈ ks := by
    intro res
    induction res with
    | nil => intro d hd _; exact hd
    | cons kv res ih =>
      intro d hd hr
      refine ih _ ?_ (fun k hk => hr k (List.mem_cons_of_mem _ hk))
      intro k hk
      rw [Dict.keys_set] at hk
      split at hk
      · exact hd k hk
      · rcases List.mem_append.1 hk with hk | hk
        · exact hd k hk
        · rw [List.mem_singleton.1 hk]; exact hr _ (by simp)
  induction h with
  | init => exact ⟨rfl, hks, fun _ => ⟨rfl, rfl, rfl⟩⟩
  | @fit r r' d idx env _ hf ih =>
    obtain ⟨i1, i2, i3⟩ := ih
    have hev : ∀ r1, Rec.eventFit mk env r d.toEventData idx = .ok r1 →
        r1.seed = some s ∧ r1.fitResults = r.fitResults ∧ r1.scoreDomain = r.scoreDomain ∧
        r1.nScoreLevels = r.nScoreLevels := by
      intro r1 h1
      obtain ⟨q1, hq, rfl⟩ := (eventFit_forget (env' := env) i1 i1).1 r1 h1
      rw [h1] at hq
      have : q1.seed = some s := by
        have h3 := hq
        unfold Rec.eventFit Rec.baseFit at h1
        simp only at h1
        split at h1
        · cases h1
        · split at h1
          · cases h1
          · split at h1
            · cases h1
            · split at h1
              · cases h1
              · simp only [Except.ok.injEq] at h1
                have := congrArg Rec.seed h1
                simp only [keepOld] at this
                rw [← this]; exact i1
      exact ⟨this, rfl, rfl, rfl⟩
    have hfin : ∀ r1 : Rec K α φ ε γ θ V, Rec.finish L r1 = .ok r' → r1.seed = some s →
        r1.fitResults = r.fitResults →
        r'.seed = some s ∧ (∀ k ∈ r'.fitResults.keys, k ∈ ks) ∧ r'.score = none ∧
        r'.scoreDomain = r1.scoreDomain ∧ r'.nScoreLevels = r1.nScoreLevels := by
      intro r1 h1 h2 h3
      obtain ⟨p, res, ht, rfl⟩ := finish_ok h1
      refine ⟨h2, ?_, rfl, rfl, rfl⟩
      refine hfold res r1.fitResults (by rw [h3]; exact i2) ?_
      intro k hk
      exact (hL _ _ _ ht k).1 hk
    cases kind with
    | predictor =>
      simp only [fitAs, Rec.fitPredictor, Rec.predictorSuperFit] at hf
      split at hf
      · cases hf
      · rename_i r1 hr1
        split at hr1
        · cases hr1
        · rename_i r2 hr2
          cases hr1
          obtain ⟨e1, e2, _, _⟩ := hev _ hr2
          obtain ⟨f1, f2, _⟩ := hfin _ hf e1 e2
          exact ⟨f1, f2, fun h => by cases h⟩
    | explicit =>
      simp only [fitAs, Rec.fitExplicit, Rec.explicitSuperFit] at hf
      split at hf
      · cases hf
      · rename_i r1 hr1
        split at hr1
        · cases hr1
        · rename_i r2 hr2
          split at hr1
          · cases hr1
            obtain ⟨e1, e2, _, _⟩ := hev _ hr2
            obtain ⟨f1, f2, _⟩ := hfin _ hf e1 e2
            exact ⟨f1, f2, fun h => by cases h⟩
          · cases hr1
    | implicit =>
      simp only [fitAs, Rec.fitImplicit] at hf
      split at hf
      · cases hf
      · rename_i r1 hr1
        obtain ⟨e1, e2, e3, e4⟩ := hev _ hr1
        obtain ⟨f1, f2, f3, f4, f5⟩ := hfin _ hf e1 e2
        obtain ⟨j1, j2, j3⟩ := i3 rfl
        exact ⟨f1, f2, fun _ => ⟨f3, by rw [f4, e3, j2], by rw [f5, e4, j3]⟩⟩
  | @error r r' d idx env e p fr _ hf hfr ih =>
    obtain ⟨i1, i2, i3⟩ := ih
    have hev := (eventFit_forget (mk := mk) (env := env) (env' := env) (d := d.toEventData)
      (idx := idx) i1 i1)
    have hfin : ∀ r1 : Rec K α φ ε γ θ V, Rec.finish L r1 = .error (e, r') → r' = r1 := by
      intro r1 h1
      unfold Rec.finish at h1
      split at h1
      · cases h1; rfl
      · cases h1
    have hok : ∀ r1, Rec.eventFit mk env r d.toEventData idx = .ok r1 →
        r1.seed = some s ∧ r1.fitResults = r.fitResults ∧ r1.score = r.score ∧
        r1.scoreDomain = r.scoreDomain ∧ r1.nScoreLevels = r.nScoreLevels := by
      intro r1 h1
      obtain ⟨q1, hq, hr1⟩ := hev.1 r1 h1
      have hs : r1.seed = some s := by
        unfold Rec.eventFit Rec.baseFit at h1
        simp only at h1
        split at h1
        · cases h1
        · split at h1
          · cases h1
          · split at h1
            · cases h1
            · split at h1
              · cases h1
              · cases h1; exact i1
      refine ⟨hs, ?_⟩
      rw [hr1]
      exact ⟨rfl, rfl, rfl, rfl⟩
    have main : r'.seed = some s ∧ r'.fitResults = r.fitResults ∧
        (kind = .implicit → r'.score = r.score ∧ r'.scoreDomain = r.scoreDomain ∧
          r'.nScoreLevels = r.nScoreLevels) := by
      cases kind with
      | predictor =>
        simp only [fitAs, Rec.fitPredictor, Rec.predictorSuperFit] at hf
        split at hf
        · rename_i er hr1
          split at hr1
          · rename_i er2 hr2
            cases hr1
            cases hf
            obtain ⟨e1, _, _, _, _, e2⟩ := hev.2 _ _ hr2
            exact ⟨e1.trans i1, e2, fun h => by cases h⟩
          · cases hr1
        · rename_i r1 hr1
          split at hr1
          · cases hr1
          · rename_i r2 hr2
            cases hr1
            obtain ⟨e1, e2, _, _⟩ := hok _ hr2
            have := hfin _ hf
            subst this
            exact ⟨e1, e2, fun h => by cases h⟩
      | explicit =>
        simp only [fitAs, Rec.fitExplicit, Rec.explicitSuperFit] at hf
        split at hf
        · rename_i er hr1
          split at hr1
          · rename_i er2 hr2
            cases hr1
            cases hf
            obtain ⟨e1, _, _, _, _, e2⟩ := hev.2 _ _ hr2
            exact ⟨e1.trans i1, e2, fun h => by cases h⟩
          · rename_i r2 hr2
            split at hr1
            · cases hr1
            · cases hr1
              cases hf
              obtain ⟨e1, e2, _, _⟩ := hok _ hr2
              exact ⟨e1, e2, fun h => by cases h⟩
        · rename_i r1 hr1
          split at hr1
          · cases hr1
          · rename_i r2 hr2
            split at hr1
            · cases hr1
              obtain ⟨e1, e2, _, _⟩ := hok _ hr2
              have := hfin _ hf
              subst this
              exact ⟨e1, e2, fun h => by cases h⟩
            · cases hr1
      | implicit =>
        simp only [fitAs, Rec.fitImplicit] at hf
        split at hf
        · rename_i er hr1
          cases hf
          obtain ⟨e1, e2, e3, e4, _, e5⟩ := hev.2 _ _ hr1
          exact ⟨e1.trans i1, e5, fun _ => ⟨e2, e3, e4⟩⟩
        · rename_i r1 hr1
          obtain ⟨e1, e2, e3, e4, e5⟩ := hok _ hr1
          have := hfin _ hf
          subst this
          exact ⟨e1, e2, fun _ => ⟨e3, e4, e5⟩⟩
    obtain ⟨m1, m2, m3⟩ := main
    refine ⟨m1, ?_, ?_⟩
    · intro k hk
      rcases hfr k hk with h | h
      · rw [m2] at h; exact i2 k h
      · exact h
    · intro h
      obtain ⟨j1, j2, j3⟩ := i3 h
      obtain ⟨l1, l2, l3⟩ := m3 h
      exact ⟨l1.trans j1, l2.trans j2, l3.trans j3⟩

/-- Observable outcome of a fit: learned parameters, fit results and all predictions. -/
def SameFit (L : Learner K γ θ V) (r q : Rec K α φ ε γ θ V) : Prop :=
  r.params = q.params ∧ (∀ k, r.fitResults.get? k = q.fitResults.get? k) ∧
  ∀ eev, Rec.predict L r eev = Rec.predict L q eev

theorem get?_foldl_covered (res : List (String × V)) (d1 d2 : Dict String V) (ks : List String)
    (h1 : ∀ k ∈ d1.keys, k ∈ ks) (h2 : ∀ k ∈ d2.keys, k ∈ ks)
    (hres : ∀ k, k ∈ res.map (·.1) ↔ k ∈ ks) (k : String) :
    (res.foldl (fun d kv => Dict.set d kv.1 kv.2) d1).get? k =
      (res.foldl (fun d kv => Dict.set d kv.1 kv.2) d2).get? k := by
  rw [Dict.get?_foldl_set, Dict.get?_foldl_set]
  cases hf : res.reverse.find? (fun p => p.1 = k) with
  | some p => rfl
  | none =>
    have hk : k ∉ ks := by
      rw [← hres]
      intro hk
      obtain ⟨p, hp, rfl⟩ := List.mem_map.1 hk
      have := List.find?_eq_none.1 hf p (by simpa using hp)
      simp at this
    have g : ∀ d : Dict String V, (∀ k ∈ d.keys, k ∈ ks) → d.get? k = none := by
      intro d hd
      cases hg : d.get? k with
      | none => rfl
      | some v => exact absurd (hd k ((Dict.mem_keys_iff d k).2 ⟨v, hg⟩)) hk
    simp only [g d1 h1, g d2 h2]

theorem finish_forget {L : Learner K γ θ V} {ks : List String}
    (hL : ∀ v p res, L.train v = .ok (p, res) → ∀ k, k ∈ res.map (·.1) ↔ k ∈ ks)
    {r1 q1 r' : Rec K α φ ε γ θ V} (hv : r1.view = q1.view)
    (hinfo : ∃ f, r1.info = { q1.info with feature := f }) (hix : r1.eventIndex = q1.eventIndex)
    (h1 : ∀ k ∈ r1.fitResults.keys, k ∈ ks) (h2 : ∀ k ∈ q1.fitResults.keys, k ∈ ks)
    (h : Rec.finish L r1 = .ok r') :
    ∃ q', Rec.finish L q1 = .ok q' ∧ SameFit L r' q' := by
  obtain ⟨p, res, ht, rfl⟩ := finish_ok h
  refine ⟨Rec.removeData { q1 with
      params := some p
      fitResults := res.foldl (fun d kv => d.set kv.1 kv.2) q1.fitResults },
    by unfold Rec.finish; rw [← hv, ht], rfl, ?_, ?_⟩
  · exact get?_foldl_covered res _ _ ks h1 h2 (hL _ _ _ ht)
  · intro eev
    obtain ⟨f, hf⟩ := hinfo
    unfold Rec.predict Rec.removeData
    simp only [hix, hf]
    rfl

/-- C26: with an integer seed, a successful fit after any history of fits has the same outcome as
the same fit of a fresh recommender with the same settings, if the class assigns always the same
entries of `fit_results_`, among them those set by its constructor (as the classes of the package
do, see Verif/MF and Verif/PLSA). -/
theorem C26_refit_forgets {kind : Kind} {L : Learner K γ θ V} {mk : Int → γ} {s : Int}
    {res0 : Dict String V} {ks : List String} (hks : ∀ k ∈ res0.keys, k ∈ ks)
    (hL : ∀ v p res, L.train v = .ok (p, res) → ∀ k, k ∈ res.map (·.1) ↔ k ∈ ks)
    {r : Rec K α φ ε γ θ V} (h : History kind L mk (some s) res0 ks r)
    {d : ScoreData K α φ ε} {idx : Option (List Int)} {env env' : γ} {r' : Rec K α φ ε γ θ V}
    (hfit : fitAs kind L mk env r d idx = .ok r') :
    ∃ q', fitAs kind L mk env' (Rec.init (some s) res0) d idx = .ok q' ∧ SameFit L r' q' := by
  obtain ⟨i1, i2, i3⟩ := History.inv hks hL h
  have hfor := (eventFit_forget (mk := mk) (env := env) (env' := env') (d := d.toEventData)
    (idx := idx) (q := (Rec.init (some s) res0 : Rec K α φ ε γ θ V)) i1 rfl).1
  have hq : ∀ q1, Rec.eventFit mk env' (Rec.init (some s) res0 : Rec K α φ ε γ θ V) d.toEventData idx
      = .ok q1 → q1.fitResults = res0 ∧ q1.score = none ∧ q1.scoreDomain = none ∧
        q1.nScoreLevels = none := by
    intro q1 h1
    obtain ⟨_, _, h2⟩ := (eventFit_forget (mk := mk) (env := env') (env' := env')
      (d := d.toEventData) (idx := idx)
      (r := (Rec.init (some s) res0 : Rec K α φ ε γ θ V))
      (q := (Rec.init (some s) res0 : Rec K α φ ε γ θ V)) rfl rfl).1 q1 h1
    rw [h2]
    exact ⟨rfl, rfl, rfl, rfl⟩
  cases kind with
  | predictor =>
    simp only [fitAs, Rec.fitPredictor, Rec.predictorSuperFit] at hfit ⊢
    split at hfit
    · cases hfit
    · rename_i r1 hr1
      split at hr1
      · cases hr1
      · rename_i r2 hr2
        cases hr1
        obtain ⟨q1, hq1, rfl⟩ := hfor _ hr2
        simp only [hq1]
        refine finish_forget (r1 := (keepOld q1 r).setScoreInfo d) (q1 := q1.setScoreInfo d) hL ?_
          ⟨r.info.feature, rfl⟩ rfl i2 ?_ hfit
        · rfl
        · have := (hq q1 hq1).1
          simpa only [Rec.setScoreInfo, this] using hks
  | explicit =>
    simp only [fitAs, Rec.fitExplicit, Rec.explicitSuperFit] at hfit ⊢
    split at hfit
    · cases hfit
    · rename_i r1 hr1
      split at hr1
      · cases hr1
      · rename_i r2 hr2
        split at hr1
        · rename_i hb
          cases hr1
          obtain ⟨q1, hq1, rfl⟩ := hfor _ hr2
          simp only [hq1, hb, if_true]
          refine finish_forget (r1 := (keepOld q1 r).setScoreInfo d) (q1 := q1.setScoreInfo d) hL ?_
            ⟨r.info.feature, rfl⟩ rfl i2 ?_ hfit
          · rfl
          · have := (hq q1 hq1).1
            simpa only [Rec.setScoreInfo, this] using hks
        · cases hr1
  | implicit =>
    simp only [fitAs, Rec.fitImplicit] at hfit ⊢
    split at hfit
    · cases hfit
    · rename_i r1 hr1
      obtain ⟨q1, hq1, rfl⟩ := hfor _ hr1
      simp only [hq1]
      obtain ⟨j1, j2, j3⟩ := i3 rfl
      obtain ⟨g0, g1, g2, g3⟩ := hq q1 hq1
      refine finish_forget (r1 := keepOld q1 r) (q1 := q1) hL ?_ ⟨r.info.feature, rfl⟩ rfl i2 ?_ hfit
      · simp only [Rec.view, keepOld, j1, j2, j3, g1, g2, g3]
      · rw [g0]; exact hks

example : History .implicit exLearner (fun _ => ()) (some 7) [] []
    (match Rec.fitImplicit exLearner (fun _ => ()) () (Rec.init (some 7) []) exPair none with
      | .ok r => r
      | .error e => e.2) ∧
    (∀ v p res, exLearner.train v = .ok (p, res) → ∀ k, k ∈ res.map (·.1) ↔ k ∈ ([] : List String)) :=
  ⟨.fit (d := { exPair with scoreDomain := none, score := none, nScoreLevels := none }) (idx := none)
    (env := ()) .init rfl,
   by intro v p res h; cases h; simp⟩

end Kam
