/-
C107, C108: external ids matter only through their order.
-/
import Verif.Relabel.Scripts

set_option linter.unusedSectionVars false

namespace Kam.Relabel
open Scripts Exp

variable {α β φ ε F V T γ θ W : Type} [LinearOrder α] [LinearOrder β]

/-! ### C107 -/

section library
variable {K : Type} [Field K] [LinearOrder K] [IsStrictOrderedRing K] [FloorRing K]

/-- C107: a container filled with renamed ids is the container filled with the original ids, with renamed id tables:
the same internal ids, numbers of objects, events and scores, and the same exception if there is one. -/
theorem C107_set_event {f : Nat → α → β} (hf : ∀ t, StrictMono (f t)) (d : ScoreData K α φ ε) (ev : Arr2 α) (sc : List K)
    (dom : Option (List K)) (ef : Option (List ε)) :
    (scoreData f d).setEvent ⟨ev.ncols, rows f d.eventOtypes ev.rows⟩ sc dom ef =
      mutMap (scoreData f) (d.setEvent ev sc dom ef) :=
  setEvent_scoreData hf d ev sc dom ef

/-- C107: filtering. -/
theorem C107_filter_event {f : Nat → α → β} (hf : ∀ t, StrictMono (f t)) (d : ScoreData K α φ ε) (cond : Sel) :
    (scoreData f d).filterEvent cond = (d.filterEvent cond).map (Option.map (scoreData f)) :=
  filterEvent_scoreData hf d cond

/-- C107: conversion of events. -/
theorem C107_events {f : Nat → α → β} (hf : ∀ t, StrictMono (f t)) (d : EventData α φ ε) :
    (∀ x m, (data f d).toIidEvent (arr f d.eventOtypes x) m = d.toIidEvent x m) ∧
    (∀ x, (data f d).toEidEvent x = (d.toEidEvent x).map (arr f d.eventOtypes)) :=
  ⟨toIidEvent_data hf d, toEidEvent_data f d⟩

/-- C107: features of objects stay with the objects. -/
theorem C107_features {f : Nat → α → β} (hf : ∀ t, StrictMono (f t)) (d : ScoreData K α φ ε) (t : Nat) (eids : List α)
    (fe : List φ) : (scoreData f d).setFeature t (eids.map (f t)) fe = (d.setFeature t eids fe).map (scoreData f) :=
  setFeature_scoreData hf d t eids fe

/-- C107: training learns the same parameters and results, whatever the learner. -/
theorem C107_fit (f : Nat → α → β) (L : Learner K γ θ W) (mk : Int → γ) (g : γ)
    (r : Rec K α φ ε γ θ W) (d : ScoreData K α φ ε) (idx : Option (List Int)) :
    Rec.fitPredictor L mk g (recommender f r) (scoreData f d) idx = mutMap (recommender f) (Rec.fitPredictor L mk g r d idx) ∧
    Rec.fitExplicit L mk g (recommender f r) (scoreData f d) idx = mutMap (recommender f) (Rec.fitExplicit L mk g r d idx) ∧
    Rec.fitImplicit L mk g (recommender f r) (data f d.toEventData) idx =
      mutMap (recommender f) (Rec.fitImplicit L mk g r d.toEventData idx) :=
  ⟨fitPredictor_relabel f L mk g r d idx, fitExplicit_relabel f L mk g r d idx,
    fitImplicit_relabel f L mk g r d.toEventData idx⟩

/-- C107: predictions, when all columns are used in their order. -/
theorem C107_predict {f : Nat → α → β} (hf : ∀ t, StrictMono (f t)) (L : Learner K γ θ W) (r : Rec K α φ ε γ θ W)
    (n : Nat) (hr : r.eventIndex = some ((List.range n).map Int.ofNat)) (x : ArrN α) :
    Rec.predict L (recommender f r) (arr f r.info.eventOtypes x) = Rec.predict L r x :=
  predict_relabel hf L r x (fun ix h => by
    rw [hr] at h
    cases h
    exact aligned_range f _ n)

/-- C107: predictions, for every choice of columns, when all objects are renamed alike. -/
theorem C107_predict_uniform {f : α → β} (hf : StrictMono f) (L : Learner K γ θ W) (r : Rec K α φ ε γ θ W) (x : ArrN α) :
    Rec.predict L (recommender (fun _ => f) r) (arr (fun _ => f) r.info.eventOtypes x) = Rec.predict L r x :=
  predict_relabel (fun _ => hf) L r x (fun ix _ => aligned_uniform f _ ix)

/-- C107: the splits within groups. -/
theorem C107_splits {f : α → β} (hf : StrictMono f) (rng : Split.Rng γ) (n : Nat) (groups : Option (List α)) :
    (∀ (c : Split.ShuffleConfig K) s, Split.shuffleSplitWithinGroups rng c s n (groups.map (List.map f)) =
      Split.shuffleSplitWithinGroups rng c s n groups) ∧
    (∀ k sh s, Split.kfoldWithinGroups rng k sh s n (groups.map (List.map f)) = Split.kfoldWithinGroups rng k sh s n groups) :=
  ⟨fun c s => shuffleSplit_map hf rng c s n groups, fun k sh s => kfoldWithinGroups_map hf rng k sh s n groups⟩

/-- Load events, train, predict: what a user of a score predictor does. -/
def session (L : Learner K γ θ W) (mk : Int → γ) (g : γ) (fresh : Dict String W) (nOtypes : Int) (otypes : OtypesArg)
    (ev : Arr2 α) (sc : List K) (dom : Option (List K)) (x : ArrN α) :
    Res (Option θ × Dict String W × Pred K) := do
  let d : ScoreData K α Unit Unit ← ScoreData.init nOtypes otypes
  let d ← dropState (d.setEvent ev sc dom none)
  let r ← dropState (Rec.fitPredictor L mk g (Rec.init none fresh) d none)
  let p ← Rec.predict L r x
  return (r.params, r.fitResults, p)

/-- The types of the columns of a container made with `n_otypes` and `event_otypes`. -/
def typesOf (nOtypes : Int) : OtypesArg → List Nat
  | .none => List.range nOtypes.toNat
  | .arr _ entries => entries.map Int.toNat

theorem init_types {nOtypes : Int} {otypes : OtypesArg} {d : ScoreData K α φ ε} (h : ScoreData.init nOtypes otypes = .ok d) :
    d.eventOtypes = typesOf nOtypes otypes := by
  simp only [ScoreData.init, EventData.init] at h
  split at h
  · cases h
  · cases otypes with
    | none => cases h; rfl
    | arr k es =>
      simp only at h
      split at h
      · cases h
      · split at h
        · cases h
        · split at h
          · cases h
          · split at h
            · cases h
            · cases h; rfl

theorem eventFit_cols {mk : Int → γ} {g : γ} {r r' : Rec K α φ ε γ θ W} {d : EventData α φ ε}
    (h : Rec.eventFit mk g r d none = .ok r') :
    r'.info.eventOtypes = d.eventOtypes ∧ r'.eventIndex = some ((List.range d.sEvent).map Int.ofNat) := by
  simp only [Rec.eventFit, Rec.baseFit] at h
  repeat' split at h
  all_goals first | (cases h; exact ⟨rfl, rfl⟩) | cases h

theorem finish_cols {L : Learner K γ θ W} {r r' : Rec K α φ ε γ θ W} (h : Rec.finish L r = .ok r') :
    r'.info.eventOtypes = r.info.eventOtypes ∧ r'.eventIndex = r.eventIndex := by
  simp only [Rec.finish] at h
  split at h
  · cases h
  · cases h; exact ⟨rfl, rfl⟩

theorem fitPredictor_cols {L : Learner K γ θ W} {mk : Int → γ} {g : γ} {r r' : Rec K α φ ε γ θ W} {d : ScoreData K α φ ε}
    (h : Rec.fitPredictor L mk g r d none = .ok r') :
    r'.info.eventOtypes = d.eventOtypes ∧ r'.eventIndex = some ((List.range d.sEvent).map Int.ofNat) := by
  simp only [Rec.fitPredictor, Rec.predictorSuperFit] at h
  cases h1 : Rec.eventFit mk g r d.toEventData none with
  | error x => rw [h1] at h; cases h
  | ok r1 =>
    rw [h1] at h
    have h2 := finish_cols h
    have h3 := eventFit_cols h1
    exact ⟨h2.1.trans h3.1, h2.2.trans h3.2⟩

theorem fitExplicit_cols {L : Learner K γ θ W} {mk : Int → γ} {g : γ} {r r' : Rec K α φ ε γ θ W} {d : ScoreData K α φ ε}
    (h : Rec.fitExplicit L mk g r d none = .ok r') :
    r'.info.eventOtypes = d.eventOtypes ∧ r'.eventIndex = some ((List.range d.sEvent).map Int.ofNat) := by
  simp only [Rec.fitExplicit, Rec.explicitSuperFit] at h
  cases h1 : Rec.eventFit mk g r d.toEventData none with
  | error x => rw [h1] at h; cases h
  | ok r1 =>
    rw [h1] at h
    have h3 := eventFit_cols h1
    by_cases hb : acceptsBinary d = true
    · simp only [hb, if_true] at h
      have h2 := finish_cols h
      exact ⟨h2.1.trans h3.1, h2.2.trans h3.2⟩
    · simp only [hb] at h
      cases h

theorem setEvent_types {d d' : ScoreData K α φ ε} {ev : Arr2 α} {sc : List K} {dom : Option (List K)} {ef : Option (List ε)}
    (h : d.setEvent ev sc dom ef = .ok d') : d'.eventOtypes = d.eventOtypes := by
  simp only [ScoreData.setEvent] at h
  split at h
  · cases h
  · rename_i b hb
    have hc := setEvent_cols hb
    split at h
    · cases h
    · split at h
      · cases h
      · cases h; exact hc.1

/-- C107: loading events, training and predicting gives the same parameters, the same training results and the same
predictions (or the same exception) when the objects of every type are renamed in an order-preserving way. -/
theorem C107_session {f : Nat → α → β} (hf : ∀ t, StrictMono (f t)) (L : Learner K γ θ W) (mk : Int → γ) (g : γ)
    (fresh : Dict String W) (nOtypes : Int) (otypes : OtypesArg) (ev : Arr2 α) (sc : List K) (dom : Option (List K))
    (x : ArrN α) :
    session L mk g fresh nOtypes otypes ⟨ev.ncols, rows f (typesOf nOtypes otypes) ev.rows⟩ sc dom
        (arr f (typesOf nOtypes otypes) x) =
      session L mk g fresh nOtypes otypes ev sc dom x := by
  simp only [session]
  rw [init_scoreData f]
  cases h0 : (ScoreData.init nOtypes otypes : Res (ScoreData K α Unit Unit)) with
  | error e => rfl
  | ok d =>
    have ht := init_types h0
    simp only [Except.map, bind, Except.bind]
    have h1 := setEvent_scoreData hf d ev sc dom none
    rw [ht] at h1
    rw [h1]
    cases h2 : d.setEvent ev sc dom none with
    | error e => rfl
    | ok d1 =>
      have ht1 : d1.eventOtypes = typesOf nOtypes otypes := (setEvent_types h2).trans ht
      simp only [mutMap, dropState]
      have h3 := fitPredictor_relabel f L mk g (Rec.init none fresh) d1 none
      have h4 : recommender f (Rec.init none fresh : Rec K α Unit Unit γ θ W) = Rec.init none fresh := rfl
      rw [h4] at h3
      rw [h3]
      cases h5 : Rec.fitPredictor L mk g (Rec.init none fresh) d1 none with
      | error e => rfl
      | ok r =>
        have hc := fitPredictor_cols h5
        simp only [mutMap]
        have h6 := C107_predict hf L r _ hc.2 x
        rw [hc.1, ht1] at h6
        rw [h6]
        cases Rec.predict L r x <;> rfl

end library

/-- The events of the examples: two users and two items. -/
def exEvents : Arr2 Int := ⟨2, [[7, 20], [3, 20], [7, 10]]⟩

/-- A renaming of users and items. -/
def exRename : Nat → Int → Int := fun t x => (t + 1) * x + 100

theorem exRename_strictMono (t : Nat) : StrictMono (exRename t) := by
  intro x y h
  have h1 : (0 : Int) < (t + 1 : Int) := by omega
  have h2 := mul_lt_mul_of_pos_left h h1
  simp only [exRename]
  omega

/-- A learner that remembers how many users there are and predicts internal ids. -/
def exLearner : Learner ℚ Unit Nat Nat where
  train := fun v => .ok (v.nObjects.headD 0, [("n", v.nEvents)])
  rawPredict := fun m rows => .ok (rows.map (fun r => ((r.headD 0 : Int) : ℚ) + (m : ℚ)))

/-- The hypotheses of C107 are met, by a renaming that treats users and items differently, and the session succeeds. -/
example :
    (session exLearner (fun _ => ()) () [] 2 .none
      ⟨exEvents.ncols, rows exRename (typesOf 2 .none) exEvents.rows⟩ [1, 2, 3] none (arr exRename (typesOf 2 .none) (.mat ⟨2, [[7, 10], [5, 20]]⟩))) =
    (session exLearner (fun _ => ()) () [] 2 .none exEvents [1, 2, 3] none (.mat ⟨2, [[7, 10], [5, 20]]⟩)) :=
  C107_session exRename_strictMono exLearner (fun _ => ()) () [] 2 .none exEvents [1, 2, 3] none (.mat ⟨2, [[7, 10], [5, 20]]⟩)

example : (session exLearner (fun _ => ()) () [] 2 .none exEvents [1, 2, 3] none (.mat ⟨2, [[7, 10], [5, 20]]⟩)).toOption.map
    (fun p => (p.1, p.2.1, match p.2.2 with | .vec xs => xs | .scalar x => [x])) = some (some 2, [("n", 3)], [3, 4]) := by
  decide +kernel

example : rows exRename (typesOf 2 .none) exEvents.rows = [[107, 140], [103, 140], [107, 120]] := by decide

/-- C107: the order cannot be dropped: exchanging the names of two users exchanges their internal ids. -/
theorem C107_order_matters :
    ∃ (f : Int → Int), Function.Injective f ∧
      (∃ d d' : ScoreData ℚ Int Unit Unit,
        loadEventWithScore ⟨exEvents, [1, 2, 3], none⟩ none = .ok d ∧
        loadEventWithScore ⟨⟨2, exEvents.rows.map (fun r => [f (r.getD 0 0), r.getD 1 0])⟩, [1, 2, 3], none⟩ none = .ok d' ∧
        d.event ≠ d'.event) := by
  refine ⟨fun x => -x, fun a b h => by simpa using h, ?_⟩
  have e1 : ((loadEventWithScore ⟨exEvents, [1, 2, 3], none⟩ none : Res (ScoreData ℚ Int Unit Unit)).map (fun d => d.event)).toOption =
      some (some [[1, 1], [0, 1], [1, 0]]) := by decide +kernel
  have e2 : ((loadEventWithScore ⟨⟨2, exEvents.rows.map (fun r => [-(r.getD 0 0), r.getD 1 0])⟩, [1, 2, 3], none⟩ none :
      Res (ScoreData ℚ Int Unit Unit)).map (fun d => d.event)).toOption = some (some [[0, 1], [1, 1], [0, 0]]) := by
    decide +kernel
  cases h1 : (loadEventWithScore ⟨exEvents, [1, 2, 3], none⟩ none : Res (ScoreData ℚ Int Unit Unit)) with
  | error e => rw [h1] at e1; cases e1
  | ok d =>
    cases h2 : (loadEventWithScore ⟨⟨2, exEvents.rows.map (fun r => [-(r.getD 0 0), r.getD 1 0])⟩, [1, 2, 3], none⟩ none :
        Res (ScoreData ℚ Int Unit Unit)) with
    | error e => rw [h2] at e2; cases e2
    | ok d' =>
      refine ⟨d, d', rfl, rfl, ?_⟩
      rw [h1] at e1
      rw [h2] at e2
      simp only [Except.map, Except.toOption, Option.some.injEq] at e1 e2
      rw [e1, e2]
      decide

/-! ### C108 -/

/-- The library for renamed ids. -/
def lib (after : γ → ScoreData ℝ β φ ε → γ) (l : Lib α φ ε V γ) : Lib β φ ε V γ where
  opt := l.opt
  normal := l.normal
  dirichlet := l.dirichlet
  after := after
  str := l.str
  leaf := l.leaf
  mf := l.mf
  plsa := l.plsa

theorem predictor_agree {f : Nat → α → β} (hf : ∀ t, StrictMono (f t)) (L : Learner ℝ γ θ W) (fresh : Dict String W)
    (enc : W → J V) (after : γ → ScoreData ℝ α φ ε → γ) (after' : γ → ScoreData ℝ β φ ε → γ)
    (h : ∀ g d, after' g (scoreData f d) = after g d) :
    Agree f (predictor L fresh enc after) (predictor L fresh enc after') (recommender f) where
  fit := by
    intro s d hd
    simp only [predictor]
    have h3 := fitPredictor_relabel f L (fun _ => s) s (Rec.init none fresh) d none
    have h4 : recommender f (Rec.init none fresh : Rec ℝ α φ ε γ θ W) = Rec.init none fresh := rfl
    rw [h4] at h3
    rw [h3]
    cases Rec.fitPredictor L (fun _ => s) s (Rec.init none fresh) d none with
    | error e => rfl
    | ok r => simp only [mutMap, h, Except.map]; rfl
  predict := by
    intro s d p evs hd hp
    simp only [predictor] at hp ⊢
    cases h5 : Rec.fitPredictor L (fun _ => s) s (Rec.init none fresh) d none with
    | error e => rw [h5] at hp; cases hp
    | ok r =>
      rw [h5] at hp
      cases hp
      have hc := fitPredictor_cols h5
      have h6 := C107_predict hf L r _ hc.2 (.mat ⟨2, evs⟩)
      rw [hc.1, hd.1] at h6
      exact h6

theorem finder_agree {f : Nat → α → β} (hf : ∀ t, StrictMono (f t)) (L : Learner ℝ γ θ W) (fresh : Dict String W)
    (enc : W → J V) (after : γ → ScoreData ℝ α φ ε → γ) (after' : γ → ScoreData ℝ β φ ε → γ)
    (h : ∀ g d, after' g (scoreData f d) = after g d) :
    Agree f (finder L fresh enc after) (finder L fresh enc after') (recommender f) where
  fit := by
    intro s d hd
    simp only [finder]
    have h3 := fitExplicit_relabel f L (fun _ => s) s (Rec.init none fresh) d none
    have h4 : recommender f (Rec.init none fresh : Rec ℝ α φ ε γ θ W) = Rec.init none fresh := rfl
    rw [h4] at h3
    rw [h3]
    cases Rec.fitExplicit L (fun _ => s) s (Rec.init none fresh) d none with
    | error e => rfl
    | ok r => simp only [mutMap, h, Except.map]; rfl
  predict := by
    intro s d p evs hd hp
    simp only [finder] at hp ⊢
    cases h5 : Rec.fitExplicit L (fun _ => s) s (Rec.init none fresh) d none with
    | error e => rw [h5] at hp; cases hp
    | ok r =>
      rw [h5] at hp
      cases hp
      have hc := fitExplicit_cols h5
      have h6 := C107_predict hf L r _ hc.2 (.mat ⟨2, evs⟩)
      rw [hc.1, hd.1] at h6
      exact h6

theorem guardK_agree {M N : Type} {f : Nat → α → β} {R : Recommender ℝ α φ ε V γ M} {R' : Recommender ℝ β φ ε V γ N} {g : M → N}
    (h : Agree f R R' g) (k : Int) : Agree f (guardK k R) (guardK k R') g := by
  by_cases hk : k < 0
  · simp only [guardK, hk, if_true]
    exact ⟨fun _ _ _ => rfl, fun _ _ _ _ _ hp => by cases hp⟩
  · simp only [guardK, hk, if_false]
    exact h

/-- C108: a run of a script on files with renamed users and items writes the same result file; only the ids themselves
are written differently, wherever an id is written.  Users and items may be renamed by different functions. -/
theorem C108_scripts {f : Nat → α → β} (hf : ∀ t, StrictMono (f t)) (id : β → V) (e : Env ℝ α ε F V T γ)
    (hid : ∀ t x, id (f t x) = e.id x) (l : Lib α φ ε V γ) (after : γ → ScoreData ℝ β φ ε → γ)
    (hafter : ∀ g d, after g (scoreData f d) = l.after g d) (clock : Nat → T) (environment : Dict String (J V))
    (read : Bool → F → Res (Table ℝ α ε)) (sc : Script) (stdin stdout : F) (args : List (Arg F)) (pos : List F) :
    Exp.main (env id e) (lib after l) clock environment (fun b => files f (read b)) sc stdin stdout args pos =
      Exp.main e l clock environment read sc stdin stdout args pos := by
  simp only [Exp.main]
  refine congrArg (fun g => Option.map g _) (funext fun o => ?_)
  simp only [Exp.task]
  refine bind_congr (fun info => bind_congr (fun seed => ?_))
  have hload : LoadAgree f (match sc with
      | .sp => loadDataSP (read info.hasTimestamp)
      | .itemFinder => loadDataIF (read info.hasTimestamp) : Loader ℝ α φ ε F)
      (match sc with
      | .sp => loadDataSP (files f (read info.hasTimestamp))
      | .itemFinder => loadDataIF (files f (read info.hasTimestamp))) := by
    cases sc with
    | sp => exact loadDataSP_relabel hf _
    | itemFinder => exact loadDataIF_relabel hf _
  cases info.cls with
  | pmf =>
    refine bind_congr (fun p => ?_)
    exact doTask_relabel hf (guardK_agree (predictor_agree hf _ _ _ _ _ hafter) _) hload id e hid _ _ _
  | logistic =>
    refine bind_congr (fun p => ?_)
    exact doTask_relabel hf (guardK_agree (finder_agree hf _ _ _ _ _ hafter) _) hload id e hid _ _ _
  | plsa =>
    refine bind_congr (fun p => ?_)
    exact doTask_relabel hf (guardK_agree (predictor_agree hf _ _ _ _ _ hafter) _) hload id e hid _ _ _

/-- C108, all objects renamed alike: the run on renamed files writes what the run on the original files writes when every
id is written with its new name. -/
theorem C108_uniform {f : α → β} (hf : StrictMono f) (id : β → V) (e : Env ℝ α ε F V T γ) (l : Lib α φ ε V γ)
    (after : γ → ScoreData ℝ β φ ε → γ) (hafter : ∀ g d, after g (scoreData (fun _ => f) d) = l.after g d) (clock : Nat → T)
    (environment : Dict String (J V)) (read : Bool → F → Res (Table ℝ α ε)) (sc : Script) (stdin stdout : F)
    (args : List (Arg F)) (pos : List F) :
    Exp.main (env id e) (lib after l) clock environment (fun b => files (fun _ => f) (read b)) sc stdin stdout args pos =
      Exp.main { e with id := fun x => id (f x) } l clock environment read sc stdin stdout args pos :=
  C108_scripts (fun _ => hf) id { e with id := fun x => id (f x) } (fun _ _ => rfl) l after hafter clock environment read sc
    stdin stdout args pos

/-- C108, users and items renamed differently: the two result files are the same once the ids in them are replaced by one
value. -/
theorem C108_blank {f : Nat → α → β} (hf : ∀ t, StrictMono (f t)) (v : V) (e : Env ℝ α ε F V T γ) (l : Lib α φ ε V γ)
    (after : γ → ScoreData ℝ β φ ε → γ) (hafter : ∀ g d, after g (scoreData f d) = l.after g d) (clock : Nat → T)
    (environment : Dict String (J V)) (read : Bool → F → Res (Table ℝ α ε)) (sc : Script) (stdin stdout : F)
    (args : List (Arg F)) (pos : List F) :
    Exp.main (env (fun _ => v) e) (lib after l) clock environment (fun b => files f (read b)) sc stdin stdout args pos =
      Exp.main { e with id := fun _ => v } l clock environment read sc stdin stdout args pos :=
  C108_scripts hf (fun _ => v) { e with id := fun _ => v } (fun _ _ => rfl) l after hafter clock environment read sc
    stdin stdout args pos

/-- The hypotheses of C108 are met: generators whose state after a fit depends on the number of users and items and of
events, as it does for numpy's generators. -/
example (h : γ → List Nat → Nat → γ) (g : γ) (d : ScoreData ℝ Int φ ε) :
    (fun g (d : ScoreData ℝ Int φ ε) => h g d.nObjects d.nEvents) g (scoreData exRename d) =
      (fun g (d : ScoreData ℝ Int φ ε) => h g d.nObjects d.nEvents) g d := rfl

end Kam.Relabel
