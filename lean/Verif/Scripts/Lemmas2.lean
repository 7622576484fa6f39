/-
`cv_test` in closed form: the result file and what its folds were computed from.
-/
import Verif.Scripts.Merge

set_option linter.unusedSectionVars false

namespace Kam.Scripts

variable {K α φ ε F V T γ M : Type} [Field K] [LinearOrder K] [IsStrictOrderedRing K] [FloorRing K] [LinearOrder α]

/-- The entries of the result file for a fold. -/
def recOf (env : Env K α ε F V T γ) (ev : List (List α)) (sc : List K) (ef : Option (List ε)) (r : FD K V T) : Rec V where
  key := Nat.repr r.fold
  training := .dict (r.training env)
  test := .dict (r.test env ev)
  event := encEvents env (gather ev r.testI)
  trues := encScores env (gather sc r.testI)
  predicted := encPred env r.esc
  mask := encIndex env r.testI
  feature := fun k => match ef with
    | none => .list []
    | some rows => encFeature env k (gather rows r.testI)

/-- The head of the result file of a cross validation. -/
def headOf (env : Env K α ε F V T γ) (s : Setting K F V) (dom : List K) (data : ScoreData K α φ ε)
    (users items : Nat) : Head V where
  condition := (s.condition.set "score_domain" (encScores env dom)).set "n_folds" (.leaf (env.int s.nFolds))
  environment := s.environment
  trainFile := .leaf (env.file (some s.trainFile))
  trainEvents := .leaf (env.nat data.nEvents)
  trainUsers := .leaf (env.nat users)
  trainItems := .leaf (env.nat items)
  testFile := .leaf (env.file (some s.trainFile))
  testEvents := .leaf (env.nat data.nEvents)
  testUsers := .leaf (env.nat users)
  testItems := .leaf (env.nat items)
  model := s.model
  names := data.eventFeature.map (fun _ => env.names)

/-- The report of a cross validation. -/
def reportOf (s : Setting K F V) (dom : List K) (data : ScoreData K α φ ε) (users items : Nat) (acc : Acc V) :
    Report F K V where
  condition := s.condition
  scoreDomain := dom
  nFolds := s.nFolds
  environment := s.environment
  training := ⟨some s.trainFile, data.nEvents, users, items, acc.training⟩
  test := ⟨some s.trainFile, data.nEvents, users, items, acc.test⟩
  model := s.model
  prediction := [("event", .dict acc.event), ("true", .dict acc.trues), ("predicted", .dict acc.predicted),
    ("mask", .dict acc.mask)] ++ (match acc.feature with
    | none => []
    | some fs => [("event_feature", .dict (fs.map (fun p => (p.1, J.dict p.2))))])

lemma render_reportOf (env : Env K α ε F V T γ) (s : Setting K F V) (dom : List K) (data : ScoreData K α φ ε)
    (users items : Nat) (ev : List (List α)) (sc : List K) (l : List (FD K V T)) :
    (reportOf s dom data users items (accOf env ev sc data.eventFeature l)).render env =
      tree (headOf env s dom data users items) (l.map (recOf env ev sc data.eventFeature)) := by
  cases h : data.eventFeature with
  | none =>
    simp [reportOf, Report.render, Part.render, tree, headOf, accOf, perFold, recOf, predictionOf, h, Function.comp_def]
  | some rows =>
    simp [reportOf, Report.render, Part.render, tree, headOf, accOf, perFold, recOf, predictionOf, h, Function.comp_def]

/-- What `cv_test` reads before its loop. -/
structure Loaded (load : Loader K α φ ε F) (s : Setting K F V) (data : ScoreData K α φ ε) (dom : List K)
    (ev : List (List α)) (users items : Nat) (groups : List α) : Prop where
  load : load s.trainFile s.scoreDomain = .ok (data, dom)
  events : externalEvents data = .ok ev
  users : objectsAt data 0 = .ok users
  items : objectsAt data 1 = .ok items
  groups : column ev 0 = .ok groups
  init : Split.validateInit (cvConfig (K := K) s.nFolds).testSize (cvConfig (K := K) s.nFolds).trainSize = .ok ()

lemma acc_start (env : Env K α ε F V T γ) (ev : List (List α)) (sc : List K) (data : ScoreData K α φ ε) :
    (⟨[], [], [], [], [], [], match data.eventFeature with
      | none => none
      | some _ => some (env.names.map (fun k => (k, [])))⟩ : Acc V) =
    accOf env ev sc data.eventFeature ([] : List (FD K V T)) := by
  cases h : data.eventFeature <;> rfl

lemma cvTest_elim {env : Env K α ε F V T γ} {clock : Nat → T} {rec : Recommender K α φ ε V γ M}
    {load : Loader K α φ ε F} {s : Setting K F V} {target : Option Int} {sys : Sys γ} {rep : Report F K V}
    (hload : ∀ d dm, load s.trainFile s.scoreDomain = .ok (d, dm) → ∃ sc, d.score = some sc)
    (h : cvTest env clock rec load s target sys = .ok rep) :
    ∃ data dom ev sc users items groups acc, Loaded load s data dom ev users items groups ∧ data.score = some sc ∧
      cvLoop env clock rec s.seed (cvConfig s.nFolds) data ev groups target s.nFolds.toNat 0 sys
        (accOf env ev sc data.eventFeature ([] : List (FD K V T))) = .ok acc ∧
      rep = reportOf s dom data users items acc := by
  unfold cvTest at h
  obtain ⟨⟨data, dom⟩, h1, h⟩ := bind_ok h
  simp only [] at h
  obtain ⟨ev, h2, h⟩ := bind_ok h
  obtain ⟨users, h3, h⟩ := bind_ok h
  obtain ⟨items, h4, h⟩ := bind_ok h
  obtain ⟨u, h5, h⟩ := bind_ok h
  obtain ⟨groups, h6, h⟩ := bind_ok h
  obtain ⟨acc, h7, h⟩ := bind_ok h
  obtain ⟨sc, hsc⟩ := hload _ _ h1
  refine ⟨data, dom, ev, sc, users, items, groups, acc, ⟨h1, h2, h3, h4, h6, h5⟩, hsc, ?_, ?_⟩
  · rw [← acc_start]; exact h7
  · simp only [pure, Except.pure, Except.ok.injEq] at h
    exact h.symm

lemma cvTest_intro {env : Env K α ε F V T γ} {clock : Nat → T} {rec : Recommender K α φ ε V γ M}
    {load : Loader K α φ ε F} {s : Setting K F V} {target : Option Int} {sys : Sys γ}
    {data : ScoreData K α φ ε} {dom : List K} {ev : List (List α)} {sc : List K} {users items : Nat} {groups : List α}
    {acc : Acc V} (hl : Loaded load s data dom ev users items groups)
    (hc : cvLoop env clock rec s.seed (cvConfig s.nFolds) data ev groups target s.nFolds.toNat 0 sys
        (accOf env ev sc data.eventFeature ([] : List (FD K V T))) = .ok acc) :
    cvTest env clock rec load s target sys = .ok (reportOf s dom data users items acc) := by
  unfold cvTest
  simp only [hl.load, hl.events, hl.users, hl.items, hl.groups, hl.init, ok_bind]
  rw [← acc_start (T := T)] at hc
  cases he : data.eventFeature with
  | none =>
    simp only [he] at hc ⊢
    rw [hc, ok_bind]
    rfl
  | some rows =>
    simp only [he] at hc ⊢
    rw [hc, ok_bind]
    rfl

lemma Loaded.congr {load : Loader K α φ ε F} {s : Setting K F V} {data : ScoreData K α φ ε} {dom : List K}
    {ev : List (List α)} {users items : Nat} {groups : List α} (h : Loaded load s data dom ev users items groups)
    (s' : Setting K F V) (h1 : s'.trainFile = s.trainFile) (h2 : s'.scoreDomain = s.scoreDomain)
    (h3 : s'.nFolds = s.nFolds) : Loaded load s' data dom ev users items groups := by
  refine ⟨?_, h.events, h.users, h.items, h.groups, ?_⟩
  · rw [h1, h2]; exact h.load
  · rw [h3]; exact h.init

/-- A cross validation run. -/
lemma doTask_cv_elim {env : Env K α ε F V T γ} {clock : Nat → T} {rec : Recommender K α φ ε V γ M}
    {load : Loader K α φ ε F} {s : Setting K F V} {target : Option Int} {j : J V} (hcv : s.cv = true)
    (hload : ∀ d dm, load s.trainFile s.scoreDomain = .ok (d, dm) → ∃ sc, d.score = some sc)
    (h : doTask env clock rec load s target = .ok j) :
    ∃ glob data dom ev sc users items groups acc,
      (match s.seed with | some n => env.ofSeed n | none => .ok env.entropy) = .ok glob ∧
      Loaded load s data dom ev users items groups ∧ data.score = some sc ∧
      cvLoop env clock rec s.seed (cvConfig s.nFolds) data ev groups target s.nFolds.toNat 0 ⟨glob, 0⟩
        (accOf env ev sc data.eventFeature ([] : List (FD K V T))) = .ok acc ∧
      j = (reportOf s dom data users items acc).render env := by
  unfold doTask at h
  obtain ⟨glob, h0, h⟩ := bind_ok h
  split at h
  · cases h
  · simp only [] at h
    obtain ⟨rep, h1, h⟩ := bind_ok h
    obtain ⟨data, dom, ev, sc, users, items, groups, acc, a1, a2, a3, a4⟩ := cvTest_elim hload h1
    simp only [pure, Except.pure, Except.ok.injEq] at h
    exact ⟨glob, data, dom, ev, sc, users, items, groups, acc, h0, a1, a2, a3, by rw [← h, a4]⟩

/-- The result file of a cross validation, any seed. -/
lemma doTask_cv {env : Env K α ε F V T γ} {clock : Nat → T} {rec : Recommender K α φ ε V γ M}
    {load : Loader K α φ ε F} {s : Setting K F V} {target : Option Int} {j : J V} (hcv : s.cv = true)
    (hload : ∀ d dm, load s.trainFile s.scoreDomain = .ok (d, dm) → ∃ sc, d.score = some sc)
    (h : doTask env clock rec load s target = .ok j) :
    ∃ data dom ev sc users items groups, ∃ l : List (FD K V T),
      Loaded load s data dom ev users items groups ∧ data.score = some sc ∧
      j = tree (headOf env s dom data users items) (l.map (recOf env ev sc data.eventFeature)) ∧
      l.map (·.fold) = wanted target 0 s.nFolds.toNat ∧
      ∀ r ∈ l, DrawnFold env.gen (cvConfig (K := K) s.nFolds) groups r.trainI r.testI ∧ ∃ g, FoldOk rec data ev g r := by
  obtain ⟨glob, data, dom, ev, sc, users, items, groups, acc, h0, h1, h2, h3, h4⟩ := doTask_cv_elim hcv hload h
  obtain ⟨l, e1, e2, e3⟩ := cvLoop_ok h2 _ _ _ _ _ (by simp) h3
  refine ⟨data, dom, ev, sc, users, items, groups, l, h1, h2, ?_, e2, e3⟩
  rw [h4, e1, List.nil_append, render_reportOf]

/-- The times of a fold replaced. -/
def FD.at (r : FD K V T) (t₁ t₂ t₃ t₄ : T) : FD K V T := { r with t₁ := t₁, t₂ := t₂, t₃ := t₃, t₄ := t₄ }

/-- With an integer seed every single fold of a successful run can be run alone, with the same outcome up to
the times. -/
lemma doTask_single {env : Env K α ε F V T γ} {clock : Nat → T} {rec : Recommender K α φ ε V γ M}
    {load : Loader K α φ ε F} {s : Setting K F V} {n : Int} {j : J V} (hcv : s.cv = true) (hseed : s.seed = some n)
    (hload : ∀ d dm, load s.trainFile s.scoreDomain = .ok (d, dm) → ∃ sc, d.score = some sc)
    (h : doTask env clock rec load s none = .ok j) :
    ∃ (data : ScoreData K α φ ε) (dom : List K) (ev : List (List α)) (sc : List K) (users items : Nat)
      (l : List (FD K V T)),
      j = tree (headOf env s dom data users items) (l.map (recOf env ev sc data.eventFeature)) ∧
      l.map (·.fold) = List.range s.nFolds.toNat ∧
      ∀ r ∈ l, ∀ (clock' : Nat → T) (condition environment : Dict String (J V)), ∃ t₁ t₂ t₃ t₄,
        doTask env clock' rec load { s with condition := condition, environment := environment } (some (r.fold : Int)) =
          .ok (tree (headOf env { s with condition := condition, environment := environment } dom data users items)
            [recOf env ev sc data.eventFeature (r.at t₁ t₂ t₃ t₄)]) := by
  obtain ⟨glob, data, dom, ev, sc, users, items, groups, acc, h0, h1, h2, h3, h4⟩ := doTask_cv_elim hcv hload h
  rw [hseed] at h3 h0
  simp only [] at h0
  obtain ⟨masks, l, e0, e1, e2, e3⟩ := cvLoop_seeded h2 _ _ _ _ _ (by simp) h3
  rw [List.nil_append] at e1
  have hw : wanted none 0 s.nFolds.toNat = List.range s.nFolds.toNat := by
    unfold wanted
    rw [List.filter_eq_self.2 (by simp), List.range_eq_range']
  refine ⟨data, dom, ev, sc, users, items, l, ?_, by rw [e2, hw], ?_⟩
  · rw [h4, e1, render_reportOf]
  · intro r hr clock' condition environment
    obtain ⟨mask, g, a1, a2, a3, a4, a5, a6⟩ := e3 r hr
    have hlt : r.fold < s.nFolds.toNat := by
      have : r.fold ∈ l.map (·.fold) := List.mem_map.2 ⟨r, hr, rfl⟩
      rw [e2, hw] at this
      exact List.mem_range.1 this
    obtain ⟨t₁, t₂, t₃, t₄, hrun⟩ := cvLoop_single clock' h2 a5 r a6 mask a3 a4 s.nFolds.toNat 0 ⟨glob, 0⟩ masks
      ([] : List (FD K V T)) (by simp) e0 (fun _ => a1)
    refine ⟨t₁, t₂, t₃, t₄, ?_⟩
    rw [if_pos (Nat.zero_le _), List.nil_append] at hrun
    have hl' : Loaded load { s with condition := condition, environment := environment } data dom ev users items groups :=
      h1.congr _ rfl rfl rfl
    have hrun' := cvTest_intro (clock := clock') (rec := rec) (target := some (r.fold : Int)) (sys := ⟨glob, 0⟩) (sc := sc)
      (T := T) (env := env) hl' (by simp only [hseed]; exact hrun)
    unfold doTask
    simp only [hseed, h0, ok_bind, hcv, if_true]
    rw [if_neg (by simp; omega)]
    have hs : ({ s with condition := condition, environment := environment } : Setting K F V) =
      { trainFile := s.trainFile, testFile := s.testFile, scoreDomain := s.scoreDomain, nFolds := s.nFolds, cv := true, seed := some n, condition := condition, environment := environment, model := s.model } := by
      rw [← hseed, ← hcv]
    rw [hs] at hrun'
    rw [hrun', ok_bind]
    simp only [pure, Except.pure, Except.ok.injEq]
    rw [← hs, render_reportOf]
    rfl

end Kam.Scripts
