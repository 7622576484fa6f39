/-
C64, C65: hold-out runs.
-/
import Verif.Scripts.Props2

set_option linter.unusedSectionVars false

namespace Kam.Scripts
open Spec

variable {K α φ ε F V T γ M : Type} [Field K] [LinearOrder K] [IsStrictOrderedRing K] [FloorRing K] [LinearOrder α]

/-- What a hold-out run does. -/
structure Held (env : Env K α ε F V T γ) (rec : Recommender K α φ ε V γ M) (load : Loader K α φ ε F) (s : Setting K F V)
    (f : F) (train test : ScoreData K α φ ε) (dom₁ dom₂ : List K) (rows : List (List α)) (sc : List K)
    (trainUsers trainItems testUsers testItems : Nat) (g g' : γ) (m : M) (res : Dict String (J V)) (esc : Pred K) : Prop where
  file : s.testFile = some f
  loadTrain : load s.trainFile s.scoreDomain = .ok (train, dom₁)
  loadTest : load f dom₁ = .ok (test, dom₂)
  built : ScoreBuilt test rows sc
  trainUsers : objectsAt train 0 = .ok trainUsers
  trainItems : objectsAt train 1 = .ok trainItems
  testUsers : objectsAt test 0 = .ok testUsers
  testItems : objectsAt test 1 = .ok testItems
  fit : rec.fit g train = .ok (m, res, g')
  predict : rec.predict m rows = .ok esc
  seed : ∀ n, s.seed = some n → env.ofSeed n = .ok g

/-- The section `prediction` of a hold-out run. -/
def holdPrediction (env : Env K α ε F V T γ) (rows : List (List α)) (sc : List K) (esc : Pred K) (ef : Option (List ε)) : Dict String (J V) :=
  [("event", encEvents env rows), ("true", encScores env sc), ("predicted", encPred env esc)] ++
    (match ef with
     | none => []
     | some fs => [("event_feature", .dict (env.names.map (fun k => (k, encFeature env k fs))))])

lemma fitWith_ok {env : Env K α ε F V T γ} {rec : Recommender K α φ ε V γ M} {seed : Option Int} {glob : γ}
    {data : ScoreData K α φ ε} {m : M} {res : Dict String (J V)} {g2 : γ}
    (h : fitWith env rec seed glob data = .ok (m, res, g2)) :
    ∃ g g', rec.fit g data = .ok (m, res, g') ∧ ∀ n, seed = some n → env.ofSeed n = .ok g := by
  unfold fitWith at h
  cases seed with
  | none => exact ⟨glob, g2, h, by simp⟩
  | some n =>
    simp only [] at h
    obtain ⟨g, h1, h⟩ := bind_ok h
    obtain ⟨⟨m1, r1, g1⟩, h2, h⟩ := bind_ok h
    simp only [pure, Except.pure, Except.ok.injEq, Prod.mk.injEq] at h
    refine ⟨g, g1, ?_, ?_⟩
    · rw [h2, h.1, h.2.1]
    · intro k hk
      cases hk
      exact h1

/-- A hold-out run: the clock is read at the start and the end of training and of test. -/
lemma doTask_holdout {env : Env K α ε F V T γ} {clock : Nat → T} {rec : Recommender K α φ ε V γ M}
    {load : Loader K α φ ε F} {s : Setting K F V} {target : Option Int} {j : J V} (hload : Loads load) (hcv : s.cv = false)
    (h : doTask env clock rec load s target = .ok j) :
    ∃ f train test dom₁ dom₂ rows sc tu ti su si g g' m res esc,
      Held env rec load s f train test dom₁ dom₂ rows sc tu ti su si g g' m res esc ∧
      j = .dict [("condition", .dict ((s.condition.set "score_domain" (encScores env dom₂)).set
            "n_folds" (.leaf (env.int 1)))),
        ("environment", .dict s.environment),
        ("training", .dict [("file", .leaf (env.file (some s.trainFile))), ("n_events", .leaf (env.nat train.nEvents)),
          ("n_users", .leaf (env.nat tu)), ("n_items", .leaf (env.nat ti)),
          ("results", .dict [("0", .dict (update
            [("start_time", .leaf (env.iso (clock 0))), ("end_time", .leaf (env.iso (clock 1))),
             ("elapsed_time", .leaf (env.elapsed (clock 1) (clock 0))),
             ("elapsed_utime", .leaf (env.elapsedU (clock 1) (clock 0)))] res))])]),
        ("test", .dict [("file", .leaf (env.file (some s.trainFile))), ("n_events", .leaf (env.nat test.nEvents)),
          ("n_users", .leaf (env.nat su)), ("n_items", .leaf (env.nat si)),
          ("results", .dict [("0", .dict
            [("start_time", .leaf (env.iso (clock 2))), ("end_time", .leaf (env.iso (clock 2))),
             ("elapsed_time", .leaf (env.elapsed (clock 3) (clock 2))),
             ("elapsed_utime", .leaf (env.elapsedU (clock 3) (clock 2))),
             ("n_events", .leaf (env.nat rows.length))])])]),
        ("model", .dict s.model), ("prediction", .dict (holdPrediction env rows sc esc test.eventFeature))] := by
  unfold doTask at h
  obtain ⟨glob, h0, h⟩ := bind_ok h
  split at h
  · cases h
  · rw [hcv] at h
    simp only [Bool.false_eq_true, if_false] at h
    obtain ⟨rep, h1, h⟩ := bind_ok h
    unfold holdoutTest at h1
    obtain ⟨⟨train, dom₁⟩, a1, h1⟩ := bind_ok h1
    simp only [] at h1
    obtain ⟨⟨test, dom₂⟩, a2, h1⟩ := bind_ok h1
    simp only [] at h1
    obtain ⟨ev, a3, h1⟩ := bind_ok h1
    obtain ⟨tu, a4, h1⟩ := bind_ok h1
    obtain ⟨ti, a5, h1⟩ := bind_ok h1
    obtain ⟨su, a6, h1⟩ := bind_ok h1
    obtain ⟨si, a7, h1⟩ := bind_ok h1
    obtain ⟨⟨m, trainInfo, sys1⟩, a8, h1⟩ := bind_ok h1
    simp only [] at h1
    obtain ⟨⟨esc, testInfo, sys2⟩, a9, h1⟩ := bind_ok h1
    simp only [] at h1
    obtain ⟨ev', a10, h1⟩ := bind_ok h1
    obtain ⟨sc, a11, h1⟩ := bind_ok h1
    obtain ⟨f, hf, a2'⟩ : ∃ f, s.testFile = some f ∧ load f dom₁ = .ok (test, dom₂) := by
      cases hf : s.testFile with
      | none => rw [hf] at a2; cases a2
      | some f => rw [hf] at a2; exact ⟨f, rfl, a2⟩
    obtain ⟨rows, sc', hb⟩ := hload _ _ _ _ a2'
    have e1 := externalEvents_built hb.inv.1
    rw [e1] at a3 a10
    simp only [Except.ok.injEq] at a3 a10
    have e2 : sc' = sc := by
      rw [hb.inv.2.1] at a11
      simpa using a11
    unfold training at a8
    obtain ⟨⟨m1, res, g2⟩, b1, b2⟩ := bind_ok a8
    obtain ⟨g, g', c1, c2⟩ := fitWith_ok b1
    unfold testing at a9
    obtain ⟨esc1, d1, d2⟩ := bind_ok a9
    simp only [pure, Except.pure, Except.ok.injEq, Prod.mk.injEq] at b2 d2 h1 h
    obtain ⟨rfl, b3, b4⟩ := b2
    obtain ⟨rfl, d3, d4⟩ := d2
    subst a3 a10 e2 b3 b4 d3 h1 h
    refine ⟨f, train, test, dom₁, dom₂, rows, sc', tu, ti, su, si, g, g', m1, res, esc1,
      ⟨hf, a1, a2', hb, a4, a5, a6, a7, c1, d1, c2⟩, ?_⟩
    cases he : test.eventFeature with
    | none => simp [Report.render, Part.render, holdPrediction]
    | some fs => simp [Report.render, Part.render, holdPrediction]

/-! ### C64 -/

lemma training_end (res : Dict String (J V)) (k : String) (h : k ∉ res.keys)
    (d : Dict String (J V)) : (update d res).get? k = d.get? k := by
  have : Dict.get? res.reverse k = none := by
    by_contra hne
    obtain ⟨v, hv⟩ := Option.ne_none_iff_exists'.1 hne
    have := (Dict.mem_keys_iff _ _).2 ⟨v, hv⟩
    exact h (by simpa [Dict.keys] using this)
  rw [get?_update, this]

/-- C64, what holds: a hold-out run names the training file; it counts events, users and items of the files
that were read; the training times are those of the start and the end of the training; its predictions are
made for the events of the test file by a recommender fitted to the training file.  What fails is the name of
the test file and the time at which the test ended (`C64_refuted`). -/
theorem C64_holdout_partial {env : Env K α ε F V T γ} {clock : Nat → T} {rec : Recommender K α φ ε V γ M}
    {load : Loader K α φ ε F} {s : Setting K F V} {target : Option Int} {j : J V} (hload : Loads load) (hcv : s.cv = false)
    (h : doTask env clock rec load s target = .ok j) :
    ∃ (f : F) (train test : ScoreData K α φ ε) (dom₁ dom₂ : List K) (trows rows : List (List α)) (tsc sc : List K)
      (g g' : γ) (m : M) (res : Dict String (J V)) (esc : Pred K),
      s.testFile = some f ∧ load s.trainFile s.scoreDomain = .ok (train, dom₁) ∧ load f dom₁ = .ok (test, dom₂) ∧
      ScoreBuilt train trows tsc ∧ ScoreBuilt test rows sc ∧
      rec.fit g train = .ok (m, res, g') ∧ rec.predict m rows = .ok esc ∧
      j.path ["training", "file"] = .ok (.leaf (env.file (some s.trainFile))) ∧
      j.path ["training", "n_events"] = .ok (.leaf (env.nat trows.length)) ∧
      j.path ["test", "n_events"] = .ok (.leaf (env.nat rows.length)) ∧
      j.path ["test", "results", "0", "n_events"] = .ok (.leaf (env.nat rows.length)) ∧
      j.path ["prediction", "event"] = .ok (encEvents env rows) ∧
      j.path ["prediction", "true"] = .ok (encScores env sc) ∧
      j.path ["prediction", "predicted"] = .ok (encPred env esc) ∧
      (∀ fs, test.eventFeature = some fs → ∀ k ∈ env.names,
        j.path ["prediction", "event_feature", k] = .ok (encFeature env k fs)) ∧
      ("start_time" ∉ res.keys → j.path ["training", "results", "0", "start_time"] = .ok (.leaf (env.iso (clock 0)))) ∧
      ("end_time" ∉ res.keys → j.path ["training", "results", "0", "end_time"] = .ok (.leaf (env.iso (clock 1)))) ∧
      j.path ["test", "results", "0", "start_time"] = .ok (.leaf (env.iso (clock 2))) ∧
      j.path ["test", "results", "0", "elapsed_time"] = .ok (.leaf (env.elapsed (clock 3) (clock 2))) := by
  obtain ⟨f, train, test, dom₁, dom₂, rows, sc, tu, ti, su, si, g, g', m, res, esc, hh, rfl⟩ := doTask_holdout hload hcv h
  obtain ⟨trows, tsc, hb⟩ := hload _ _ _ _ hh.loadTrain
  have n1 : train.nEvents = trows.length := hb.inv.1.holds.nEvents
  have n2 : test.nEvents = rows.length := hh.built.inv.1.holds.nEvents
  refine ⟨f, train, test, dom₁, dom₂, trows, rows, tsc, sc, g, g', m, res, esc, hh.file, hh.loadTrain, hh.loadTest, hb,
    hh.built, hh.fit, hh.predict, ?_, ?_, ?_, ?_, ?_, ?_, ?_, ?_, ?_, ?_, ?_, ?_⟩
  · simp [J.path, J.item, Dict.getItem, Dict.get?, ok_bind]
  · simp [J.path, J.item, Dict.getItem, Dict.get?, ok_bind, n1]
  · simp [J.path, J.item, Dict.getItem, Dict.get?, ok_bind, n2]
  · simp [J.path, J.item, Dict.getItem, Dict.get?, ok_bind]
  · simp [J.path, J.item, Dict.getItem, Dict.get?, ok_bind, holdPrediction]
  · simp [J.path, J.item, Dict.getItem, Dict.get?, ok_bind, holdPrediction]
  · simp [J.path, J.item, Dict.getItem, Dict.get?, ok_bind, holdPrediction]
  · intro fs hfs k hk
    have := getItem_map_mem env.names (fun k => encFeature env k fs) k hk
    unfold Dict.getItem at this
    simp [J.path, J.item, Dict.getItem, Dict.get?, ok_bind, holdPrediction, hfs]
    exact this
  · intro hk
    simp [J.path, J.item, Dict.getItem, Dict.get?, ok_bind, training_end res _ hk]
  · intro hk
    simp [J.path, J.item, Dict.getItem, Dict.get?, ok_bind, training_end res _ hk]
  · simp [J.path, J.item, Dict.getItem, Dict.get?, ok_bind]
  · simp [J.path, J.item, Dict.getItem, Dict.get?, ok_bind]

/-- C64, what happens instead: every hold-out run records the training file as the test file, and the start
of the test as its end. -/
theorem C64_recorded {env : Env K α ε F V T γ} {clock : Nat → T} {rec : Recommender K α φ ε V γ M}
    {load : Loader K α φ ε F} {s : Setting K F V} {target : Option Int} {j : J V} (hload : Loads load) (hcv : s.cv = false)
    (h : doTask env clock rec load s target = .ok j) :
    j.path ["test", "file"] = .ok (.leaf (env.file (some s.trainFile))) ∧
    j.path ["test", "results", "0", "end_time"] = .ok (.leaf (env.iso (clock 2))) := by
  obtain ⟨f, train, test, dom₁, dom₂, rows, sc, tu, ti, su, si, g, g', m, res, esc, hh, rfl⟩ := doTask_holdout hload hcv h
  constructor <;> simp [J.path, J.item, Dict.getItem, Dict.get?, ok_bind]

/-! ### C65 -/

lemma npMin_spec {xs : List K} {m : K} (h : npMin xs = .ok m) : m ∈ xs ∧ ∀ y ∈ xs, m ≤ y := by
  have hne : xs ≠ [] := by rintro rfl; cases h
  obtain ⟨m', e, a⟩ := npMin_ok hne
  rw [e] at h
  cases h
  exact a

lemma npMax_spec {xs : List K} {m : K} (h : npMax xs = .ok m) : m ∈ xs ∧ ∀ y ∈ xs, y ≤ m := by
  have hne : xs ≠ [] := by rintro rfl; cases h
  obtain ⟨m', e, a⟩ := npMax_ok hne
  rw [e] at h
  cases h
  exact a

/-- The loader of the item-finder script. -/
lemma loadDataIF_ok {read : F → Res (Table K α ε)} (hread : ∀ f t, read f = .ok t → TableOk t) {f : F} {dom dm : List K}
    {d : ScoreData K α φ ε} (h : loadDataIF read f dom = .ok (d, dm)) :
    ∃ t lo hi st rest, read f = .ok t ∧ dm = lo :: hi :: st :: rest ∧ st ≠ 0 ∧
      ScoreBuilt d t.event.rows (t.score.map (fun x => if x ≤ (lo + hi) / 2 then 0 else 1)) ∧
      ((∃ x ∈ dom, x ≠ 0) → dm = dom) ∧
      ((∀ x ∈ dom, x = 0) → (lo ∈ t.score ∧ ∀ x ∈ t.score, lo ≤ x) ∧ (hi ∈ t.score ∧ ∀ x ∈ t.score, x ≤ hi)) := by
  unfold loadDataIF at h
  obtain ⟨t, h1, h⟩ := bind_ok h
  obtain ⟨d', h2, h⟩ := bind_ok h
  obtain ⟨hb, dm', n, h3, h4, h5⟩ := loadEvent_built (hread f t h1) h2
  obtain ⟨lo, hi, st, rest, rfl, hst⟩ := levels_ok_length h4
  rw [h5] at h
  simp only [] at h
  obtain ⟨d2, h6, h⟩ := bind_ok h
  simp only [pure, Except.pure, Except.ok.injEq, Prod.mk.injEq] at h
  obtain ⟨rfl, rfl⟩ := h
  refine ⟨t, lo, hi, st, rest, h1, rfl, hst, .binarizeDefault hb h5 h6, ?_, ?_⟩
  · rintro ⟨x, hx, hx0⟩
    rw [if_neg] at h3
    · unfold ScoreData.resolveDomain at h3
      simpa using h3.symm
    · intro hall
      rw [List.all_eq_true] at hall
      exact hx0 (by simpa using hall x hx)
  · intro hz
    rw [if_pos (by rw [List.all_eq_true]; intro x hx; simpa using hz x hx)] at h3
    unfold ScoreData.resolveDomain at h3
    simp only [] at h3
    obtain ⟨a, e1, h3⟩ := bind_ok h3
    obtain ⟨b, e2, h3⟩ := bind_ok h3
    obtain ⟨c, e3, h3⟩ := bind_ok h3
    simp only [pure, Except.pure, Except.ok.injEq, List.cons.injEq] at h3
    obtain ⟨rfl, rfl, _⟩ := h3
    exact ⟨npMin_spec e1, npMax_spec e2⟩

/-- C65: in a hold-out run of the item-finder script the training and the test scores are binarized with one
threshold: the middle of the score domain given, or of the range of the training scores if none is given. -/
theorem C65_one_threshold {env : Env K α ε F V T γ} {clock : Nat → T} {rec : Recommender K α φ ε V γ M}
    {read : F → Res (Table K α ε)} (hread : ∀ f t, read f = .ok t → TableOk t)
    {s : Setting K F V} {target : Option Int} {j : J V} (hcv : s.cv = false)
    (h : doTask env clock rec (loadDataIF read) s target = .ok j) :
    ∃ (f : F) (t₁ t₂ : Table K α ε) (lo hi : K) (train : ScoreData K α φ ε) (g g' : γ) (m : M) (res : Dict String (J V)) (esc : Pred K),
      s.testFile = some f ∧ read s.trainFile = .ok t₁ ∧ read f = .ok t₂ ∧
      ((∀ x ∈ s.scoreDomain, x = 0) ∧ (lo ∈ t₁.score ∧ ∀ x ∈ t₁.score, lo ≤ x) ∧ (hi ∈ t₁.score ∧ ∀ x ∈ t₁.score, x ≤ hi) ∨
        (∃ x ∈ s.scoreDomain, x ≠ 0) ∧ ∃ rest, s.scoreDomain = lo :: hi :: rest) ∧
      ScoreBuilt train t₁.event.rows (t₁.score.map (fun x => if x ≤ (lo + hi) / 2 then 0 else 1)) ∧
      rec.fit g train = .ok (m, res, g') ∧ rec.predict m t₂.event.rows = .ok esc ∧
      j.path ["prediction", "event"] = .ok (encEvents env t₂.event.rows) ∧
      j.path ["prediction", "true"] =
        .ok (encScores env (t₂.score.map (fun x => if x ≤ (lo + hi) / 2 then 0 else 1))) := by
  obtain ⟨f, train, test, dom₁, dom₂, rows, sc, tu, ti, su, si, g, g', m, res, esc, hh, rfl⟩ :=
    doTask_holdout (loadDataIF_loads hread) hcv h
  obtain ⟨t₁, lo, hi, st, rest, a1, rfl, a3, a4, a5, a6⟩ := loadDataIF_ok hread hh.loadTrain
  obtain ⟨t₂, lo', hi', st', rest', b1, rfl, b3, b4, b5, _⟩ := loadDataIF_ok hread hh.loadTest
  have hd := b5 ⟨st, by simp, a3⟩
  simp only [List.cons.injEq] at hd
  obtain ⟨rfl, rfl, rfl, rfl⟩ := hd
  have hrows : rows = t₂.event.rows := by
    have e1 := externalEvents_built hh.built.inv.1
    rw [externalEvents_built b4.inv.1] at e1
    simpa using e1.symm
  have hsc : sc = t₂.score.map (fun x => if x ≤ (lo' + hi') / 2 then 0 else 1) := by
    have e1 := hh.built.inv.2.1
    rw [b4.inv.2.1] at e1
    simpa using e1.symm
  subst hrows hsc
  refine ⟨f, t₁, t₂, lo', hi', train, g, g', m, res, esc, hh.file, a1, b1, ?_, a4, hh.fit, hh.predict, ?_, ?_⟩
  · by_cases hz : ∀ x ∈ s.scoreDomain, x = 0
    · exact Or.inl ⟨hz, a6 hz⟩
    · push Not at hz
      exact Or.inr ⟨hz, st' :: rest', (a5 hz).symm⟩
  · simp [J.path, J.item, Dict.getItem, Dict.get?, ok_bind, holdPrediction]
  · simp [J.path, J.item, Dict.getItem, Dict.get?, ok_bind, holdPrediction]

end Kam.Scripts
