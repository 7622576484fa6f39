/-
C106: the experiment scripts on text files.
-/
import Verif.Exp.Props6
import Verif.Exp.Examples
import Verif.Convert.Props5

set_option linter.unusedSectionVars false

namespace Kam.Exp
open Scripts Spec Kam.Convert.Spec
open Kam.Convert (Str Cell FType Recs genfromtxt eventColumn numColumn columnsFrom timestamp recs)

variable {F φ V T γ : Type}

/-! ### Model -/

/-- The columns of an event file after the ids and the score (exp_recsys_sp.py:157-160, datasets/base.py:42). -/
def featureTypes (times : Bool) : Option (List FType) := if times then some timestamp else none

/-- The arrays of a text (datasets/base.py:138-144, and `x['event']` as `set_event` uses it, 147-153). -/
noncomputable def readTable (nan : ℝ) (times : Bool) (text : Str) : Res (Table ℝ Int (List (Cell ℝ))) := do
  let x ← genfromtxt nan ([.int, .int, .float] ++ (featureTypes times).getD []) text
  let event ← eventColumn 2 x
  return ⟨event, numColumn 2 x, (featureTypes times).map (fun _ => columnsFrom 3 x)⟩

/-- The arrays of a file; a file that is not there cannot be opened (`argparse.FileType`). -/
noncomputable def readText (nan : ℝ) (content : F → Option Str) (times : Bool) (f : F) : Res (Table ℝ Int (List (Cell ℝ))) :=
  match content f with
  | some text => readTable nan times text
  | none => .error .ioError

/-! ### Specification -/

/-- A text file of scored events with two ids each, with or without times. -/
def EventFile (times : Bool) (text : Str) (es : List (Entry ℝ)) : Prop :=
  ∃ (rows : List (List Str)) (w : Nat), File text rows ∧ List.Forall₂ (fun r e => r.length = w ∧ e.ids.length = 2 ∧
    Written ([.int, .int, .float] ++ if times then [.int] else []) r e.cells) rows es

/-- The scores as a script uses them: the score predictors those of the file, the item finders 1 above the middle of the
score domain and 0 otherwise. -/
noncomputable def Script.scores (sc : Script) (dm : List ℝ) (xs : List ℝ) : List ℝ := match sc with
  | .sp => xs
  | .itemFinder => xs.map (fun x => if x ≤ (dm.getD 0 0 + dm.getD 1 0) / 2 then 0 else 1)

/-! ### The two models of the loader -/

/-- The model of the loader in Verif/Convert is the one the scripts use. -/
lemma loadEventWithScore_text (nan : ℝ) (times : Bool) (text : Str) (dom : Option (List ℝ)) :
    (Convert.loadEventWithScore nan text 2 .none dom (featureTypes times) : Res (ScoreData ℝ Int φ (List (Cell ℝ)))) =
      (readTable nan times text >>= fun t => Scripts.loadEventWithScore t dom) := by
  unfold Convert.loadEventWithScore readTable Scripts.loadEventWithScore
  simp only [show Convert.sEvents 2 OtypesArg.none = 2 from rfl,
    show List.replicate 2 FType.int ++ .float :: (featureTypes times).getD [] = [.int, .int, .float] ++ (featureTypes times).getD [] from rfl]
  cases genfromtxt nan ([.int, .int, .float] ++ (featureTypes times).getD []) text with
  | error e => rfl
  | ok x =>
    simp only [ok_bind]
    have hi : ∃ d0 : ScoreData ℝ Int φ (List (Cell ℝ)), ScoreData.init 2 .none = .ok d0 := ⟨_, rfl⟩
    obtain ⟨d0, hi⟩ := hi
    rw [hi]
    simp only [ok_bind]
    cases eventColumn 2 x with
    | error e => rfl
    | ok ev => rfl

lemma genfromtxt_lengths {nan : ℝ} {types : List FType} {text : Str} {rs : List (List (Cell ℝ))}
    (h : genfromtxt nan types text = .ok (.many rs)) : ∀ r ∈ rs, r.length = types.length := by
  unfold genfromtxt at h
  simp only at h
  split at h
  · cases h; simp
  · rename_i first rest he
    split at h
    · cases h
    · rename_i h1
      split at h
      · cases h
      · rename_i h2
        have key : ∀ r ∈ (first :: rest).map (List.zipWith (Convert.convert nan) types), r.length = types.length := by
          intro r hr
          obtain ⟨x, hx, rfl⟩ := List.mem_map.1 hr
          rw [List.length_zipWith]
          have : x.length = first.length := by
            by_contra hne
            apply h1
            rw [he, List.any_eq_true]
            exact ⟨x, hx, by simpa using hne⟩
          omega
        rw [he] at h
        split at h
        · cases h
        · rename_i e
          cases h
          exact key

lemma column_length (rs : List (List (Cell ℝ))) (h3 : ∀ r ∈ rs, 3 ≤ r.length) :
    (rs.filterMap (fun r => r[2]?.map Cell.toNum)).length = rs.length := by
  induction rs with
  | nil => rfl
  | cons r rs ih =>
    have := h3 r (by simp)
    rw [List.filterMap_cons, List.getElem?_eq_getElem (by omega)]
    simp only [Option.map_some, List.length_cons]
    rw [ih (fun r hr => h3 r (by simp [hr]))]

/-- Whatever a file contains, its arrays fit together. -/
lemma readTable_ok {nan : ℝ} {times : Bool} {text : Str} {t : Table ℝ Int (List (Cell ℝ))} (h : readTable nan times text = .ok t) : TableOk t := by
  unfold readTable at h
  obtain ⟨x, h1, h⟩ := bind_ok h
  obtain ⟨ev, h2, h⟩ := bind_ok h
  cases h
  cases x with
  | one r => cases h2
  | many rs =>
    have hl := genfromtxt_lengths h1
    cases h2
    have h3 : ∀ r ∈ rs, 3 ≤ r.length := by
      intro r hr
      rw [hl r hr]
      simp
    refine ⟨?_, rfl, ?_, ?_⟩
    · intro r hr
      obtain ⟨x, hx, rfl⟩ := List.mem_map.1 hr
      have := h3 x hx
      simp
      omega
    · show (rs.filterMap (fun r => r[2]?.map Cell.toNum)).length = (rs.map _).length
      rw [List.length_map]
      exact column_length rs h3
    · intro f hf
      cases times with
      | false => cases hf
      | true =>
        cases hf
        show (rs.map _).length = (rs.map _).length
        simp

lemma readText_ok (nan : ℝ) (content : F → Option Str) : ∀ b f t, readText nan content b f = .ok t → TableOk t := by
  intro b f t h
  unfold readText at h
  split at h
  · exact readTable_ok h
  · cases h

/-- The arrays of a file of events. -/
lemma readTable_events (nan : ℝ) {times : Bool} {text : Str} {es : List (Entry ℝ)} (h : EventFile times text es) :
    readTable nan times text = if es.length = 1 then .error .indexError
      else .ok ⟨⟨2, es.map Entry.ids⟩, es.map Entry.score, if times then some (es.map Entry.feats) else none⟩ := by
  obtain ⟨rows, w, ⟨ls, ht, hp, hr⟩, hw⟩ := h
  have hty : [FType.int, .int, .float] ++ (featureTypes times).getD [] = [.int, .int, .float] ++ if times then [.int] else [] := by
    cases times <;> rfl
  have hx := Convert.genfromtxt_ok nan (types := [.int, .int, .float] ++ if times then [.int] else []) (w := w)
    (cs := es.map Entry.cells) ht hp hr (by
      rw [List.forall₂_map_right_iff]
      exact hw.imp (fun _ _ h => ⟨h.1, h.2.2⟩))
  have hids : ∀ e ∈ es, e.ids.length = 2 := by
    intro e he
    obtain ⟨i, hi, rfl⟩ := List.getElem_of_mem he
    exact (hw.get (by rw [hw.length_eq]; exact hi) hi).2.1
  unfold readTable
  rw [hty, hx, ok_bind]
  split
  · rename_i h1
    obtain ⟨e, rfl⟩ := List.length_eq_one_iff.1 h1
    rfl
  · rename_i h1
    rw [Convert.recs_many (by simpa using h1)]
    have e1 : (es.map Entry.cells).map (fun r => (r.take 2).map Cell.toInt) = es.map Entry.ids := by
      rw [List.map_map]
      apply List.map_congr_left
      intro e he
      show ((e.ids.map Cell.int ++ _).take 2).map Cell.toInt = e.ids
      rw [← hids e he]
      exact Convert.take_cells _ _
    have e2 : (es.map Entry.cells).filterMap (fun r => r[2]?.map Cell.toNum) = es.map Entry.score := by
      clear hx hw h1 e1
      induction es with
      | nil => rfl
      | cons e es ih =>
        have h1 : (e.cells)[2]? = some (.num e.score) := by
          unfold Entry.cells
          rw [← hids e (by simp)]
          simp
        rw [List.map_cons, List.filterMap_cons, h1]
        simp only [Option.map_some, Cell.toNum, List.map_cons]
        rw [ih (fun e' he' => hids e' (List.mem_cons_of_mem _ he'))]
    have e3 : (es.map Entry.cells).map (fun r => r.drop 3) = es.map Entry.feats := by
      rw [List.map_map]
      apply List.map_congr_left
      intro e he
      show (e.ids.map Cell.int ++ Cell.num e.score :: e.feats).drop (2 + 1) = e.feats
      rw [← hids e he, List.drop_append]
      simp
    show Except.ok _ = Except.ok _
    congr 1
    show Table.mk ⟨2, (es.map Entry.cells).map (fun r => (r.take 2).map Cell.toInt)⟩ ((es.map Entry.cells).filterMap (fun r => r[2]?.map Cell.toNum))
      ((featureTypes times).map (fun _ => (es.map Entry.cells).map (fun r => r.drop 3))) = _
    rw [e1, e2, e3]
    cases times <;> rfl

lemma readText_events (nan : ℝ) {content : F → Option Str} {times : Bool} {f : F} {text : Str} (hc : content f = some text)
    {es : List (Entry ℝ)} (h : EventFile times text es) {t : Table ℝ Int (List (Cell ℝ))} (ht : readText nan content times f = .ok t) :
    t = ⟨⟨2, es.map Entry.ids⟩, es.map Entry.score, if times then some (es.map Entry.feats) else none⟩ := by
  unfold readText at ht
  rw [hc] at ht
  simp only [] at ht
  rw [readTable_events nan h] at ht
  split at ht
  · cases ht
  · cases ht; rfl

/-! ### C106 -/

/-- The container a script makes of a file. -/
lemma loader_scores {α ε : Type} [LinearOrder α] {read : Bool → F → Res (Table ℝ α ε)} (hread : ∀ b f t, read b f = .ok t → TableOk t) (sc : Script) (b : Bool) {f : F}
    {dom dm : List ℝ} {d : ScoreData ℝ α φ ε} (h3 : dom.length = 3) (h : (loader read sc b : Loader ℝ α φ ε F) f dom = .ok (d, dm)) :
    ∃ t, read b f = .ok t ∧ DomainOf dom t.score dm ∧ Holding d t (sc.scores dm t.score) (workDomain sc dm) := by
  cases sc with
  | sp =>
    obtain ⟨t, ht⟩ := loadSP_read h
    obtain ⟨hD, hH⟩ := (loadDataSP_iff ht (hread _ _ _ ht) dom dm h3).1 d h
    exact ⟨t, ht, hD, hH⟩
  | itemFinder =>
    obtain ⟨t, ht⟩ := loadIF_read h
    obtain ⟨hD, hH, _⟩ := (loadDataIF_iff ht (hread _ _ _ ht) dom dm h3).1 d h
    exact ⟨t, ht, hD, hH⟩

lemma built_unique {α ε : Type} [LinearOrder α] {d : ScoreData ℝ α φ ε} {rows rows' : List (List α)} {sc sc' : List ℝ}
    (h : ScoreBuilt d rows sc) (h' : ScoreBuilt d rows' sc') : rows = rows' ∧ sc = sc' := by
  constructor
  · have e1 := externalEvents_built h.inv.1
    rw [externalEvents_built h'.inv.1] at e1
    simpa using e1.symm
  · have e1 := h.inv.2.1
    rw [h'.inv.2.1] at e1
    simpa using e1.symm

section
variable (env : Env ℝ Int (List (Cell ℝ)) F V T γ) (lib : Lib Int φ (List (Cell ℝ)) V γ) (clock : Nat → T) (environment : Dict String (J V))
    (nan : ℝ) (content : F → Option Str)

/-- C106: from the text of a data file to the result file of a cross validation nothing is lost or mixed up.  Every fold splits
the lines of the file into training and test lines; the recommender of the command line is fitted to the ids and scores
of the training lines; and the file holds the line numbers, ids, scores and times of the test lines and the scores predicted for
them, in the order of the lines. -/
theorem C106_cross_validation {sc : Script} {o : Namespace F} (hdom : o.domain.length = 3) (hcv : o.validation = "cv")
    {text : Str} (hc : content (o.infile.getD o.infilep) = some text) {es : List (Entry ℝ)} (hf : EventFile o.timestamp text es) {j : J V}
    (h : task env lib clock environment (readText nan content) sc o = .ok j) :
    ∃ (M : Type) (rec : Recommender ℝ Int φ (List (Cell ℝ)) V γ M) (dm : List ℝ), Trained lib o sc M rec ∧
      DomainOf o.domain (es.map Entry.score) dm ∧ j.path ["condition", "score_domain"] = .ok (encScores env dm) ∧
      (∀ key, j.HasFold key ↔ ∃ i : Nat, (i : Int) < o.fold ∧ (∀ t, o.foldNo = some t → t = i) ∧ key = Nat.repr i) ∧
      ∀ key, j.HasFold key → ∃ (trainI testI : List Nat) (d : ScoreData ℝ Int φ (List (Cell ℝ))) (g g' : γ) (m : M) (res : Dict String (J V)) (esc : Pred ℝ),
        IsFold es.length trainI testI ∧
        ScoreBuilt d (gather (es.map Entry.ids) trainI) (gather (sc.scores dm (es.map Entry.score)) trainI) ∧
        rec.fit g d = .ok (m, res, g') ∧ rec.predict m (gather (es.map Entry.ids) testI) = .ok esc ∧
        j.path ["prediction", "mask", key] = .ok (encIndex env testI) ∧
        j.path ["prediction", "event", key] = .ok (encEvents env (gather (es.map Entry.ids) testI)) ∧
        j.path ["prediction", "true", key] = .ok (encScores env (gather (sc.scores dm (es.map Entry.score)) testI)) ∧
        j.path ["prediction", "predicted", key] = .ok (encPred env esc) ∧
        (o.timestamp = true → ∀ k ∈ env.names,
          j.path ["prediction", "event_feature", k, key] = .ok (encFeature env k (gather (es.map Entry.feats) testI))) := by
  have hread := readText_ok (F := F) nan content
  obtain ⟨M, rec, s, h1, h2, _, h4⟩ := task_run env lib (readText nan content) sc o (task_method h)
  obtain ⟨cond, e⟩ := (h4 clock environment).1
  rw [e] at h
  have hs := setRun_with h2 cond environment
  generalize ({ s with condition := cond, environment := environment } : Setting ℝ F V) = s' at hs h
  have hload : Loads (loader (readText nan content) sc o.timestamp : Loader ℝ Int φ (List (Cell ℝ)) F) := loader_loads hread sc o.timestamp
  have hset : Settles (loader (readText nan content) sc o.timestamp : Loader ℝ Int φ (List (Cell ℝ)) F) := by
    cases sc with
    | sp => exact loadDataSP_settles _
    | itemFinder => exact loadDataIF_settles _
  have hcv' : s'.cv = true := hs.cv.2 hcv
  obtain ⟨d, dm, k1, k2⟩ := recorded_domain env clock hload hset h
  have k1' := k1
  rw [hs.trainFile, hs.scoreDomain] at k1'
  obtain ⟨t, ht, hD, hH⟩ := loader_scores hread sc o.timestamp hdom k1'
  have et := readText_events nan hc hf ht
  subst et
  refine ⟨M, rec, dm, h1, hD, k2, ?_, ?_⟩
  · intro key
    rw [C61_folds hload hcv' h key, hs.nFolds]
  · intro key hk
    obtain ⟨data, d', dm', rows, sc', trainI, testI, g, g', m, res, esc, a1, a2, a3, _, a5, _, a7, a8, a9, a10, a11, a12, a13, _⟩ :=
      C61_test_disjoint_from_training hload hcv' h key hk
    rw [k1] at a1
    cases a1
    obtain ⟨rfl, rfl⟩ := built_unique hH.built a2
    refine ⟨trainI, testI, d', g, g', m, res, esc, by simpa using a3, a5, a7, a8, a12, a9, a10, a11, ?_⟩
    intro ht k hk
    exact a13 _ (by rw [hH.eventFeature]; simp [ht]) k hk

/-- C106 for hold-out tests: the recommender of the command line is fitted to the ids and scores of the lines of the training
file, and the result file holds ids, scores, times and predictions for the lines of the test file, in their order. -/
theorem C106_holdout {sc : Script} {o : Namespace F} (hdom : o.domain.length = 3) (hcv : o.validation = "holdout")
    {text text' : Str} (hc : content (o.infile.getD o.infilep) = some text) {es es' : List (Entry ℝ)} (hf : EventFile o.timestamp text es)
    (hc' : ∀ f, o.testfile = some f → content f = some text') (hf' : EventFile o.timestamp text' es') {j : J V}
    (h : task env lib clock environment (readText nan content) sc o = .ok j) :
    ∃ (M : Type) (rec : Recommender ℝ Int φ (List (Cell ℝ)) V γ M) (dm : List ℝ) (d : ScoreData ℝ Int φ (List (Cell ℝ))) (g g' : γ)
      (m : M) (res : Dict String (J V)) (esc : Pred ℝ), Trained lib o sc M rec ∧
      DomainOf o.domain (es.map Entry.score) dm ∧ j.path ["condition", "score_domain"] = .ok (encScores env dm) ∧
      ScoreBuilt d (es.map Entry.ids) (sc.scores dm (es.map Entry.score)) ∧
      rec.fit g d = .ok (m, res, g') ∧ rec.predict m (es'.map Entry.ids) = .ok esc ∧
      j.path ["training", "n_events"] = .ok (.leaf (env.nat es.length)) ∧
      j.path ["test", "n_events"] = .ok (.leaf (env.nat es'.length)) ∧
      j.path ["prediction", "event"] = .ok (encEvents env (es'.map Entry.ids)) ∧
      j.path ["prediction", "true"] = .ok (encScores env (sc.scores dm (es'.map Entry.score))) ∧
      j.path ["prediction", "predicted"] = .ok (encPred env esc) ∧
      (o.timestamp = true → ∀ k ∈ env.names,
        j.path ["prediction", "event_feature", k] = .ok (encFeature env k (es'.map Entry.feats))) := by
  have hread := readText_ok (F := F) nan content
  obtain ⟨M, rec, s, h1, h2, _, h4⟩ := task_run env lib (readText nan content) sc o (task_method h)
  obtain ⟨cond, e⟩ := (h4 clock environment).1
  rw [e] at h
  have hs := setRun_with h2 cond environment
  generalize ({ s with condition := cond, environment := environment } : Setting ℝ F V) = s' at hs h
  have hload : Loads (loader (readText nan content) sc o.timestamp : Loader ℝ Int φ (List (Cell ℝ)) F) := loader_loads hread sc o.timestamp
  have hset : Settles (loader (readText nan content) sc o.timestamp : Loader ℝ Int φ (List (Cell ℝ)) F) := by
    cases sc with
    | sp => exact loadDataSP_settles _
    | itemFinder => exact loadDataIF_settles _
  have hcv' : s'.cv = false := by
    by_contra k
    rw [Bool.not_eq_false, hs.cv, hcv] at k
    exact absurd k (by decide)
  obtain ⟨d, dm, k1, k2⟩ := recorded_domain env clock hload hset h
  have k1' := k1
  rw [hs.trainFile, hs.scoreDomain] at k1'
  obtain ⟨t, ht, hD, hH⟩ := loader_scores hread sc o.timestamp hdom k1'
  have et := readText_events nan hc hf ht
  subst et
  obtain ⟨f, train, test, dom₁, dom₂, trows, rows, tsc, sc₁, g, g', m, res, esc, a1, a2, a3, a4, a5, a6, a7, _, a9, a10, _, a12, a13, a14, a15, _⟩ :=
    C64_holdout_partial hload hcv' h
  rw [k1] at a2
  cases a2
  obtain ⟨lo, hi, st, rfl, hst⟩ := hD.stride
  obtain ⟨t', ht', hD', hH'⟩ := loader_scores hread sc o.timestamp rfl a3
  have et := readText_events nan (hc' f (hs.testFile ▸ a1)) hf' ht'
  subst et
  have ed : dom₂ = [lo, hi, st] := by
    cases hD' with
    | given e _ => exact e.symm
    | estimated e _ _ _ _ =>
      simp only [List.cons.injEq, and_true] at e
      exact absurd e.2.2 hst
  subst ed
  obtain ⟨rfl, rfl⟩ := built_unique hH.built a4
  obtain ⟨rfl, rfl⟩ := built_unique hH'.built a5
  refine ⟨M, rec, _, d, g, g', m, res, esc, h1, hD, k2, hH.built, a6, a7, by simpa using a9, by simpa using a10, a12, a13, a14, ?_⟩
  intro ht k hk
  exact a15 _ (by rw [hH'.eventFeature]; simp [ht]) k hk

/-- C106: cross validations of matrix factorization on a file of events that succeed: those with valid seed and fold number and
a score domain that is given or can be estimated, if the file does not have just one event and — unless there is no
fold to compute — it has two users, every user in it has two events and for each item some user has so many events with other items that no
test part can hold them all. -/
theorem C106_pmf_runs {o : Namespace F} (hm : o.method = "pmf") (hcv : o.validation = "cv") {a b c : ℝ} (hdom : o.domain = [a, b, c])
    {text : Str} (hc : content (o.infile.getD o.infilep) = some text) {es : List (Entry ℝ)} (hf : EventFile o.timestamp text es)
    (hr : Ready env o) (hl : es.length ≠ 1) (hU : Usable a b c (es.map Entry.score))
    (h : 0 < o.fold → 0 ≤ o.k ∧ TwoEach (es.map Entry.ids) ∧ TwoIds 0 (es.map Entry.ids) ∧ Spread (es.map Entry.ids)) :
    ∃ j, task env lib clock environment (readText nan content) .sp o = .ok j := by
  have hr' : readText nan content o.timestamp (o.infile.getD o.infilep) = if es.length = 1 then .error .indexError
      else .ok ⟨⟨2, es.map Entry.ids⟩, es.map Entry.score, if o.timestamp then some (es.map Entry.feats) else none⟩ := by
    unfold readText
    rw [hc]
    exact readTable_events nan hf
  rw [if_neg hl] at hr'
  exact C103_pmf_cross_validation env lib clock environment _ (readText_ok nan content) hm hcv hdom hr hr' hU h

/-- A file that is not there, a file of one event, and a file without the column of times that is asked for, are refused. -/
theorem C106_refused {sc : Script} {o : Namespace F}
    (h : content (o.infile.getD o.infilep) = none ∨ ∃ text, content (o.infile.getD o.infilep) = some text ∧
      ((∃ e, EventFile o.timestamp text [e]) ∨ o.timestamp = true ∧ ∃ rows, rows ≠ [] ∧ File text rows ∧ ∀ r ∈ rows, r.length = 3)) :
    ¬ ∃ j, task env lib clock environment (readText nan content) sc o = .ok j := by
  rintro ⟨j, hj⟩
  have hno : ∀ t, readText nan content o.timestamp (o.infile.getD o.infilep) ≠ .ok t := by
    intro t ht
    unfold readText at ht
    rcases h with h | ⟨text, h, h' | ⟨h', rows, hne, ⟨ls, k1, k2, k3⟩, k4⟩⟩
    · rw [h] at ht; cases ht
    · obtain ⟨e, h'⟩ := h'
      rw [h] at ht
      simp only [] at ht
      rw [readTable_events nan h'] at ht
      simp at ht
    · rw [h] at ht
      simp only [] at ht
      unfold readTable at ht
      obtain ⟨x, hx, ht⟩ := bind_ok ht
      unfold genfromtxt at hx
      simp only [Convert.rows_fields (Convert.readlines_text k1 k2) k3] at hx
      split at hx
      · exact hne rfl
      · rename_i first rest
        split at hx
        · cases hx
        · rw [if_pos] at hx
          · cases hx
          · rw [k4 first (by simp), h']
            decide
  obtain ⟨M, rec, s, h1, h2, _, h4⟩ := task_run env lib (readText nan content) sc o (task_method hj)
  obtain ⟨cond, e⟩ := (h4 clock environment).1
  rw [e] at hj
  have hs := setRun_with h2 cond environment
  generalize ({ s with condition := cond, environment := environment } : Setting ℝ F V) = s' at hs hj
  have hload : Loads (loader (readText nan content) sc o.timestamp : Loader ℝ Int φ (List (Cell ℝ)) F) :=
    loader_loads (readText_ok nan content) sc o.timestamp
  have hset : Settles (loader (readText nan content) sc o.timestamp : Loader ℝ Int φ (List (Cell ℝ)) F) := by
    cases sc with
    | sp => exact loadDataSP_settles _
    | itemFinder => exact loadDataIF_settles _
  obtain ⟨d, dm, k1, _⟩ := recorded_domain env clock hload hset hj
  rw [hs.trainFile] at k1
  cases sc with
  | sp =>
    obtain ⟨t, ht⟩ := loadSP_read k1
    exact hno t ht
  | itemFinder =>
    obtain ⟨t, ht⟩ := loadIF_read k1
    exact hno t ht

end

/-! ### Files written by the conversion scripts -/

/-- The converted MovieLens 100k ratings are a file of events. -/
theorem C106_movielens100k (times : Bool) {rs : List Rating} {text : Str} (ht : Text (rs.map Rating.line) text) :
    EventFile times (Convert.convMl100kEvent text) (rs.map (Rating.entry times)) := by
  refine ⟨_, 4, Convert.ratings_file ht, ?_⟩
  rw [List.forall₂_map_left_iff, List.forall₂_map_right_iff, List.forall₂_same]
  exact fun r _ => Convert.rating_written times r

/-- The converted MovieLens 1M ratings are a file of events. -/
theorem C106_movielens1m (times : Bool) {rs : List Rating} {text : Str} (ht : Text (rs.map Rating.line1m) text) :
    EventFile times (Convert.convMl1mEvent text) (rs.map (Rating.entry times)) := by
  refine ⟨_, 4, Convert.ratings1m_file ht, ?_⟩
  rw [List.forall₂_map_left_iff, List.forall₂_map_right_iff, List.forall₂_same]
  exact fun r _ => Convert.rating_written times r

/-- The small MovieLens data set is a file of events. -/
theorem C106_mini (times : Bool) {rs : List Rating} {text : Str} (ht : Text (rs.map Rating.line) text) :
    ∃ out, Convert.convMini (Convert.convMl100kEvent text) = .ok out ∧
      EventFile times out ((rs.filter (fun r => r.user ≤ 10 && r.item ≤ 10)).map (Rating.entry times)) := by
  obtain ⟨out, h1, h2⟩ := Convert.mini_file ht
  refine ⟨out, h1, _, 4, h2, ?_⟩
  rw [List.forall₂_map_left_iff, List.forall₂_map_right_iff, List.forall₂_same]
  exact fun r _ => Convert.rating_written times r

/-- The converted Flixster ratings are a file of events without times. -/
theorem C106_flixster {rs : List DecRating} (hok : ∀ r ∈ rs, r.Ok) {text : Str} (ht : Text (rs.map DecRating.line) text) :
    ∃ out, Convert.convFlixster text = .ok out ∧
      EventFile false out (rs.map (fun r => ⟨[r.user, r.item], (r.m : ℝ) / 10 ^ r.k, []⟩)) := by
  obtain ⟨out, h1, h2⟩ := Convert.decs_file hok ht
  refine ⟨out, h1, _, 3, h2, ?_⟩
  rw [List.forall₂_map_left_iff, List.forall₂_map_right_iff, List.forall₂_same]
  intro r _
  exact ⟨rfl, rfl, .cons (.int _) (.cons (.int _) (.cons (.num _ _) (.nil _)))⟩

/-- The converted sushi ratings are a file of events without times: the nonnegative entries of the matrix. -/
theorem C106_sushi {m : List (List Int)} {text : Str} (hne : ∀ row ∈ m, row ≠ [])
    (ht : Text (m.map (fun row => Convert.join ' ' (row.map Convert.showInt))) text) :
    ∃ out, Convert.convSushiEvent text = .ok out ∧ ∃ es : List (Nat × Nat × Int),
      (∀ u i r, (u, i, r) ∈ es ↔ (∃ row, m[u]? = some row ∧ row[i]? = some r) ∧ 0 ≤ r) ∧
      es.Pairwise (fun a b => a.1 < b.1 ∨ (a.1 = b.1 ∧ a.2.1 < b.2.1)) ∧
      EventFile false out (es.map (fun e => ⟨[(e.1 : Int), (e.2.1 : Int)], (e.2.2 : ℝ), []⟩)) := by
  obtain ⟨out, h1, es, h2, h3, h4⟩ := Convert.C67_sushi hne ht
  refine ⟨out, h1, es, h3, h4, _, 3, h2, ?_⟩
  rw [List.forall₂_map_left_iff, List.forall₂_map_right_iff, List.forall₂_same]
  intro e _
  exact ⟨rfl, rfl, .cons (.int _) (.cons (.int _) (.cons (Convert.shows_num_int _) (.nil _)))⟩

namespace Ex

/-- The surroundings of the runs on text files. -/
def tenv : Env ℝ Int (List (Cell ℝ)) String Val Nat Nat where
  gen := Scripts.Ex.rng
  ofSeed n := if 0 ≤ n then .ok n.toNat else .error .valueError
  entropy := 7
  id := .int
  num := .num
  nat := .nat
  int := .int
  bool := .bool
  file := .file
  names := ["timestamp"]
  field := fun k x => match x with
    | .int n :: _ => .feature k n.toNat
    | _ => .feature k 0
  iso := .time
  elapsed := .span
  elapsedU := .span

/-- The libraries. -/
noncomputable def tlib : Lib Int Unit (List (Cell ℝ)) Val Nat where
  opt := fun _ f _ x0 _ _ => ⟨x0, true, 0, "", f x0, 1, 1, 1⟩
  normal := ⟨fun g _ _ _ _ => (fun _ _ => 1, g + 1)⟩
  dirichlet := ⟨fun g _ => (fun _ => 1, g + 1)⟩
  after := fun g _ => g + 3
  str := fun _ => ""
  leaf := .opt
  mf := fun _ => .leaf (.nat 0)
  plsa := fun _ => .leaf (.nat 0)

/-- Four ratings of two users. -/
def ratings : List Rating := [⟨7, 5, 5, 881250949⟩, ⟨12, 3, 2, 1⟩, ⟨7, -4, 1, 0⟩, ⟨12, 8, 4, 2⟩]

/-- Their text. -/
def ratingsText : Str := "7\t5\t5\t881250949\n12\t3\t2\t1\r\n7\t-4\t1\t0\n12\t8\t4\t2".toList

lemma ratings_text : Text (ratings.map Rating.line) ratingsText := by
  have : ratings.map Rating.line = ["7\t5\t5\t881250949".toList, "12\t3\t2\t1".toList, "7\t-4\t1\t0".toList, "12\t8\t4\t2".toList] := by decide
  rw [this]
  exact .lf (.crlf (.lf (.last (by decide))))

/-- One file: the converted ratings. -/
def contents (f : String) : Option Str := if f = "data" then some (Convert.convMl100kEvent ratingsText) else none

lemma twoEachRatings : TwoEach ((ratings.map (Rating.entry (K := ℝ) true)).map Entry.ids) := by
  have e : (ratings.map (Rating.entry (K := ℝ) true)).map Entry.ids = [[7, 5], [12, 3], [7, -4], [12, 8]] := rfl
  rw [e]
  intro u hu
  by_cases h1 : u = 7
  · subst h1; decide
  by_cases h2 : u = 12
  · subst h2; decide
  exfalso
  have : eventsOf ([[7, 5], [12, 3], [7, -4], [12, 8]] : List (List Int)) u (List.range (0 + 1 + 1 + 1 + 1)) = 0 := by
    unfold eventsOf
    rw [List.length_eq_zero_iff, List.filter_eq_nil_iff]
    intro i hi
    have hi' : i ∈ [0, 1, 2, 3] := by simpa [List.range_succ] using hi
    simp only [List.mem_cons, List.not_mem_nil, or_false] at hi'
    rcases hi' with rfl | rfl | rfl | rfl <;> simp <;> omega
  simp only [List.length_cons, List.length_nil] at hu
  omega

lemma twoIdsRatings : TwoIds 0 ((ratings.map (Rating.entry (K := ℝ) true)).map Entry.ids) ∧
    TwoIds 1 ((ratings.map (Rating.entry (K := ℝ) true)).map Entry.ids) := by
  have e : (ratings.map (Rating.entry (K := ℝ) true)).map Entry.ids = [[7, 5], [12, 3], [7, -4], [12, 8]] := rfl
  rw [e]
  exact ⟨⟨[7, 5], by simp, [12, 3], by simp, 7, 12, rfl, rfl, by decide⟩, [7, 5], by simp, [12, 3], by simp, 5, 3, rfl, rfl, by decide⟩

lemma spreadRatings : Spread ((ratings.map (Rating.entry (K := ℝ) true)).map Entry.ids) := by
  have e : (ratings.map (Rating.entry (K := ℝ) true)).map Entry.ids = [[7, 5], [12, 3], [7, -4], [12, 8]] := rfl
  have er : List.range 4 = [0, 1, 2, 3] := by decide
  rw [e]
  intro x
  by_cases h : x = 5 ∨ x = -4
  · refine ⟨12, ?_⟩
    have e1 : eventsOf ([[7, 5], [12, 3], [7, -4], [12, 8]] : List (List Int)) 12 (List.range 4) = 2 := by decide
    have e2 : eventsWith ([[7, 5], [12, 3], [7, -4], [12, 8]] : List (List Int)) (otherItem [[7, 5], [12, 3], [7, -4], [12, 8]] x) 12 1
        (List.range 4) = 2 := by
      unfold eventsWith otherItem
      rw [er]
      rcases h with rfl | rfl <;> simp [List.filter]
    show eventsOf _ 12 (List.range 4) + 5 ≤ 5 * eventsWith _ _ 12 1 (List.range 4)
    rw [e1, e2]
    norm_num
  · rw [not_or] at h
    refine ⟨7, ?_⟩
    have e1 : eventsOf ([[7, 5], [12, 3], [7, -4], [12, 8]] : List (List Int)) 7 (List.range 4) = 2 := by decide
    have e2 : eventsWith ([[7, 5], [12, 3], [7, -4], [12, 8]] : List (List Int)) (otherItem [[7, 5], [12, 3], [7, -4], [12, 8]] x) 7 1
        (List.range 4) = 2 := by
      unfold eventsWith otherItem
      rw [er]
      simp [List.filter, Ne.symm h.1, Ne.symm h.2]
    show eventsOf _ 7 (List.range 4) + 5 ≤ 5 * eventsWith _ _ 7 1 (List.range 4)
    rw [e1, e2]
    norm_num

/-- C106 is not vacuous: converted ratings, a cross validation of three folds with default options, and what its file holds. -/
example : ∃ o j, commandLine .sp "stdin" "stdout" [.validation "cv", .fold 3] ["data"] = some o ∧
    task tenv tlib _root_.id [] (readText 0 contents) .sp o = .ok j ∧ j.HasFold "2" ∧
    ∃ testI, IsFold 4 ((List.range 4).filter (fun i => i ∉ testI)) testI ∧
      j.path ["prediction", "event", "2"] = .ok (encEvents tenv (gather [[7, 5], [12, 3], [7, -4], [12, 8]] testI)) ∧
      j.path ["prediction", "true", "2"] = .ok (encScores tenv (gather [5, 2, 1, 4] testI)) := by
  obtain ⟨o, ho⟩ := (C99_accepted (F := String) .sp "stdin" "stdout" [.validation "cv", .fold 3] ["data"]).2
    ⟨by simp, by simp, by simp, by simp, by simp⟩
  have h := C99_options ho
  have hin : o.infile.getD o.infilep = "data" := by rw [h.infile]; rfl
  have ht : o.timestamp = true := by
    have := h.timestamp
    simpa using this
  have hcv : o.validation = "cv" := h.validation
  have hd : o.domain = [0, 0, 0] := h.domain
  have hfold : o.fold = 3 := h.fold
  have hc : contents (o.infile.getD o.infilep) = some (Convert.convMl100kEvent ratingsText) := by rw [hin]; rfl
  have hf : EventFile o.timestamp (Convert.convMl100kEvent ratingsText) (ratings.map (Rating.entry true)) := by
    rw [ht]; exact C106_movielens100k true ratings_text
  have hn : o.foldNo = none := h.foldNo
  have hs : o.rseed = none := h.rseed
  obtain ⟨j, hj⟩ := C106_pmf_runs tenv tlib _root_.id [] 0 contents (o := o) h.method hcv hd hc hf
    ⟨fun n hr => absurd (hs ▸ hr) (by simp), fun i hi => absurd (hn ▸ hi) (by simp)⟩
    (by decide) (.inr ⟨rfl, rfl, rfl, 5, by simp [ratings, Rating.entry], 2, by simp [ratings, Rating.entry], by norm_num⟩)
    fun _ => ⟨by rw [show o.k = 1 from h.k]; decide, twoEachRatings, twoIdsRatings.1, spreadRatings⟩
  obtain ⟨M, rec, dm, _, _, _, h4, h5⟩ := C106_cross_validation tenv tlib _root_.id [] 0 contents (by rw [hd]; rfl) hcv hc hf hj
  have hk : j.HasFold "2" := (h4 "2").2 ⟨2, by rw [hfold]; decide, by rw [hn]; simp, by decide⟩
  obtain ⟨trainI, testI, d, g, g', m, res, esc, k1, _, _, _, _, k2, k3, _⟩ := h5 "2" hk
  refine ⟨o, j, ho, hj, hk, testI, ?_, k2, ?_⟩
  · have e : trainI = (List.range 4).filter (fun i => i ∉ testI) := by
      refine List.Pairwise.eq_of_mem_iff k1.train_sorted (List.Pairwise.filter _ List.pairwise_lt_range) ?_
      intro i
      rw [k1.train_iff]
      simp [ratings]
    rw [← e]
    exact k1
  · rw [k3]
    simp [Script.scores, ratings, Rating.entry]

end Ex

end Kam.Exp
