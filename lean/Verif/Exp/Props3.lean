/-
C102: from the command line to the reported statistics.
-/
import Verif.Exp.Props2
import Verif.Scripts.Load2

set_option linter.unusedSectionVars false

namespace Kam.Exp
open Scripts Spec

variable {F α φ ε V T γ : Type} [LinearOrder α]

/-! ### Every recommender gives one score per event -/

lemma mapM_length {β δ : Type} {f : β → Res δ} : ∀ {xs : List β} {ys : List δ}, xs.mapM f = .ok ys → ys.length = xs.length
  | [], ys, h => by
    simp [pure, Except.pure] at h
    simp [← h]
  | x :: xs, ys, h => by
    rw [List.mapM_cons] at h
    obtain ⟨a, _, h⟩ := bind_ok h
    obtain ⟨as, h2, h⟩ := bind_ok h
    simp only [pure, Except.pure, Except.ok.injEq] at h
    rw [← h, List.length_cons, mapM_length h2, List.length_cons]

lemma predict_length {θ W : Type} {L : Learner ℝ γ θ W}
    (hL : ∀ p rows ys, L.rawPredict p rows = .ok ys → ys.length = rows.length)
    {r : Rec ℝ α φ ε γ θ W} {evs : List (List α)} {esc : Pred ℝ} (h : Rec.predict L r (.mat ⟨2, evs⟩) = .ok esc) :
    ∃ ys : List ℝ, esc = squeeze ys ∧ ys.length = evs.length := by
  unfold Rec.predict Rec.checkArray at h
  simp only [ok_bind] at h
  split at h
  · cases h
  · rw [show (pure (⟨2, evs⟩ : Arr2 α) : Res (Arr2 α)) = .ok ⟨2, evs⟩ from rfl, ok_bind] at h
    cases hi : r.eventIndex with
    | none => rw [hi] at h; cases h
    | some ix =>
      rw [hi] at h
      simp only [] at h
      obtain ⟨rows, h1, h⟩ := bind_ok h
      obtain ⟨b, h2, h⟩ := bind_ok h
      unfold EventData.toIidEvent at h2
      obtain ⟨m, _, h2⟩ := bind_ok h2
      simp only [] at h2
      split at h2
      · obtain ⟨rows', h3, h2⟩ := bind_ok h2
        simp only [pure, Except.pure, Except.ok.injEq] at h2
        subst h2
        simp only [] at h
        cases hp : r.params with
        | none => rw [hp] at h; cases h
        | some p =>
          rw [hp] at h
          simp only [] at h
          obtain ⟨ys, h4, h⟩ := bind_ok h
          simp only [pure, Except.pure, Except.ok.injEq] at h
          exact ⟨ys, h.symm, by rw [hL _ _ _ h4, mapM_length h3, mapM_length h1]⟩
      · cases h2

lemma guardK_scoresEach {M : Type} {k : Int} {rec : Recommender ℝ α φ ε V γ M} (h : ScoresEach rec) : ScoresEach (guardK k rec) := by
  unfold guardK
  split
  · intro m evs esc he
    cases he
  · exact h

/-! ### What a script trains -/

/-- The recommender that a script trains when called with the options `o`: its class belongs to the method and it has the
settings of the command line. -/
inductive Trained (lib : Lib α φ ε V γ) (o : Namespace F) : Script → (M : Type) → Recommender ℝ α φ ε V γ M → Prop
  | pmf (cf : MF.Config γ) : o.method = "pmf" → SetMF lib o cf →
      Trained lib o .sp _ (guardK o.k (predictor (MF.pmf cf) MF.initialResults lib.mf lib.after))
  | plsa (cf : PLSA.Config γ) (e : Bool) : (o.method = if e then "plsam" else "plsamm") → SetPLSA lib o e cf →
      Trained lib o .sp _ (guardK o.k (predictor (PLSA.plsa cf) PLSA.initialResults lib.plsa lib.after))
  | lpmf (cf : MF.Config γ) : o.method = "lpmf" → SetMF lib o cf →
      Trained lib o .itemFinder _ (guardK o.k (finder (MF.logistic cf) MF.initialResults lib.mf lib.after))

/-- Every recommender that the scripts can train gives one score per event. -/
lemma Trained.scoresEach {lib : Lib α φ ε V γ} {o : Namespace F} {sc : Script} {M : Type} {rec : Recommender ℝ α φ ε V γ M}
    (h : Trained lib o sc M rec) : ScoresEach rec := by
  cases h with
  | pmf cf _ _ => exact guardK_scoresEach fun m evs esc he => predict_length (fun _ _ _ h => mapM_length h) he
  | plsa cf e _ _ => exact guardK_scoresEach fun m evs esc he => predict_length (fun _ _ _ h => mapM_length h) he
  | lpmf cf _ _ => exact guardK_scoresEach fun m evs esc he => predict_length (fun _ _ _ h => mapM_length h) he

/-- The loader of a script. -/
noncomputable def loader (read : Bool → F → Res (Table ℝ α ε)) (sc : Script) (b : Bool) : Loader ℝ α φ ε F :=
  match sc with
  | .sp => loadDataSP (read b)
  | .itemFinder => loadDataIF (read b)

lemma loader_loads {read : Bool → F → Res (Table ℝ α ε)} (hread : ∀ b f t, read b f = .ok t → TableOk t) (sc : Script) (b : Bool) :
    Loads (loader read sc b : Loader ℝ α φ ε F) := by
  cases sc with
  | sp => exact loadDataSP_loads (hread b)
  | itemFinder => exact loadDataIF_loads (hread b)

/-- The options with another fold number, output file and verbosity. -/
def Namespace.vary (o : Namespace F) (foldNo : Option Int) (out : F) (v : Bool) : Namespace F :=
  { o with foldNo := foldNo, outfile := some out, verbose := v }

lemma task_run (env : Env ℝ α ε F V T γ) (lib : Lib α φ ε V γ) (read : Bool → F → Res (Table ℝ α ε)) (sc : Script) (o : Namespace F)
    (hm : o.method ∈ sc.choices) :
    ∃ (M : Type) (rec : Recommender ℝ α φ ε V γ M) (s : Setting ℝ F V), Trained lib o sc M rec ∧
      SetRun o (o.infile.getD o.infilep) s ∧
      Dict.get? s.model "task_type" = some (.leaf (lib.leaf (.str (match sc with | .sp => "score_predictor" | .itemFinder => "item_finder")))) ∧
      ∀ (clock : Nat → T) (environment : Dict String (J V)),
        (∃ cond, task env lib clock environment read sc o =
          doTask env clock rec (loader read sc o.timestamp) { s with condition := cond, environment := environment } o.foldNo) ∧
        ∀ (foldNo : Option Int) (out : F) (v : Bool),
        ∃ cond, task env lib clock environment read sc (o.vary foldNo out v) =
          doTask env clock rec (loader read sc o.timestamp) { s with condition := cond, environment := environment } foldNo := by
  cases sc with
  | sp =>
    simp only [Script.choices, List.mem_cons, List.not_mem_nil, or_false] at hm
    have hm' : o.method = "pmf" ∨ ∃ e : Bool, o.method = if e then "plsam" else "plsamm" := by
      rcases hm with h | h | h
      · exact .inl h
      · exact .inr ⟨true, h⟩
      · exact .inr ⟨false, h⟩
    rcases hm' with hm | ⟨e, hm⟩
    · obtain ⟨cf, h1, h2⟩ := newMF_options lib o
      refine ⟨_, _, (infoOf o .pmf "probabilistic matrix factorization" (optionsMF o)).setting lib.leaf (fun f => env.file (some f))
        [] o.rseed, .pmf cf hm h2, setRun _ _ _ _ _ _ _, rfl, fun clock environment => ⟨?_, fun foldNo out v => ?_⟩⟩
      · obtain ⟨cf', k1, _, k3⟩ := task_pmf_eq env lib clock environment read o hm
        rw [h1] at k1
        simp only [Except.ok.injEq, Prod.mk.injEq, true_and] at k1
        subst k1
        exact ⟨_, k3⟩
      · obtain ⟨cf', k1, _, k3⟩ := task_pmf_eq env lib clock environment read (o.vary foldNo out v) hm
        have e : optionsMF (o.vary foldNo out v) = optionsMF o := rfl
        rw [e, h1] at k1
        simp only [Except.ok.injEq, Prod.mk.injEq] at k1
        rw [← k1.2] at k3
        exact ⟨_, k3⟩
    · obtain ⟨cf, h1, h2⟩ := newPLSA_options lib o e
      refine ⟨_, _, (infoOf o .plsa (if e then "multionomial pLSA - expectation" else "multionomial pLSA - mode")
        (optionsPLSA o e)).setting lib.leaf (fun f => env.file (some f))
        [] o.rseed, .plsa cf e hm h2, setRun _ _ _ _ _ _ _, rfl, fun clock environment => ⟨?_, fun foldNo out v => ?_⟩⟩
      · obtain ⟨cf', k1, _, k3⟩ := task_plsa_eq env lib clock environment read o e hm
        rw [h1] at k1
        simp only [Except.ok.injEq, Prod.mk.injEq, true_and] at k1
        subst k1
        exact ⟨_, k3⟩
      · obtain ⟨cf', k1, _, k3⟩ := task_plsa_eq env lib clock environment read (o.vary foldNo out v) e hm
        have e' : optionsPLSA (o.vary foldNo out v) e = optionsPLSA o e := rfl
        rw [e', h1] at k1
        simp only [Except.ok.injEq, Prod.mk.injEq] at k1
        rw [← k1.2] at k3
        exact ⟨_, k3⟩
  | itemFinder =>
    simp only [Script.choices, List.mem_cons, List.not_mem_nil, or_false] at hm
    obtain ⟨cf, h1, h2⟩ := newMF_options lib o
    refine ⟨_, _, (infoOf o .logistic "logistic probabilistic matrix factorization" (optionsMF o)).setting lib.leaf (fun f => env.file (some f))
      [] o.rseed, .lpmf cf hm h2, setRun _ _ _ _ _ _ _, rfl, fun clock environment => ⟨?_, fun foldNo out v => ?_⟩⟩
    · obtain ⟨cf', k1, _, k3⟩ := task_lpmf_eq env lib clock environment read o hm
      rw [h1] at k1
      simp only [Except.ok.injEq, Prod.mk.injEq, true_and] at k1
      subst k1
      exact ⟨_, k3⟩
    · obtain ⟨cf', k1, _, k3⟩ := task_lpmf_eq env lib clock environment read (o.vary foldNo out v) hm
      have e : optionsMF (o.vary foldNo out v) = optionsMF o := rfl
      rw [e, h1] at k1
      simp only [Except.ok.injEq, Prod.mk.injEq] at k1
      rw [← k1.2] at k3
      exact ⟨_, k3⟩

lemma task_method {env : Env ℝ α ε F V T γ} {lib : Lib α φ ε V γ} {clock : Nat → T} {environment : Dict String (J V)}
    {read : Bool → F → Res (Table ℝ α ε)} {sc : Script} {o : Namespace F} {j : J V}
    (h : task env lib clock environment read sc o = .ok j) : o.method ∈ sc.choices := by
  unfold task at h
  obtain ⟨info, h1, _⟩ := bind_ok h
  unfold initInfo at h1
  obtain ⟨x, h1, _⟩ := bind_ok h1
  unfold initModel at h1
  cases sc with
  | sp =>
    simp only [] at h1
    split at h1
    · simp [Script.choices, *]
    · split at h1
      · simp [Script.choices, *]
      · split at h1
        · simp [Script.choices, *]
        · cases h1
  | itemFinder =>
    simp only [] at h1
    split at h1
    · simp [Script.choices, *]
    · cases h1

/-! ### C102 -/

section
variable (env : Env ℝ α ε F V T γ) (lib : Lib α φ ε V γ) (clock : Nat → T) (environment : Dict String (J V))
    (read : Bool → F → Res (Table ℝ α ε))

/-- C102: a seeded cross validation started with one command line can be distributed: when it succeeds, it succeeds too
when the command line is called once for every fold with `--fold-no`, at any time, on any machine, with any output file
and in any order, and merging the files gives the same folds, data, settings and statistics as the full run, even when
numbers are rounded in the files. -/
theorem C102_distributed {se : StatsEnv V} {round : ℝ → ℝ} (hr : ∀ x, se.float (env.num x) = .ok (.fin (round x)))
    (hauc : ∀ rs rs' : List (ℝ × ℝ), rs.Perm rs' →
      se.auc (rs.map Prod.fst) (rs.map Prod.snd) = se.auc (rs'.map Prod.fst) (rs'.map Prod.snd))
    (hread : ∀ b f t, read b f = .ok t → TableOk t) (hnames : env.names.Nodup) {sc : Script} {o : Namespace F}
    (hcv : o.validation = "cv") {n : Int} (hseed : o.rseed = some n) (hfold : o.foldNo = none) {full : J V}
    (hfull : task env lib clock environment read sc o = .ok full)
    (order : List Nat) (horder : order.Perm (List.range o.fold.toNat)) (hne : order ≠ [])
    (clocks : Nat → Nat → T) (environments : Nat → Dict String (J V)) (outs : Nat → F) (verbose : Nat → Bool) (tru out : V) :
    ∃ files merged,
      order.mapM (fun i => task env lib (clocks i) (environments i) read sc
        (o.vary (some (i : Int)) (outs i) (verbose i))) = .ok files ∧
      merge tru out files = .ok merged ∧ SameData full merged ∧
      (∀ key, full.HasFold key ↔ merged.HasFold key) ∧
      (∀ i : Nat, full.HasFold (Nat.repr i) ↔ (i : Int) < o.fold) ∧
      (∀ i : Nat, (i : Int) < o.fold → SameFold full merged (Nat.repr i)) ∧
      (∃ m, full.path ["model"] = .ok m ∧ merged.path ["model"] = .ok m) ∧
      statsOf se merged = statsOf se full := by
  obtain ⟨M, rec, s, h1, h2, h3, h4⟩ := task_run env lib read sc o (task_method hfull)
  have hload : Loads (loader read sc o.timestamp : Loader ℝ α φ ε F) := loader_loads hread sc o.timestamp
  obtain ⟨⟨cond, e⟩, hv⟩ := h4 clock environment
  rw [hfold] at e
  rw [e] at hfull
  have hs1 : ({ s with condition := cond, environment := environment } : Setting ℝ F V).cv = true := h2.cv.2 hcv
  have hs2 : ({ s with condition := cond, environment := environment } : Setting ℝ F V).seed = some n := h2.seed.trans hseed
  have hn : s.nFolds = o.fold := h2.nFolds
  choose conds hc using fun i => (h4 (clocks i) (environments i)).2 (some (i : Int)) (outs i) (verbose i)
  have ho : order.Perm (List.range ({ s with condition := cond, environment := environment } : Setting ℝ F V).nFolds.toNat) := by
    simpa [hn] using horder
  obtain ⟨files, merged, a1, a2, a3⟩ := C97_merged (c := round) hr hauc hload h1.scoresEach hnames hs1 hs2 hfull order ho hne clocks
    (fun i => conds i) environments tru out
  obtain ⟨files', merged', b1, b2, b3, b4, b5, b6, b7, b8, b9⟩ := C60_folds_merge_to_full_run hload hnames hs1 hs2 hfull order ho hne
    clocks (fun i => conds i) environments tru out
  rw [a1] at b1
  simp only [Except.ok.injEq] at b1
  subst b1
  rw [a2] at b2
  simp only [Except.ok.injEq] at b2
  subst b2
  refine ⟨files, merged, ?_, a2, b3, b4, ?_, ?_, ⟨_, b8, b9⟩, a3⟩
  · rw [← a1]
    congr 1
    funext i
    exact hc i
  · simpa [hn] using b5
  · simpa [hn] using b6

/-- The score domain recorded in a result file is the one used in the run. -/
lemma recorded_domain {M : Type} {rec : Recommender ℝ α φ ε V γ M} {load : Loader ℝ α φ ε F} {s : Setting ℝ F V} {target : Option Int}
    {j : J V} (hload : Loads load) (hset : Settles load) (h : doTask env clock rec load s target = .ok j) :
    ∃ d dm, load s.trainFile s.scoreDomain = .ok (d, dm) ∧ j.path ["condition", "score_domain"] = .ok (encScores env dm) := by
  have hg : ∀ (c : Dict String (J V)) x y, Dict.get? ((c.set "score_domain" x).set "n_folds" y) "score_domain" = some x := by
    intro c x y
    rw [Dict.get?_set, if_neg (by decide), Dict.get?_set, if_pos rfl]
  by_cases hcv : s.cv = true
  · obtain ⟨data, dm, ev, sc, users, items, groups, l, hl, hsc, hj, hf, hr⟩ := doTask_cv hcv hload.score h
    refine ⟨data, dm, hl.load, ?_⟩
    rw [hj]
    simp [J.path, tree, headOf, J.item, Dict.getItem, Dict.get?, ok_bind]
    have := hg s.condition (encScores env dm) (.leaf (env.int s.nFolds))
    rw [this]
  · obtain ⟨f, train, test, dom₁, dom₂, rows, sc, tu, ti, su, si, g, g', m, res, esc, hh, rfl⟩ :=
      doTask_holdout hload (by simpa using hcv) h
    obtain ⟨_, h2⟩ := hset _ _ _ _ hh.loadTrain
    have e := h2 _ _ _ hh.loadTest
    refine ⟨train, dom₁, hh.loadTrain, ?_⟩
    simp [J.path, J.item, Dict.getItem, Dict.get?, ok_bind]
    have := hg s.condition (encScores env dom₂) (.leaf (env.int 1))
    rw [this, e]

/-- The model recorded in a result file. -/
lemma recorded_model {M : Type} {rec : Recommender ℝ α φ ε V γ M} {load : Loader ℝ α φ ε F} {s : Setting ℝ F V} {target : Option Int}
    {j : J V} (hload : Loads load) (h : doTask env clock rec load s target = .ok j) (k : String) :
    j.path ["model", k] = Dict.getItem s.model k := by
  by_cases hcv : s.cv = true
  · obtain ⟨data, dm, ev, sc, users, items, groups, l, hl, hsc, hj, hf, hr⟩ := doTask_cv hcv hload.score h
    rw [hj]
    simp [J.path, tree, headOf, J.item, Dict.getItem, Dict.get?]
    rfl
  · obtain ⟨f, train, test, dom₁, dom₂, rows, sc, tu, ti, su, si, g, g', m, res, esc, hh, rfl⟩ :=
      doTask_holdout hload (by simpa using hcv) h
    simp [J.path, J.item, Dict.getItem, Dict.get?]
    rfl

/-- C102: the statistics of a result file that one call of the score-predictor script wrote.  Unless a fold has a single
test event or the score domain asked for has a negative stride, the statistics script succeeds and reports the errors of the predictions
that a recommender of the class and settings of the command line made for events of the loaded files. -/
theorem C102_predictor_statistics {se : StatsEnv V} (hr : ∀ x, se.float (env.num x) = .ok (.fin x))
    (htext : ∀ s, se.text (lib.leaf (.str s)) = some s) (hread : ∀ b f t, read b f = .ok t → TableOk t) (hnames : env.names.Nodup)
    {o : Namespace F} {a b c : ℝ} (hdom : o.domain = [a, b, c]) (hc : 0 ≤ c) {j : J V}
    (h : task env lib clock environment read .sp o = .ok j) {key : String} (hk : j.HasFold key) (hone : ¬ j.OneTest) (keepdata : Bool) :
    ∃ (M : Type) (rec : Recommender ℝ α φ ε V γ M) (out e : J V) (xs : List (List α × ℝ × ℝ)) (lo hi st : ℝ), Trained lib o .sp M rec ∧
      stats se keepdata j = .ok out ∧ (∀ x ∈ xs, Genuine rec (loadDataSP (read o.timestamp)) x) ∧
      j.path ["prediction", "event"] = .ok e ∧ Flat e (xs.map (fun x => J.list (x.1.map (fun y => J.leaf (env.id y))))) ∧
      j.path ["condition", "score_domain"] = .ok (encScores env [lo, hi, st]) ∧ PredictorReport se out (xs.map (fun x => x.2)) lo hi st := by
  obtain ⟨M, rec, s, h1, h2, h3, h4⟩ := task_run env lib read .sp o (task_method h)
  obtain ⟨cond, e⟩ := (h4 clock environment).1
  rw [e] at h
  have hload : Loads (loadDataSP (read o.timestamp) : Loader ℝ α φ ε F) := loadDataSP_loads (hread _)
  obtain ⟨d, dm, g1, g2⟩ := recorded_domain env clock hload (loadDataSP_settles _) h
  have g3 := recorded_model env clock hload h "task_type"
  simp only [] at g3
  unfold Dict.getItem at g3
  rw [h3] at g3
  have hst : ∃ lo hi st, dm = [lo, hi, st] ∧ 0 < st := by
    have g1' := g1
    unfold loadDataSP at g1
    obtain ⟨t, ht, _⟩ := bind_ok g1
    simp only [h2.scoreDomain, hdom] at g1'
    cases ((loadDataSP_iff ht (hread _ _ _ ht) [a, b, c] dm rfl).1 d g1').1 with
    | given e1 e2 => cases e1; exact ⟨_, _, _, rfl, lt_of_le_of_ne hc (Ne.symm e2)⟩
    | estimated _ _ _ e1 _ =>
      obtain ⟨x, _, y, _, hlt, rfl⟩ := e1
      exact ⟨_, _, _, rfl, sub_pos.2 hlt⟩
  obtain ⟨lo, hi, st, rfl, hst⟩ := hst
  obtain ⟨out, ev, xs, k1, k2, k3, k4, k5⟩ :=
    C97_score_predictor_partial (tru := lib.leaf .none) (c := id) hr hload h1.scoresEach hnames (.run h) hk hone g3 (htext _) hst g2 keepdata
  exact ⟨M, rec, out, ev, xs, lo, hi, st, h1, k1, k2, k3, k4, g2, k5⟩

/-- C102: the statistics of a result file that one call of the item-finder script wrote: unless a fold has a single test
event, the statistics script succeeds exactly when there is a test event, and reports the means of the binary true scores
and of the predictions, and the area under the curve exactly when both classes occur. -/
theorem C102_finder_statistics {se : StatsEnv V} (hr : ∀ x, se.float (env.num x) = .ok (.fin x))
    (htext : ∀ s, se.text (lib.leaf (.str s)) = some s) (hread : ∀ b f t, read b f = .ok t → TableOk t) (hnames : env.names.Nodup)
    {o : Namespace F} {j : J V}
    (h : task env lib clock environment read .itemFinder o = .ok j) {key : String} (hk : j.HasFold key) (hone : ¬ j.OneTest) (keepdata : Bool) :
    ∃ (M : Type) (rec : Recommender ℝ α φ ε V γ M) (e : J V) (xs : List (List α × ℝ × ℝ)), Trained lib o .itemFinder M rec ∧
      (∀ x ∈ xs, Genuine rec (loadDataIF (read o.timestamp)) x) ∧ (∀ x ∈ xs, x.2.1 = 0 ∨ x.2.1 = 1) ∧
      j.path ["prediction", "event"] = .ok e ∧ Flat e (xs.map (fun x => J.list (x.1.map (fun y => J.leaf (env.id y))))) ∧
      (xs = [] → stats se keepdata j = .error .valueError) ∧
      (xs ≠ [] → ∃ out, stats se keepdata j = .ok out ∧ FinderReport se out (xs.map (fun x => x.2))) := by
  obtain ⟨M, rec, s, h1, h2, h3, h4⟩ := task_run env lib read .itemFinder o (task_method h)
  obtain ⟨cond, e⟩ := (h4 clock environment).1
  rw [e] at h
  have hload : Loads (loadDataIF (read o.timestamp) : Loader ℝ α φ ε F) := loadDataIF_loads (hread _)
  have g3 := recorded_model env clock hload h "task_type"
  simp only [] at g3
  unfold Dict.getItem at g3
  rw [h3] at g3
  obtain ⟨ev, xs, k1, k2, k3, k4, k5, k6⟩ :=
    C97_item_finder_partial (tru := lib.leaf .none) (c := id) hr rfl rfl (hread _) h1.scoresEach hnames (.run h) hk hone g3 (htext _) keepdata
  refine ⟨M, rec, ev, xs, h1, k1, k4, k2, k3, k5, k6⟩

end

end Kam.Exp
