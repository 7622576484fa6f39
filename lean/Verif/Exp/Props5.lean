/-
C104: from which runs of the experiment scripts the statistics script can compute statistics.
-/
import Verif.Exp.Props4
import Verif.Scripts.OneTest

set_option linter.unusedSectionVars false

namespace Kam.Exp
open Scripts Spec

variable {F α φ ε V T γ : Type} [LinearOrder α]

lemma setRun_with {o : Namespace F} {f : F} {s : Setting ℝ F V} (h : SetRun o f s) (cond environment : Dict String (J V)) :
    SetRun o f { s with condition := cond, environment := environment } :=
  ⟨h.trainFile, h.testFile, h.scoreDomain, h.nFolds, h.cv, h.seed⟩

/-- The container a script makes of a file holds the events of the file. -/
lemma loader_holding {read : Bool → F → Res (Table ℝ α ε)} (hread : ∀ b f t, read b f = .ok t → TableOk t) (sc : Script) (b : Bool) {f : F}
    {dom dm : List ℝ} {d : ScoreData ℝ α φ ε} (h3 : dom.length = 3) (h : (loader read sc b : Loader ℝ α φ ε F) f dom = .ok (d, dm)) :
    ∃ t scs dm', read b f = .ok t ∧ Holding d t scs dm' ∧ dm.length = 3 := by
  have len : ∀ {scs : List ℝ}, DomainOf dom scs dm → dm.length = 3 := by
    intro scs hD
    obtain ⟨_, _, _, rfl, _⟩ := hD.stride
    rfl
  cases sc with
  | sp =>
    obtain ⟨t, ht⟩ := loadSP_read h
    obtain ⟨hD, hH⟩ := (loadDataSP_iff ht (hread _ _ _ ht) dom dm h3).1 d h
    exact ⟨t, _, _, ht, hH, len hD⟩
  | itemFinder =>
    obtain ⟨t, ht⟩ := loadIF_read h
    obtain ⟨hD, hH, _⟩ := (loadDataIF_iff ht (hread _ _ _ ht) dom dm h3).1 d h
    exact ⟨t, _, _, ht, hH, len hD⟩

/-- The file the events of which decide whether there are statistics, and what they must be like: in a cross validation there
must be a fold and not just a few events of one user, in a hold-out test there must not be just one test event. -/
def Suffices (read : Bool → F → Res (Table ℝ α ε)) (o : Namespace F) : Prop :=
  (o.validation = "cv" ∧ 0 < o.fold ∧ ∀ t, read o.timestamp (o.infile.getD o.infilep) = .ok t → ¬ OneSmallUser t.event.rows) ∨
  (o.validation ≠ "cv" ∧ ∀ f t, o.testfile = some f → read o.timestamp f = .ok t → t.event.rows.length ≠ 1)

section
variable (env : Env ℝ α ε F V T γ) (lib : Lib α φ ε V γ) (clock : Nat → T) (environment : Dict String (J V))
    (read : Bool → F → Res (Table ℝ α ε))

/-- The runs with folds, none of which has a single test event. -/
lemma suffices_iff (hread : ∀ b f t, read b f = .ok t → TableOk t) {sc : Script} {o : Namespace F} (hdom : o.domain.length = 3) {j : J V}
    (h : task env lib clock environment read sc o = .ok j) :
    Suffices read o ↔ (∃ key, j.HasFold key) ∧ ¬ j.OneTest := by
  obtain ⟨M, rec, s, h1, h2, _, h4⟩ := task_run env lib read sc o (task_method h)
  obtain ⟨cond, e⟩ := (h4 clock environment).1
  rw [e] at h
  have hs := setRun_with h2 cond environment
  generalize ({ s with condition := cond, environment := environment } : Setting ℝ F V) = s' at hs h
  have hload : Loads (loader read sc o.timestamp : Loader ℝ α φ ε F) := loader_loads hread sc o.timestamp
  unfold Suffices
  by_cases hcv : o.validation = "cv"
  · have hcv' : s'.cv = true := hs.cv.2 hcv
    obtain ⟨d, dm, hl⟩ := cv_loaded hload hcv' h
    have hl' := hl
    rw [hs.trainFile, hs.scoreDomain] at hl'
    obtain ⟨t, scs, dm', ht, hH, _⟩ := loader_holding hread sc o.timestamp hdom hl'
    rw [cv_oneTest_iff hload hcv' hl hH h, cv_folds hload hcv' h, hs.nFolds]
    constructor
    · rintro (⟨_, k1, k2⟩ | ⟨k, _⟩)
      · exact ⟨k1, fun k => k2 t ht k.2⟩
      · exact absurd hcv k
    · rintro ⟨k1, k2⟩
      refine .inl ⟨hcv, k1, fun t' ht' k => ?_⟩
      rw [ht] at ht'
      cases ht'
      exact k2 ⟨k1, k⟩
  · have hcv' : s'.cv = false := by
      by_contra k
      rw [Bool.not_eq_false, hs.cv] at k
      exact hcv k
    obtain ⟨k1, f, train, test, dm₁, dm₂, rows, scs, k2, k3, k4, k5, k6⟩ := holdout_oneTest_iff hload hcv' h
    rw [hs.trainFile, hs.scoreDomain] at k3
    obtain ⟨_, _, _, _, _, h3⟩ := loader_holding hread sc o.timestamp hdom k3
    obtain ⟨t, scs', dm', ht, hH, _⟩ := loader_holding hread sc o.timestamp h3 k4
    have hrows : rows = t.event.rows := by
      have e1 := externalEvents_built k5.inv.1
      have e2 := externalEvents_built hH.built.inv.1
      rw [e1] at e2
      simpa using e2
    subst hrows
    rw [hs.testFile] at k2
    rw [k6]
    constructor
    · rintro (⟨k, _⟩ | ⟨_, k⟩)
      · exact absurd k hcv
      · exact ⟨⟨_, k1⟩, k f t k2 ht⟩
    · rintro ⟨_, k⟩
      refine .inr ⟨hcv, fun f' t' hf' ht' => ?_⟩
      rw [k2] at hf'
      cases hf'
      rw [ht] at ht'
      cases ht'
      exact k

/-- No statistics of other runs. -/
lemma stats_fail {se : StatsEnv V} (hread : ∀ b f t, read b f = .ok t → TableOk t) (hnames : env.names.Nodup) {sc : Script}
    {o : Namespace F} {j : J V} (h : task env lib clock environment read sc o = .ok j)
    (hn : ¬ ((∃ key, j.HasFold key) ∧ ¬ j.OneTest)) (keepdata : Bool) : ∃ e, stats se keepdata j = .error e := by
  obtain ⟨M, rec, s, h1, h2, _, h4⟩ := task_run env lib read sc o (task_method h)
  obtain ⟨cond, e⟩ := (h4 clock environment).1
  rw [e] at h
  have hload : Loads (loader read sc o.timestamp : Loader ℝ α φ ε F) := loader_loads hread sc o.timestamp
  by_cases hk : ∃ key, j.HasFold key
  · have hone : j.OneTest := by
      by_contra k
      exact hn ⟨hk, k⟩
    obtain ⟨key, hk⟩ := hk
    exact C97_single (tru := lib.leaf .none) hload h1.scoresEach hnames (.run h) hk hone se keepdata
  · generalize ({ s with condition := cond, environment := environment } : Setting ℝ F V) = s' at h
    cases hcv : s'.cv with
    | true => exact stats_no_folds hload hcv h hk se keepdata
    | false =>
      obtain ⟨k1, _⟩ := holdout_oneTest_iff hload hcv h
      exact absurd ⟨_, k1⟩ hk

/-- C104: the statistics script computes statistics from the result file of a score predictor exactly when there is a fold
and no fold has a single test event; this can be seen from the command line and the data files. -/
theorem C104_predictor_statistics_defined {se : StatsEnv V} (hr : ∀ x, se.float (env.num x) = .ok (.fin x))
    (htext : ∀ s, se.text (lib.leaf (.str s)) = some s) (hread : ∀ b f t, read b f = .ok t → TableOk t) (hnames : env.names.Nodup)
    {o : Namespace F} {a b c : ℝ} (hdom : o.domain = [a, b, c]) (hc : 0 ≤ c) {j : J V}
    (h : task env lib clock environment read .sp o = .ok j) (keepdata : Bool) :
    (∃ out, stats se keepdata j = .ok out) ↔ Suffices read o := by
  rw [suffices_iff env lib clock environment read hread (by rw [hdom]; rfl) h]
  constructor
  · rintro ⟨out, ho⟩
    by_contra hn
    obtain ⟨e, he⟩ := stats_fail (se := se) env lib clock environment read hread hnames h hn keepdata
    rw [ho] at he
    cases he
  · rintro ⟨⟨key, hk⟩, hone⟩
    obtain ⟨M, rec, out, e, xs, _, _, _, _, h1, _⟩ := C102_predictor_statistics env lib clock environment read hr htext hread hnames hdom hc h hk hone keepdata
    exact ⟨out, h1⟩

/-- C104: the same for the result file of an item finder. -/
theorem C104_finder_statistics_defined {se : StatsEnv V} (hr : ∀ x, se.float (env.num x) = .ok (.fin x))
    (htext : ∀ s, se.text (lib.leaf (.str s)) = some s) (hread : ∀ b f t, read b f = .ok t → TableOk t) (hnames : env.names.Nodup)
    {o : Namespace F} (hdom : o.domain.length = 3) {j : J V}
    (h : task env lib clock environment read .itemFinder o = .ok j) (keepdata : Bool) :
    (∃ out, stats se keepdata j = .ok out) ↔ Suffices read o := by
  rw [suffices_iff env lib clock environment read hread hdom h]
  constructor
  · rintro ⟨out, ho⟩
    by_contra hn
    obtain ⟨e, he⟩ := stats_fail (se := se) env lib clock environment read hread hnames h hn keepdata
    rw [ho] at he
    cases he
  · rintro ⟨⟨key, hk⟩, hone⟩
    obtain ⟨M, rec, e, xs, _, _, _, h3, h4, _, h5⟩ := C102_finder_statistics env lib clock environment read hr htext hread hnames h hk hone keepdata
    have hne : xs ≠ [] := by
      rintro rfl
      obtain ⟨M', rec', s, k1, k2, _, k4⟩ := task_run env lib read .itemFinder o (task_method h)
      obtain ⟨cond, e'⟩ := (k4 clock environment).1
      rw [e'] at h
      have hs := setRun_with k2 cond environment
      generalize ({ s with condition := cond, environment := environment } : Setting ℝ F V) = s' at hs h
      have hload : Loads (loader read .itemFinder o.timestamp : Loader ℝ α φ ε F) := loader_loads hread .itemFinder o.timestamp
      cases hcv : s'.cv with
      | true =>
        obtain ⟨data, d', dm, rows, scs, trainI, testI, g, g', m, res, esc, _, a2, a3, _, _, _, _, a4, a5, _⟩ :=
          C61_test_disjoint_from_training hload hcv h key hk
        have hp : j.path ["prediction", "event", key] = (j.path ["prediction", "event"] >>= fun x => x.item key) := by simp [J.path]
        rw [hp, h3, ok_bind] at a5
        have : gather rows testI = [] := by
          cases hf : e with
          | leaf v => rw [hf] at a5; cases a5
          | list l => rw [hf] at a5; cases a5
          | dict dd =>
            rw [hf] at a5 h4
            generalize hz : ([] : List (List α × ℝ × ℝ)).map (fun x => J.list (x.1.map (fun y => J.leaf (env.id y)))) = zs at h4
            cases h4 with
            | dict _ parts hparts =>
              have hz' : parts.flatten = [] := hz.symm
              unfold J.item Dict.getItem at a5
              cases hg : Dict.get? dd key with
              | none => simp only [hg] at a5; cases a5
              | some v =>
                simp only [hg, Except.ok.injEq] at a5
                have hv : v ∈ dd.map (·.2) := List.mem_map.2 ⟨_, mem_of_get? hg, rfl⟩
                rw [hparts] at hv
                obtain ⟨p, hp, rfl⟩ := List.mem_map.1 hv
                have : p = [] := List.flatten_eq_nil_iff.1 hz' p hp
                subst this
                simp only [encEvents, J.list.injEq] at a5
                exact List.map_eq_nil_iff.1 a5.symm
        rw [this] at a4
        exact k1.needs m esc a4
      | false =>
        obtain ⟨f, train, test, dom₁, dom₂, trows, rows, tsc, scs, g, g', m, res, esc, _, _, _, _, _, _, a7, _, _, _, _, a8, _⟩ :=
          C64_holdout_partial hload hcv h
        rw [h3] at a8
        cases a8
        unfold encEvents at h4
        generalize hz : ([] : List (List α × ℝ × ℝ)).map (fun x => J.list (x.1.map (fun y => J.leaf (env.id y)))) = zs at h4
        cases h4
        have : rows = [] := List.map_eq_nil_iff.1 hz.symm
        subst this
        exact k1.needs m esc a7
    obtain ⟨out, ho, _⟩ := h5 hne
    exact ⟨out, ho⟩

end

end Kam.Exp
