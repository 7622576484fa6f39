/-
C105: the range of the predictions in a result file.
-/
import Verif.Exp.Examples
import Verif.MF.Sigmoid

set_option linter.unusedSectionVars false

namespace Kam.Exp
open Scripts Spec

variable {F α φ ε V T γ : Type} [LinearOrder α]

/-! ### Specification -/

/-- Where the predictions are in the result file of a run. -/
inductive PredictedAt (o : Namespace F) (j : J V) : List String → Prop
  | fold {key : String} : o.validation = "cv" → j.HasFold key → PredictedAt o j ["prediction", "predicted", key]
  | holdout : o.validation ≠ "cv" → PredictedAt o j ["prediction", "predicted"]

/-- Every prediction in a result file satisfies `P`. -/
def AllPredictions (env : Env ℝ α ε F V T γ) (o : Namespace F) (j : J V) (P : ℝ → Prop) : Prop :=
  ∀ p, PredictedAt o j p → ∃ ys, ys ≠ [] ∧ j.path p = .ok (encPred env (squeeze ys)) ∧ ∀ y ∈ ys, P y

/-! ### Lemmas -/

/-- The score domain of the container a script trains with. -/
def workDomain (sc : Script) (dm : List ℝ) : List ℝ := match sc with | .sp => dm | .itemFinder => [0, 1, 1]

lemma forall₂_mem {A B : Type} {R : A → B → Prop} {xs : List A} {ys : List B} (h : List.Forall₂ R xs ys) {y : B} (hy : y ∈ ys) : ∃ x ∈ xs, R x y := by
  induction h with
  | nil => cases hy
  | cons hh _ ih =>
    rcases List.mem_cons.1 hy with rfl | hy
    · exact ⟨_, by simp, hh⟩
    · obtain ⟨row, h1, h2⟩ := ih hy
      exact ⟨row, by simp [h1], h2⟩

/-- The container a script trains with, and how it was filled. -/
lemma loader_domain {read : Bool → F → Res (Table ℝ α ε)} (hread : ∀ b f t, read b f = .ok t → TableOk t) (sc : Script) (b : Bool) {f : F}
    {dom dm : List ℝ} {d : ScoreData ℝ α φ ε} (h3 : dom.length = 3) (h : (loader read sc b : Loader ℝ α φ ε F) f dom = .ok (d, dm)) :
    ∃ t scs, read b f = .ok t ∧ DomainOf dom t.score dm ∧ Holding d t scs (workDomain sc dm) := by
  cases sc with
  | sp =>
    obtain ⟨t, ht⟩ := loadSP_read h
    obtain ⟨hD, hH⟩ := (loadDataSP_iff ht (hread _ _ _ ht) dom dm h3).1 d h
    exact ⟨t, _, ht, hD, hH⟩
  | itemFinder =>
    obtain ⟨t, ht⟩ := loadIF_read h
    obtain ⟨hD, hH, _⟩ := (loadDataIF_iff ht (hread _ _ _ ht) dom dm h3).1 d h
    exact ⟨t, _, ht, hD, hH⟩

/-- Predictions of a fold: those of a recommender fitted to events of the file. -/
lemma predicted_by (env : Env ℝ α ε F V T γ) (lib : Lib α φ ε V γ) (clock : Nat → T) (environment : Dict String (J V))
    (read : Bool → F → Res (Table ℝ α ε)) (hread : ∀ b f t, read b f = .ok t → TableOk t) {sc : Script} {o : Namespace F} (hdom : o.domain.length = 3) {j : J V}
    (h : task env lib clock environment read sc o = .ok j) :
    ∃ (M : Type) (rec : Recommender ℝ α φ ε V γ M) (t : Table ℝ α ε) (dm : List ℝ), Trained lib o sc M rec ∧
      read o.timestamp (o.infile.getD o.infilep) = .ok t ∧ DomainOf o.domain t.score dm ∧
      j.path ["condition", "score_domain"] = .ok (encScores env dm) ∧
      ∀ p, PredictedAt o j p → ∃ (d : ScoreData ℝ α φ ε) (rows : List (List α)) (scs : List ℝ) (evs : List (List α)) (g g' : γ) (m : M) (res : Dict String (J V)) (esc : Pred ℝ),
        ScoreBuilt d rows scs ∧ (t.event.rows ≠ [] → rows ≠ []) ∧ d.eventOtypes = [0, 1] ∧
        d.scoreDomain = some (workDomain sc dm) ∧ evs ≠ [] ∧ (∀ r ∈ evs, r.length = 2) ∧
        rec.fit g d = .ok (m, res, g') ∧ rec.predict m evs = .ok esc ∧ j.path p = .ok (encPred env esc) := by
  obtain ⟨M, rec, s, h1, h2, _, h4⟩ := task_run env lib read sc o (task_method h)
  obtain ⟨cond, e⟩ := (h4 clock environment).1
  rw [e] at h
  have hs := setRun_with h2 cond environment
  generalize ({ s with condition := cond, environment := environment } : Setting ℝ F V) = s' at hs h
  have hload : Loads (loader read sc o.timestamp : Loader ℝ α φ ε F) := loader_loads hread sc o.timestamp
  have hset : Settles (loader read sc o.timestamp : Loader ℝ α φ ε F) := by
    cases sc with
    | sp => exact loadDataSP_settles _
    | itemFinder => exact loadDataIF_settles _
  obtain ⟨d, dm, k1, k2⟩ := recorded_domain env clock hload hset h
  have k1' := k1
  rw [hs.trainFile, hs.scoreDomain] at k1'
  obtain ⟨t, scs, ht, hD, hH⟩ := loader_domain hread sc o.timestamp hdom k1'
  refine ⟨M, rec, t, dm, h1, ht, hD, k2, ?_⟩
  intro p hp
  cases hp with
  | @fold key hcv hk =>
    have hcv' : s'.cv = true := hs.cv.2 hcv
    have hpos : 0 < s'.nFolds := (cv_folds hload hcv' h).1 ⟨key, hk⟩
    obtain ⟨_, _, hn⟩ := doTask_cv_needs hcv' h1.needs k1 hH h
    obtain ⟨hrne, h2each, _⟩ := hn hpos
    obtain ⟨data, dm₁, ev, sc₁, users, items, groups, l, hl, hsc, hj, hf, hr⟩ := doTask_cv hcv' hload.score h
    have hld := hl.load
    rw [k1] at hld
    cases hld
    have hev : ev = t.event.rows := by
      have e1 := hl.events
      rw [externalEvents_built hH.built.inv.1] at e1
      simpa using e1.symm
    subst hev
    rw [hj, hasFold_tree] at hk
    obtain ⟨x, hx, rfl⟩ := List.mem_map.1 hk
    have hx0 := hx
    obtain ⟨r, hrl, rfl⟩ := List.mem_map.1 hx
    obtain ⟨hdr, g, d', m, g', f1, f2, f3⟩ := hr r hrl
    have hnd : ((l.map (recOf env t.event.rows sc₁ d.eventFeature)).map (·.key)).Nodup := by
      have : (l.map (recOf env t.event.rows sc₁ d.eventFeature)).map (·.key) = (l.map (·.fold)).map Nat.repr := by
        simp [recOf]
      rw [this, hf]
      refine List.Nodup.map (fun a b h => Nat.repr_injective h) ?_
      unfold wanted
      exact List.Nodup.filter _ (List.nodup_range')
    have hsp : FifthSplit t.event.rows r.trainI r.testI := FifthSplit.of_drawn (K := ℝ) hl.groups hdr
    have hix : ∀ i ∈ r.trainI, i < t.event.rows.length := fun i hi => ((hsp.fold.train_iff i).1 hi).1
    obtain ⟨d'', hf', e1, e2, e3, _⟩ := filter_total hH hix
    rw [f1] at hf'
    cases hf'
    refine ⟨d', _, _, gather t.event.rows r.testI, g, g', m, r.res, r.esc, e1, ?_, e2, e3, ?_, ?_, f2, f3, ?_⟩
    · intro _ e
      have := congrArg List.length e
      rw [length_gather _ _ hix] at this
      exact hsp.train_nonempty (rows_two hH) hrne h2each (List.length_eq_zero_iff.1 this)
    · intro e
      have := congrArg List.length e
      rw [length_gather _ _ hsp.fold.test_lt] at this
      exact hsp.nonempty (rows_two hH) hrne (List.length_eq_zero_iff.1 this)
    · exact fun r hr => rows_two hH r (mem_of_mem_gather hr)
    · rw [hj, path_predicted _ _ hnd hx0]; rfl
  | holdout hcv =>
    have hcv' : s'.cv = false := by
      by_contra k
      rw [Bool.not_eq_false, hs.cv] at k
      exact hcv k
    obtain ⟨f, train, test, dom₁, dom₂, trows, rows, tsc, sc₁, g, g', m, res, esc, a1, a2, a3, a4, a5, a6, a7, _, _, _, _, _, _, a8, _⟩ :=
      C64_holdout_partial hload hcv' h
    rw [k1] at a2
    cases a2
    obtain ⟨t', _, _, _, hH', _⟩ := loader_holding hread sc o.timestamp (by
      obtain ⟨_, _, _, rfl, _⟩ := hD.stride
      rfl) a3
    have hrows : rows = t'.event.rows := by
      have e1 := externalEvents_built a5.inv.1
      have e2 := externalEvents_built hH'.built.inv.1
      rw [e1] at e2
      simpa using e2
    subst hrows
    refine ⟨d, t.event.rows, scs, t'.event.rows, g, g', m, res, esc, hH.built, _root_.id, hH.otypes, hH.domain, ?_, rows_two hH', a6, a7, a8⟩
    intro e
    rw [e] at a7
    exact h1.needs m esc a7

lemma guardK_pos {M : Type} {k : Int} {rec : Recommender ℝ α φ ε V γ M} (hk : 0 ≤ k) : guardK k rec = rec := by
  unfold guardK
  rw [if_neg (by omega)]

lemma squeeze_inj {xs ys : List ℝ} (h : squeeze xs = squeeze ys) : xs = ys := by
  unfold squeeze at h
  split at h <;> split at h
  · cases h; rfl
  · cases h
  · cases h
  · cases h; rfl

section
variable (env : Env ℝ α ε F V T γ) (lib : Lib α φ ε V γ) (clock : Nat → T) (environment : Dict String (J V))
    (read : Bool → F → Res (Table ℝ α ε))

/-- C105: with a regular score domain, the predictions of a topic model in a result file are between the smallest and the largest
score of the recorded domain, and those of the mode are score levels. -/
theorem C105_topic_model_range (hread : ∀ b f t, read b f = .ok t → TableOk t) (hR : PLSA.DrawsWeights lib.dirichlet)
    {o : Namespace F} (hm : o.method = "plsam" ∨ o.method = "plsamm") (ha : 0 < o.alpha) (hdom : o.domain.length = 3)
    (hne : ∀ t, read o.timestamp (o.infile.getD o.infilep) = .ok t → t.event.rows ≠ [])
    (hreg : ∀ t dm, read o.timestamp (o.infile.getD o.infilep) = .ok t → DomainOf o.domain t.score dm → Regular dm)
    {j : J V} (h : task env lib clock environment read .sp o = .ok j) :
    ∃ (lo st : ℝ) (m : Nat), 0 < st ∧ j.path ["condition", "score_domain"] = .ok (encScores env [lo, lo + (m : ℝ) * st, st]) ∧
      AllPredictions env o j (fun y => lo ≤ y ∧ y ≤ lo + (m : ℝ) * st) ∧
      (o.method = "plsamm" → AllPredictions env o j (fun y => ∃ i : Nat, i ≤ m ∧ y = lo + (i : ℝ) * st)) := by
  obtain ⟨M, rec, t, dm, hT, ht, hD, k1, k2⟩ := predicted_by env lib clock environment read hread hdom h
  obtain ⟨lo, st, n, rfl, hst⟩ := hreg t dm ht hD
  refine ⟨lo, st, n, hst, k1, ?_⟩
  have key : ∀ p, PredictedAt o j p → ∃ ys, ys ≠ [] ∧ j.path p = .ok (encPred env (squeeze ys)) ∧
      ∀ y ∈ ys, (lo ≤ y ∧ y ≤ lo + (n : ℝ) * st) ∧ (o.method = "plsamm" → ∃ i : Nat, i ≤ n ∧ y = lo + (i : ℝ) * st) := by
    intro p hp
    obtain ⟨d, rows, scs, evs, g, g', m, res, esc, b1, b2, b3, b4, b5, b6, b7, b8, b9⟩ := k2 p hp
    have hk := hT.k b7
    cases hT with
    | pmf cf h1 _ => rw [h1] at hm; simp at hm
    | plsa cf e hme hs =>
      rw [guardK_pos hk] at b7 b8
      unfold predictor at b7 b8
      simp only [] at b7 b8
      split at b7
      · rename_i r' hr
        cases b7
        have hR' : PLSA.DrawsWeights cf.rng := by rw [hs.rng]; exact hR
        obtain ⟨nl, θ, levels, _, _, c1, c2⟩ := PLSA.C43_prediction (by rw [hs.alpha]; exact ha) hR' b1 (b2 (hne t ht)) b3 none (.inl rfl) hr
        obtain ⟨ys, c3, c4⟩ := c2 ⟨2, evs⟩ b6 rfl b5
        rw [b8] at c3
        cases c3
        obtain ⟨ls, d1, d2, d3, _⟩ := C16_nearest_level b1 lo _ st n b4 hst rfl
        rw [c1] at d1
        cases d1
        refine ⟨ys, ?_, b9, ?_⟩
        · rintro rfl
          cases c4
          exact b5 rfl
        · intro y hy
          obtain ⟨row, hrow, hpr⟩ := forall₂_mem c4 hy
          have h2 := b6 row hrow
          match row, h2 with
          | [x, i], _ =>
            have hp := hpr x i rfl
            have lev : ∀ (i : Nat) (l : ℝ), levels[i]? = some l → i ≤ n ∧ l = lo + (i : ℝ) * st := by
              intro i l hl
              have hi : i < levels.length := by
                by_contra hge
                rw [List.getElem?_eq_none (by omega)] at hl
                cases hl
              exact ⟨by omega, d3 i l hl⟩
            have inside : ∀ (i : Nat) (l : ℝ), levels[i]? = some l → lo ≤ l ∧ l ≤ lo + (n : ℝ) * st := by
              intro i l hl
              obtain ⟨hi, rfl⟩ := lev i l hl
              have h1 : (0 : ℝ) ≤ (i : ℝ) := Nat.cast_nonneg i
              have h2 : (i : ℝ) ≤ (n : ℝ) := by exact_mod_cast hi
              constructor
              · nlinarith
              · nlinarith
            cases e with
            | true =>
              unfold PLSA.PredictedScore at hp
              rw [hs.expectation, if_pos rfl] at hp
              obtain ⟨l, hl, _, q1, q2⟩ := hp
              have hget : ∀ r : Fin nl, levels[(r : Nat)]? = some (l r) := by
                intro r
                rw [hl, List.getElem?_ofFn, dif_pos r.2]
              refine ⟨⟨q1 _ fun r => (inside _ _ (hget r)).1, q2 _ fun r => (inside _ _ (hget r)).2⟩, ?_⟩
              intro e
              rw [hme] at e
              simp at e
            | false =>
              unfold PLSA.PredictedScore at hp
              rw [hs.expectation, if_neg (by simp)] at hp
              obtain ⟨r, hr', _⟩ := hp
              exact ⟨inside _ _ hr', fun _ => ⟨_, (lev _ _ hr').1, (lev _ _ hr').2⟩⟩
      · cases b7
  constructor
  · intro p hp
    obtain ⟨ys, a1, a2, a3⟩ := key p hp
    exact ⟨ys, a1, a2, fun y hy => (a3 y hy).1⟩
  · intro e p hp
    obtain ⟨ys, a1, a2, a3⟩ := key p hp
    exact ⟨ys, a1, a2, fun y hy => (a3 y hy).2 e⟩

/-- C105: the predictions of logistic matrix factorization in a result file are probabilities, neither 0 nor 1. -/
theorem C105_logistic_range (hread : ∀ b f t, read b f = .ok t → TableOk t) {o : Namespace F} (hdom : o.domain.length = 3) {j : J V}
    (h : task env lib clock environment read .itemFinder o = .ok j) : AllPredictions env o j (fun y => 0 < y ∧ y < 1) := by
  obtain ⟨M, rec, t, dm, hT, ht, hD, _, k2⟩ := predicted_by env lib clock environment read hread hdom h
  intro p hp
  obtain ⟨d, rows, scs, evs, g, g', m, res, esc, b1, b2, b3, b4, b5, b6, b7, b8, b9⟩ := k2 p hp
  have hk := hT.k b7
  cases hT with
  | lpmf cf _ hs =>
    rw [guardK_pos hk] at b7 b8
    unfold finder at b7 b8
    simp only [] at b7 b8
    split at b7
    · rename_i r' hr
      cases b7
      obtain ⟨q, _, _, _, c2⟩ := MF.C32_unknown_objects (MF.Model.logistic (cf := cf)) b1.inv.1 b3 none (.inl rfl) (.explicit hr)
      obtain ⟨ys, c3, c4⟩ := c2 ⟨2, evs⟩ b6 rfl b5
      rw [b8] at c3
      cases c3
      refine ⟨ys, ?_, b9, ?_⟩
      · rintro rfl
        cases c4
        exact b5 rfl
      · intro y hy
        obtain ⟨row, hrow, hpr⟩ := forall₂_mem c4 hy
        have h2 := b6 row hrow
        have link : ∃ z, y = MF.safeSigmoid z := by
          match row, h2 with
          | [x, i], _ =>
            obtain ⟨p1, p2, p3, p4⟩ := hpr x i rfl
            by_cases hx : IsObject [0, 1] rows 0 x <;> by_cases hi : IsObject [0, 1] rows 1 i
            · obtain ⟨_, _, _, _, _, _, _, _, e⟩ := p4 hx hi
              exact ⟨_, e⟩
            · obtain ⟨_, _, e⟩ := p2 hx hi
              exact ⟨_, e⟩
            · obtain ⟨_, _, e⟩ := p1 hx hi
              exact ⟨_, e⟩
            · exact ⟨_, p3 hx hi⟩
        obtain ⟨z, rfl⟩ := link
        obtain ⟨l1, l2⟩ := MF.C34_safe_sigmoid.2.2.1 z
        constructor
        · exact lt_of_lt_of_le (by norm_num) l1
        · exact lt_of_le_of_lt l2 (by norm_num)
    · cases b7

end

/-- C105 is not vacuous: the example runs have predictions in a fold. -/
example : (∃ o j lo hi, task Ex.env Ex.lib id [] Ex.read .sp o = .ok j ∧ AllPredictions Ex.env o j (fun y => lo ≤ y ∧ y ≤ hi) ∧
      PredictedAt o j ["prediction", "predicted", "2"]) ∧
    ∃ o j, task Ex.env Ex.lib id [] Ex.read .itemFinder o = .ok j ∧ AllPredictions Ex.env o j (fun y => 0 < y ∧ y < 1) := by
  constructor
  · obtain ⟨o, h0, h1, h2, h3, h4, h5, h6, h7, h8⟩ := Ex.run .sp "plsam" (by simp [Script.choices])
    obtain ⟨j, hj⟩ := h8 id []
    obtain ⟨_, _, _, _, _, _, k, _⟩ := C102_distributed Ex.env Ex.lib _root_.id [] Ex.read (se := Ex.senv) (fun _ => rfl)
      (fun _ _ => Metrics.pairsAuc_perm) Ex.read_ok (by decide) h2 h4 h5 hj [2, 0, 1] (by rw [h3]; decide) (by simp) (fun _ t => t)
      (fun _ => []) (fun _ => "out") (fun _ => false) (.bool true) (.bool false)
    have ha : o.alpha = 1 := (C99_options h0).alpha
    obtain ⟨lo, st, m, _, _, hall, _⟩ := C105_topic_model_range Ex.env Ex.lib _root_.id [] Ex.read Ex.read_ok (fun _ _ _ => zero_le_one) (.inl h1)
      (by rw [ha]; exact one_pos) (by rw [h6]; rfl) (by
        intro t ht
        rw [h7] at ht
        cases ht
        simp [Ex.rows]) (by
        intro t dm _ hD
        rw [h6] at hD
        cases hD with
        | given e _ => cases e; exact ⟨1, 1, 4, by norm_num, one_pos⟩
        | estimated e _ _ _ _ => norm_num at e) hj
    exact ⟨o, j, _, _, hj, hall, .fold h2 ((k 2).2 (by omega))⟩
  · obtain ⟨o, h0, h1, h2, h3, h4, h5, h6, h7, h8⟩ := Ex.run .itemFinder "lpmf" (by simp [Script.choices])
    obtain ⟨j, hj⟩ := h8 id []
    exact ⟨o, j, hj, C105_logistic_range _ _ _ _ _ Ex.read_ok (by rw [h6]; rfl) hj⟩

end Kam.Exp
